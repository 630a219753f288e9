import Verif.Model.AddSub

/-!
# Big numbers: construction, addition and subtraction

This file and the files `UBigMul` and `UBig` model `src/ubig.rs` and the operators of
`src/ubig/ops.rs`.

A `UBig<T>` is modelled by the content of its vector `digits`, the least significant digit first.
Operators that only clone and forward (`Add<&UBig> for UBig`, `Add<UBig> for &UBig`, ...) are
modelled by the function they forward to; each definition lists them.
A panic with a message (`panic!("Failed to ...")`) is `Panic.explicit`.
-/

namespace Babs

section
variable (D : DigitOps)

/-- `src/ubig.rs:70-79`, `UBig::drop_leading_zeros`. -/
def normalise (digits : List Nat) : R (List Nat) := do
  return digits.take (← dropLeadingZeros digits digits.length)

/-- `src/ubig.rs:49-55`, `UBig::new`. -/
def ubigNew (digits : List Nat) : R (List Nat) := normalise digits

/-- `src/ubig.rs:345-348`, `UBig::zero`. -/
def ubigZero : List Nat := []

/-- `src/ubig.rs:350-353`, `UBig::is_zero`. -/
def isZero (x : List Nat) : Bool := x.isEmpty

/-- `src/ubig.rs:359-362`, `UBig::one`. -/
def ubigOne : List Nat := [1]

/-! ## Addition -/

/-- `src/ubig.rs:82-109`, `add_assign_big_at_offset`. -/
def addAtOffset (x y : List Nat) (offset : Nat) : R (List Nat) := do
  let n0 := x.length
  let n1 := y.length
  if n0 ≤ offset then return x ++ List.replicate (offset - n0) 0 ++ y
  else if n1 ≤ n0 - offset then
    let (x, carry) ← onSlice x offset x.length (fun s => addAssignBig D s y)
    return if carry then x ++ [1] else x
  else
    let x := x ++ y.drop (n0 - offset)
    let (x, carry) ← onSlice x offset x.length (fun s => addAssignBig D s (y.take (n0 - offset)))
    return if carry then x ++ [1] else x

/-- `src/ubig/ops.rs:65-81` (`+=` with a big number) and `146-185` (`+`). -/
def addBig (x y : List Nat) : R (List Nat) := addAtOffset D x y 0

/-- `src/ubig/ops.rs:19-29` (`+=` with a digit) and `83-102` (`+`). -/
def addDigit (x : List Nat) (digit : Nat) : R (List Nat) := do
  let (x, c) ← addAssignDigit D x digit
  match c with
  | some carry => return x ++ [carry]
  | none => return x

/-- `src/ubig/ops.rs:40-63` (`+=` of a decimal number with a word), `rx` is the radix. -/
def addWordDec (rx : Nat) (x : List Nat) (n : Nat) : R (List Nat) := do
  if n < rx then addDigit D x n
  else
    let (high, low) := (n / rx, n % rx)
    let x ← addDigit D x low
    let x := if x = [] then [0] else x
    let (x, c) ← onSlice x 1 x.length (fun s => addAssignDigit D s high)
    match c with
    | some carry => return x ++ [carry]
    | none => return x

/-! ## Subtraction -/

/-- `src/ubig.rs:113-126`, `sub_assign_big_at_offset`. -/
def subAtOffset (x y : List Nat) (offset : Nat) : R (List Nat × Res Unit) := do
  if x.length < offset then return (x, .error .underflow)
  else
    let (x, r) ← onSlice x offset x.length (fun s => subAssignBig D s y)
    match r with
    | .error e => return (x, .error e)
    | .ok n0 => return (x.take n0, .ok ())

/-- `src/ubig/ops.rs:875-894` (`-=` with a big number) and `959-998` (`-`). -/
def subBig (x y : List Nat) : R (List Nat) := do
  match ← subAtOffset D x y 0 with
  | (x, .ok ()) => return x
  | (_, .error _) => throw .explicit

/-- `src/ubig/ops.rs:831-842` (`-=` with a digit) and `896-915` (`-`). -/
def subDigit (x : List Nat) (digit : Nat) : R (List Nat) := do
  match ← subAssignDigit D x digit with
  | (x, .ok nd) => return x.take nd
  | (_, .error _) => throw .explicit

/-- `src/ubig/ops.rs:853-873` (`-=` of a decimal number with a word). -/
def subWordDec (rx : Nat) (x : List Nat) (n : Nat) : R (List Nat) := do
  if n < rx then subDigit D x n
  else
    let (high, low) := (n / rx, n % rx)
    let x ← subDigit D x low
    match ← onSlice x 1 x.length (fun s => subAssignDigit D s high) with
    | (x, .ok nd) => return x.take nd
    | (_, .error _) => throw .explicit

end

end Babs
