import Verif.Model.Digit

/-!
# Digit slices: comparison, addition, subtraction, shifts

Models `src/ubig/support.rs`, `cmp.rs`, `add.rs`, `sub.rs`, `rsub.rs`, `shl.rs`, `shr.rs`.
Digits are in little endian order.  A function on `&mut [T]` returns the new content of the slice
together with its result.
-/

namespace Babs

/-- The loop of `drop_leading_zeros`, counting `n` down. -/
def dropZerosGo (nr : List Nat) : Nat → R Nat
  | 0 => .ok 0
  | n + 1 => do if (← getR nr n) = 0 then dropZerosGo nr n else return n + 1

/-- `src/ubig/support.rs:19-29`, `drop_leading_zeros`. -/
def dropLeadingZeros (nr : List Nat) (len : Nat) : R Nat := dropZerosGo nr len

/-- `Iterator::cmp` on two digit sequences: lexicographic order. -/
def lexCmp : List Nat → List Nat → Ordering
  | [], [] => .eq
  | [], _ :: _ => .lt
  | _ :: _, [] => .gt
  | a :: as, b :: bs => (compare a b).then (lexCmp as bs)

/-- `src/ubig/cmp.rs:19-23`, `cmp`. -/
def cmpBig (nr0 nr1 : List Nat) : Ordering :=
  (compare nr0.length nr1.length).then (lexCmp nr0.reverse nr1.reverse)

/-- `src/ubig/cmp.rs:27-31`, `lt`. -/
def ltBig (nr0 nr1 : List Nat) : Bool := cmpBig nr0 nr1 == .lt

/-- `nr.iter_mut().fold(c, |c, d| f(d, c))`, from the least significant digit. -/
def foldDigits {C : Type} (f : Nat → C → R (Nat × C)) : List Nat → C → R (List Nat × C)
  | [], c => .ok ([], c)
  | d :: ds, c => do
    let (d', c) ← f d c
    let (ds', c) ← foldDigits f ds c
    return (d' :: ds', c)

/-- `nr.iter_mut().rev().fold(c, |c, d| f(d, c))`, from the most significant digit. -/
def foldDigitsRev {C : Type} (f : Nat → C → R (Nat × C)) : List Nat → C → R (List Nat × C)
  | [], c => .ok ([], c)
  | d :: ds, c => do
    let (ds', c) ← foldDigitsRev f ds c
    let (d', c) ← f d c
    return (d' :: ds', c)

/-- `nr0.iter_mut().zip(nr1).fold(c, |c, (d0, d1)| f(d0, d1, c))`: stops at the shorter of the two;
the rest of `nr0` is left as it is. -/
def zipDigits {C : Type} (f : Nat → Nat → C → R (Nat × C)) :
    List Nat → List Nat → C → R (List Nat × C)
  | d0 :: l0, d1 :: l1, c => do
    let (d0', c) ← f d0 d1 c
    let (l0', c) ← zipDigits f l0 l1 c
    return (d0' :: l0', c)
  | l0, _, c => .ok (l0, c)

/-- A loop `for ((&d0, &d1), dr) in nr0.zip(nr1).zip(out) { *dr = d0; c = f(dr, d1, c) }`. -/
def zipInto {C : Type} (f : Nat → Nat → C → R (Nat × C)) :
    List Nat → List Nat → List Nat → C → R (List Nat × C)
  | d0 :: l0, d1 :: l1, _ :: out, c => do
    let (dr, c) ← f d0 d1 c
    let (out', c) ← zipInto f l0 l1 out c
    return (dr :: out', c)
  | _, _, out, c => .ok (out, c)

section
variable (D : DigitOps) (dbg : Bool)

/-- `src/ubig/add.rs:20-31`, `inc_assign`. -/
def incAssign : List Nat → R (List Nat × Bool)
  | [] => .ok ([], true)
  | d :: ds => do
    let (d', c) ← D.inc d
    if !c then return (d' :: ds, false)
    else
      let (ds', c) ← incAssign ds
      return (d' :: ds', c)

/-- `src/ubig/add.rs:35-54`, `add_assign_digit`. -/
def addAssignDigit (nr : List Nat) (digit : Nat) : R (List Nat × Option Nat) :=
  if digit = 0 then .ok (nr, none)
  else match nr with
    | [] => .ok ([], some digit)
    | d :: ds => do
      let (d', c) ← D.addCarry d digit false
      if c then
        let (ds', c) ← incAssign D ds
        return (d' :: ds', if c then some 1 else none)
      else return (d' :: ds, none)

/-- `src/ubig/add.rs:59-72`, `add_assign_big`. -/
def addAssignBig (nr0 nr1 : List Nat) : R (List Nat × Bool) := do
  assertR (decide (nr1.length ≤ nr0.length))
  let (nr0, carry) ← zipDigits D.addCarry nr0 nr1 false
  if carry then onSlice nr0 nr1.length nr0.length (incAssign D)
  else return (nr0, false)

/-- `src/ubig/add.rs:77-121`, `add_big_into`. -/
def addBigInto (nr0 nr1 sum : List Nat) : R (List Nat × Res Nat) := do
  let n0 := nr0.length
  let n1 := nr1.length
  let nmin := min n0 n1
  let nmax := max n0 n1
  if sum.length < nmax then return (sum, .error .noSpace)
  else
    let (sum, carry) ← zipInto D.addCarry nr0 nr1 sum false
    let sum ←
      if n0 = n1 then pure sum
      else if n0 < n1 then copyInto sum nmin nmax (nr1.drop nmin)
      else copyInto sum nmin nmax (nr0.drop nmin)
    if carry then
      let (sum, carry) ← onSlice sum nmin nmax (incAssign D)
      if carry then
        if sum.length ≤ nmax then return (sum, .error .noSpace)
        else return (← setR sum nmax 1, .ok (nmax + 1))
      else return (sum, .ok nmax)
    else return (sum, .ok nmax)

/-- The two loops of `dec_assign` on a nonempty slice; `n` is the length of the whole slice. -/
def decGo (n : Nat) : List Nat → R (List Nat × Res Nat)
  | [] => .ok ([], .error .underflow)
  | [d] => do
    let (d', c) ← D.dec d
    if c then return ([d'], .error .underflow)
    else if d' = 0 then return ([d'], .ok (n - 1))
    else return ([d'], .ok n)
  | d :: ds => do
    let (d', c) ← D.dec d
    if !c then return (d' :: ds, .ok n)
    else
      let (ds', r) ← decGo n ds
      return (d' :: ds', r)

/-- `src/ubig/sub.rs:22-53`, `dec_assign`. -/
def decAssign (nr : List Nat) : R (List Nat × Res Nat) := decGo D nr.length nr

/-- `src/ubig/sub.rs:58-78`, `sub_assign_digit`. -/
def subAssignDigit (nr : List Nat) (digit : Nat) : R (List Nat × Res Nat) :=
  if digit = 0 then .ok (nr, .ok nr.length)
  else match nr with
    | [] => .ok ([], .error .underflow)
    | d :: ds => do
      let (d', c) ← D.subCarry d digit false
      if c then
        let (ds', r) ← decAssign D ds
        match r with
        | .error e => return (d' :: ds', .error e)
        | .ok nd => return (d' :: ds', .ok (1 + nd))
      else return (d' :: ds, .ok nr.length)

/-- `src/ubig/sub.rs:83-105`, `sub_assign_big`. -/
def subAssignBig (nr0 nr1 : List Nat) : R (List Nat × Res Nat) := do
  let n0 := nr0.length
  let n1 := nr1.length
  if n0 < n1 then return (nr0, .error .underflow)
  else
    let (nr0, carry) ← zipDigits D.subCarry nr0 nr1 false
    if carry then
      let (nr0, r) ← onSlice nr0 n1 n0 (decAssign D)
      match r with
      | .error e => return (nr0, .error e)
      | .ok nd => return (nr0, .ok (n1 + nd))
    else return (nr0, .ok (← dropLeadingZeros nr0 n0))

/-- `src/ubig/sub.rs:113-147`, `sub_big_into`. -/
def subBigInto (nr0 nr1 diff : List Nat) : R (List Nat × Res Nat) := do
  let n0 := nr0.length
  let n1 := nr1.length
  if diff.length < n0 then return (diff, .error .noSpace)
  else if n0 < n1 then return (diff, .error .underflow)
  else
    let (diff, carry) ← zipInto D.subCarry nr0 nr1 diff false
    let diff ← copyInto diff n1 n0 (nr0.drop n1)
    if carry then
      let (diff, r) ← onSlice diff n1 n0 (decAssign D)
      match r with
      | .error e => return (diff, .error e)
      | .ok nd => return (diff, .ok (n1 + nd))
    else return (diff, .ok (← dropLeadingZeros diff n0))

/-- The loop of `rsub_assign_big`: `d0 := d1 - d0`. -/
def rsubGo : List Nat → List Nat → Bool → R (List Nat × Bool) :=
  zipDigits fun d0 d1 c => D.subCarry d1 d0 c

/-- `src/ubig/rsub.rs:23-44`, `rsub_assign_big`. -/
def rsubAssignBig (nr0 nr1 : List Nat) : R (List Nat × Res Nat) := do
  let n0 := nr0.length
  assertR (decide (nr1.length = n0))
  let (nr0, carry) ← rsubGo D nr0 nr1 false
  if carry then return (nr0, .error .underflow)
  else return (nr0, .ok (← dropLeadingZeros nr0 n0))

/-- `src/ubig/sub.rs:153-166`, `sub_assign_big_abs_sign`.  Returns `(nr0, sign, length)`. -/
def subAssignBigAbsSign (nr0 : List Nat) (len0 : Nat) (nr1 : List Nat) :
    R (List Nat × Bool × Nat) := do
  if ltBig (← slice nr0 0 len0) nr1 then
    let (nr0, r) ← onSlice nr0 0 nr1.length (fun s => rsubAssignBig D s nr1)
    return (nr0, true, ← unwrapR r)
  else
    let (nr0, r) ← onSlice nr0 0 len0 (fun s => subAssignBig D s nr1)
    return (nr0, false, ← unwrapR r)

/-- `src/ubig/sub.rs:171-183`, `sub_big_into_abs_sign`.  Returns `(abs_diff, sign, length)`. -/
def subBigIntoAbsSign (nr0 nr1 diff : List Nat) : R (List Nat × Bool × Nat) := do
  debugAssertR dbg (decide (max nr0.length nr1.length ≤ diff.length))
  if ltBig nr0 nr1 then
    let (diff, r) ← subBigInto D nr1 nr0 diff
    return (diff, true, ← unwrapR r)
  else
    let (diff, r) ← subBigInto D nr0 nr1 diff
    return (diff, false, ← unwrapR r)

/-- `src/ubig/shl.rs:21-32`, `shl_carry_assign_within_digit`. -/
def shlWithin (nr : List Nat) (shift carry : Nat) : R (List Nat × Nat) :=
  if shift = 0 then .ok (nr, 0)
  else foldDigits (fun d c => D.shlCarry d shift c) nr carry

/-- `src/ubig/shr.rs:22-36`, `shr_carry_assign_within_digit`.  Returns `(nr, length, carry)`. -/
def shrWithin (nr : List Nat) (shift carry : Nat) : R (List Nat × Nat × Nat) :=
  if shift = 0 then do return (nr, ← dropLeadingZeros nr nr.length, 0)
  else do
    let (nr, carry) ← foldDigitsRev (fun d c => D.shrCarry d shift c) nr carry
    return (nr, ← dropLeadingZeros nr nr.length, carry)

end

end Babs
