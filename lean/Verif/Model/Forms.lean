import Verif.Model.UBig
import Verif.Model.DivLeft

/-!
# The forms of the operators

Models the operator traits of `src/ubig/ops.rs` one `impl` at a time.  An operator on big numbers has six
forms: both operands by value or by reference, and the assignments that change the first operand in
place.  An operator on a big number and a digit, a word or a shift distance has three: by value, by
reference, and the assignment.

An assignment changes its first operand even if it panics.  `After` records what it leaves there, which
a caller sees that catches the panic.
-/

namespace Babs

/-- What an operation that works in place ends with: it returns, with a new value in its first operand;
or it panics.  In this case the first operand holds `left`, or the panic was within a routine whose
intermediate states are not modelled (`none`). -/
inductive After where
  | done (value : List Nat)
  | panicked (left : Option (List Nat)) (p : Panic)
  deriving DecidableEq

namespace After

/-- `{ self op= other; self }`: the value, or the panic. -/
def result : After → R (List Nat)
  | .done z => .ok z
  | .panicked _ p => .error p

/-- A step that changes the operand in a way that is not modelled, if it panics. -/
def lost {α : Type} (r : R α) (f : α → After) : After :=
  match r with
  | .ok a => f a
  | .error p => .panicked none p

/-- A step that does not touch the operand `x`. -/
def kept {α : Type} (x : List Nat) (r : R α) (f : α → After) : After :=
  match r with
  | .ok a => f a
  | .error p => .panicked (some x) p

end After

namespace Forms

open After

/-- The forms of an operator on two big numbers `x` and `y`. -/
inductive Big where
  /-- `x op y` -/
  | valVal
  /-- `x op &y` -/
  | valRef
  /-- `&x op y` -/
  | refVal
  /-- `&x op &y` -/
  | refRef
  /-- `x op= y` -/
  | assignVal
  /-- `x op= &y` -/
  | assignRef
  deriving DecidableEq

/-- The forms of an operator on a big number `x` and a digit, a word or a shift distance `n`. -/
inductive Small where
  /-- `x op n` -/
  | val
  /-- `&x op n` -/
  | ref
  /-- `x op= n` -/
  | assign
  deriving DecidableEq

section
variable (t : DType) (dbg : Bool)

/-! ## Addition -/

/-- `src/ubig/ops.rs:74-81`, `x += &y`. -/
def addAssignRef (x y : List Nat) : After := lost (addAtOffset (t.ops dbg) x y 0) .done

/-- `src/ubig/ops.rs:65-72`, `x += y`. -/
def addAssignVal (x y : List Nat) : After := addAssignRef t dbg x y

/-- `src/ubig/ops.rs:156-165`, `x + &y`. -/
def addValRef (x y : List Nat) : R (List Nat) := (addAssignRef t dbg x y).result

/-- `src/ubig/ops.rs:146-154`, `x + y`. -/
def addValVal (x y : List Nat) : R (List Nat) := addValRef t dbg x y

/-- `src/ubig/ops.rs:167-175`, `&x + y`. -/
def addRefVal (x y : List Nat) : R (List Nat) := addValRef t dbg x y

/-- `src/ubig/ops.rs:177-185`, `&x + &y`. -/
def addRefRef (x y : List Nat) : R (List Nat) := addValRef t dbg x y

/-- `x + y` in each form. -/
def add (f : Big) (x y : List Nat) : R (List Nat) :=
  match f with
  | .valVal => addValVal t dbg x y
  | .valRef => addValRef t dbg x y
  | .refVal => addRefVal t dbg x y
  | .refRef => addRefRef t dbg x y
  | .assignVal => (addAssignVal t dbg x y).result
  | .assignRef => (addAssignRef t dbg x y).result

/-- `src/ubig/ops.rs:19-29`, `x += d` with a digit. -/
def addAssignDigit (x : List Nat) (d : Nat) : After :=
  lost (Babs.addAssignDigit (t.ops dbg) x d) fun (x, c) =>
    match c with
    | some carry => .done (x ++ [carry])
    | none => .done x

/-- `src/ubig/ops.rs:31-38` (binary) and `40-63` (decimal), `x += n` with a word. -/
def addAssignWord (x : List Nat) (n : Nat) : After :=
  match t with
  | .bin _ => addAssignDigit t dbg x n
  | .dec w =>
    if n < w.decRadix then addAssignDigit t dbg x n
    else
      match addAssignDigit t dbg x (n % w.decRadix) with
      | .panicked left p => .panicked left p
      | .done x =>
        let x := if x = [] then [0] else x
        lost (onSlice x 1 x.length (fun s => Babs.addAssignDigit (t.ops dbg) s (n / w.decRadix)))
          fun (x, c) =>
            match c with
            | some carry => .done (x ++ [carry])
            | none => .done x

/-- `src/ubig/ops.rs:104-113` (binary) and `125-134` (decimal), `x + n` with a word. -/
def addValWord (x : List Nat) (n : Nat) : R (List Nat) := (addAssignWord t dbg x n).result

/-- `src/ubig/ops.rs:115-123` (binary) and `136-144` (decimal), `&x + n` with a word. -/
def addRefWord (x : List Nat) (n : Nat) : R (List Nat) := addValWord t dbg x n

/-- `x + n` with a word in each form. -/
def addWord (f : Small) (x : List Nat) (n : Nat) : R (List Nat) :=
  match f with
  | .val => addValWord t dbg x n
  | .ref => addRefWord t dbg x n
  | .assign => (addAssignWord t dbg x n).result

/-- `src/ubig/ops.rs:83-92`, `x + d` with a digit. -/
def addValDigit (x : List Nat) (d : Nat) : R (List Nat) := (addAssignDigit t dbg x d).result

/-- `src/ubig/ops.rs:94-102`, `&x + d` with a digit. -/
def addRefDigit (x : List Nat) (d : Nat) : R (List Nat) := addValDigit t dbg x d

/-- `x + d` with a digit in each form. -/
def addDigit (f : Small) (x : List Nat) (d : Nat) : R (List Nat) :=
  match f with
  | .val => addValDigit t dbg x d
  | .ref => addRefDigit t dbg x d
  | .assign => (addAssignDigit t dbg x d).result

/-! ## Subtraction -/

/-- `src/ubig/ops.rs:884-894`, `x -= &y`. -/
def subAssignRef (x y : List Nat) : After :=
  lost (subAtOffset (t.ops dbg) x y 0) fun (x, r) =>
    match r with
    | .ok () => .done x
    | .error _ => .panicked (some x) .explicit

/-- `src/ubig/ops.rs:875-882`, `x -= y`. -/
def subAssignVal (x y : List Nat) : After := subAssignRef t dbg x y

/-- `src/ubig/ops.rs:969-978`, `x - &y`. -/
def subValRef (x y : List Nat) : R (List Nat) := (subAssignRef t dbg x y).result

/-- `src/ubig/ops.rs:959-967`, `x - y`. -/
def subValVal (x y : List Nat) : R (List Nat) := subValRef t dbg x y

/-- `src/ubig/ops.rs:980-988`, `&x - y`. -/
def subRefVal (x y : List Nat) : R (List Nat) := subValRef t dbg x y

/-- `src/ubig/ops.rs:990-998`, `&x - &y`. -/
def subRefRef (x y : List Nat) : R (List Nat) := subValRef t dbg x y

/-- `x - y` in each form. -/
def sub (f : Big) (x y : List Nat) : R (List Nat) :=
  match f with
  | .valVal => subValVal t dbg x y
  | .valRef => subValRef t dbg x y
  | .refVal => subRefVal t dbg x y
  | .refRef => subRefRef t dbg x y
  | .assignVal => (subAssignVal t dbg x y).result
  | .assignRef => (subAssignRef t dbg x y).result

/-- `src/ubig/ops.rs:831-842`, `x -= d` with a digit. -/
def subAssignDigit (x : List Nat) (d : Nat) : After :=
  lost (Babs.subAssignDigit (t.ops dbg) x d) fun (x, r) =>
    match r with
    | .ok nd => .done (x.take nd)
    | .error _ => .panicked (some x) .explicit

/-- `src/ubig/ops.rs:844-851` (binary) and `853-873` (decimal), `x -= n` with a word.  The slice
`self.digits[1..]` panics if no digit is left. -/
def subAssignWord (x : List Nat) (n : Nat) : After :=
  match t with
  | .bin _ => subAssignDigit t dbg x n
  | .dec w =>
    if n < w.decRadix then subAssignDigit t dbg x n
    else
      match subAssignDigit t dbg x (n % w.decRadix) with
      | .panicked left p => .panicked left p
      | .done [] => .panicked (some []) .index
      | .done (d :: s) =>
        lost (Babs.subAssignDigit (t.ops dbg) s (n / w.decRadix)) fun (s, r) =>
          match r with
          | .ok nd => .done ((d :: s).take nd)
          | .error _ => .panicked (some (d :: s)) .explicit

/-- `src/ubig/ops.rs:917-926` (binary) and `938-947` (decimal), `x - n` with a word. -/
def subValWord (x : List Nat) (n : Nat) : R (List Nat) := (subAssignWord t dbg x n).result

/-- `src/ubig/ops.rs:928-936` (binary) and `949-957` (decimal), `&x - n` with a word. -/
def subRefWord (x : List Nat) (n : Nat) : R (List Nat) := subValWord t dbg x n

/-- `x - n` with a word in each form. -/
def subWord (f : Small) (x : List Nat) (n : Nat) : R (List Nat) :=
  match f with
  | .val => subValWord t dbg x n
  | .ref => subRefWord t dbg x n
  | .assign => (subAssignWord t dbg x n).result

/-- `src/ubig/ops.rs:896-905`, `x - d` with a digit. -/
def subValDigit (x : List Nat) (d : Nat) : R (List Nat) := (subAssignDigit t dbg x d).result

/-- `src/ubig/ops.rs:907-915`, `&x - d` with a digit. -/
def subRefDigit (x : List Nat) (d : Nat) : R (List Nat) := subValDigit t dbg x d

/-- `x - d` with a digit in each form. -/
def subDigit (f : Small) (x : List Nat) (d : Nat) : R (List Nat) :=
  match f with
  | .val => subValDigit t dbg x d
  | .ref => subRefDigit t dbg x d
  | .assign => (subAssignDigit t dbg x d).result

/-! ## Multiplication -/

/-- `src/ubig/ops.rs:501-509`, `&x * &y`; `mul_big` takes both operands by reference. -/
def mulRefRef (x y : List Nat) : R (List Nat) := mulBig (t.ops dbg) dbg x y

/-- `src/ubig/ops.rs:399-406`, `x *= &y`: the product is computed before `x` is replaced by it. -/
def mulAssignRef (x y : List Nat) : After := kept x (mulRefRef t dbg x y) .done

/-- `src/ubig/ops.rs:390-397`, `x *= y`. -/
def mulAssignVal (x y : List Nat) : After := mulAssignRef t dbg x y

/-- `src/ubig/ops.rs:471-479`, `x * y`. -/
def mulValVal (x y : List Nat) : R (List Nat) := mulRefRef t dbg x y

/-- `src/ubig/ops.rs:481-489`, `x * &y`. -/
def mulValRef (x y : List Nat) : R (List Nat) := mulRefRef t dbg x y

/-- `src/ubig/ops.rs:491-499`, `&x * y`. -/
def mulRefVal (x y : List Nat) : R (List Nat) := mulRefRef t dbg x y

/-- `x * y` in each form. -/
def mul (f : Big) (x y : List Nat) : R (List Nat) :=
  match f with
  | .valVal => mulValVal t dbg x y
  | .valRef => mulValRef t dbg x y
  | .refVal => mulRefVal t dbg x y
  | .refRef => mulRefRef t dbg x y
  | .assignVal => (mulAssignVal t dbg x y).result
  | .assignRef => (mulAssignRef t dbg x y).result

/-- `src/ubig/ops.rs:355-362`, `x *= d` with a digit. -/
def mulAssignDigit (x : List Nat) (d : Nat) : After := lost (mulAddDigit (t.ops dbg) x d 0) .done

/-- `src/ubig/ops.rs:364-371` (binary) and `373-388` (decimal), `x *= n` with a word. -/
def mulAssignWord (x : List Nat) (n : Nat) : After :=
  match t with
  | .bin _ => mulAssignDigit t dbg x n
  | .dec w =>
    if n < w.decRadix then mulAssignDigit t dbg x n
    else lost (mulPairAddDigit (t.ops dbg) x (n % w.decRadix) (n / w.decRadix) 0) .done

/-- `src/ubig/ops.rs:429-438` (binary) and `450-459` (decimal), `x * n` with a word. -/
def mulValWord (x : List Nat) (n : Nat) : R (List Nat) := (mulAssignWord t dbg x n).result

/-- `src/ubig/ops.rs:440-448` (binary) and `461-469` (decimal), `&x * n` with a word. -/
def mulRefWord (x : List Nat) (n : Nat) : R (List Nat) := mulValWord t dbg x n

/-- `x * n` with a word in each form. -/
def mulWord (f : Small) (x : List Nat) (n : Nat) : R (List Nat) :=
  match f with
  | .val => mulValWord t dbg x n
  | .ref => mulRefWord t dbg x n
  | .assign => (mulAssignWord t dbg x n).result

/-- `src/ubig/ops.rs:408-417`, `x * d` with a digit. -/
def mulValDigit (x : List Nat) (d : Nat) : R (List Nat) := (mulAssignDigit t dbg x d).result

/-- `src/ubig/ops.rs:419-427`, `&x * d` with a digit. -/
def mulRefDigit (x : List Nat) (d : Nat) : R (List Nat) := mulValDigit t dbg x d

/-- `x * d` with a digit in each form. -/
def mulDigit (f : Small) (x : List Nat) (d : Nat) : R (List Nat) :=
  match f with
  | .val => mulValDigit t dbg x d
  | .ref => mulRefDigit t dbg x d
  | .assign => (mulAssignDigit t dbg x d).result

/-! ## Division -/

/-- `src/ubig/ops.rs:238-248`, `x /= &y`.  During the division `x` is the buffer of the quotient
(`src/ubig.rs:243`). -/
def divAssignRef (x y : List Nat) : After :=
  match divAssignBig (t.ops dbg) dbg x y with
  | .ok (q, .ok _) => .done q
  | .ok (q, .error _) => .panicked (some q) .explicit
  | .error p => .panicked ((leftBehind (divLeft (t.ops dbg) dbg x y)).map (·.2)) p

/-- `src/ubig/ops.rs:229-236`, `x /= y`. -/
def divAssignVal (x y : List Nat) : After := divAssignRef t dbg x y

/-- `src/ubig/ops.rs:323-332`, `x / &y`. -/
def divValRef (x y : List Nat) : R (List Nat) := (divAssignRef t dbg x y).result

/-- `src/ubig/ops.rs:313-321`, `x / y`. -/
def divValVal (x y : List Nat) : R (List Nat) := divValRef t dbg x y

/-- `src/ubig/ops.rs:334-342`, `&x / y`. -/
def divRefVal (x y : List Nat) : R (List Nat) := divValRef t dbg x y

/-- `src/ubig/ops.rs:344-352`, `&x / &y`. -/
def divRefRef (x y : List Nat) : R (List Nat) := divValRef t dbg x y

/-- `x / y` in each form. -/
def div (f : Big) (x y : List Nat) : R (List Nat) :=
  match f with
  | .valVal => divValVal t dbg x y
  | .valRef => divValRef t dbg x y
  | .refVal => divRefVal t dbg x y
  | .refRef => divRefRef t dbg x y
  | .assignVal => (divAssignVal t dbg x y).result
  | .assignRef => (divAssignRef t dbg x y).result

/-- `src/ubig/ops.rs:188-198`, `x /= d` with a digit. -/
def divAssignDigit (x : List Nat) (d : Nat) : After :=
  lost (divDigitAssign (t.ops dbg) x d) fun (q, r) =>
    match r with
    | .ok _ => .done q
    | .error _ => .panicked (some q) .explicit

/-- `div_assign_digit_pair` in place on `x` (`src/ubig.rs:217-226`), with what a panic leaves there. -/
def pairInPlace (x : List Nat) (low high : Nat) (f : List Nat × Nat × Nat → List Nat) : After :=
  match divPairAssign (t.ops dbg) x low high with
  | .ok (q, .ok r) => .done (f (q, r))
  | .ok (q, .error _) => .panicked (some q) .explicit
  | .error p => .panicked ((leftBehind (pairLeft (t.ops dbg) x [low, high] [])).map (·.1)) p

/-- `src/ubig/ops.rs:200-207` (binary) and `209-227` (decimal), `x /= n` with a word. -/
def divAssignWord (x : List Nat) (n : Nat) : After :=
  match t with
  | .bin _ => divAssignDigit t dbg x n
  | .dec w =>
    if n < w.decRadix then divAssignDigit t dbg x n
    else pairInPlace t dbg x (n % w.decRadix) (n / w.decRadix) (·.1)

/-- `src/ubig/ops.rs:271-280` (binary) and `292-301` (decimal), `x / n` with a word. -/
def divValWord (x : List Nat) (n : Nat) : R (List Nat) := (divAssignWord t dbg x n).result

/-- `src/ubig/ops.rs:282-290` (binary) and `303-311` (decimal), `&x / n` with a word. -/
def divRefWord (x : List Nat) (n : Nat) : R (List Nat) := divValWord t dbg x n

/-- `x / n` with a word in each form. -/
def divWord (f : Small) (x : List Nat) (n : Nat) : R (List Nat) :=
  match f with
  | .val => divValWord t dbg x n
  | .ref => divRefWord t dbg x n
  | .assign => (divAssignWord t dbg x n).result

/-- `src/ubig/ops.rs:250-259`, `x / d` with a digit. -/
def divValDigit (x : List Nat) (d : Nat) : R (List Nat) := (divAssignDigit t dbg x d).result

/-- `src/ubig/ops.rs:261-269`, `&x / d` with a digit. -/
def divRefDigit (x : List Nat) (d : Nat) : R (List Nat) := divValDigit t dbg x d

/-- `x / d` with a digit in each form. -/
def divDigit (f : Small) (x : List Nat) (d : Nat) : R (List Nat) :=
  match f with
  | .val => divValDigit t dbg x d
  | .ref => divRefDigit t dbg x d
  | .assign => (divAssignDigit t dbg x d).result

/-! ## Remainders -/

/-- `src/ubig/ops.rs:583-593`, `x %= &y`.  During the division `x` is the buffer of the dividend
(`src/ubig.rs:269`). -/
def remAssignRef (x y : List Nat) : After :=
  match remAssignBig (t.ops dbg) dbg x y with
  | .ok (z, .ok ()) => .done z
  | .ok (z, .error _) => .panicked (some z) .explicit
  | .error p => .panicked ((leftBehind (divLeft (t.ops dbg) dbg x y)).map (·.1)) p

/-- `src/ubig/ops.rs:574-581`, `x %= y`. -/
def remAssignVal (x y : List Nat) : After := remAssignRef t dbg x y

/-- `src/ubig/ops.rs:670-679`, `x % &y`. -/
def remValRef (x y : List Nat) : R (List Nat) := (remAssignRef t dbg x y).result

/-- `src/ubig/ops.rs:660-668`, `x % y`. -/
def remValVal (x y : List Nat) : R (List Nat) := remValRef t dbg x y

/-- `src/ubig/ops.rs:681-689`, `&x % y`. -/
def remRefVal (x y : List Nat) : R (List Nat) := remValRef t dbg x y

/-- `src/ubig/ops.rs:691-699`, `&x % &y`. -/
def remRefRef (x y : List Nat) : R (List Nat) := remValRef t dbg x y

/-- `x % y` in each form. -/
def rem (f : Big) (x y : List Nat) : R (List Nat) :=
  match f with
  | .valVal => remValVal t dbg x y
  | .valRef => remValRef t dbg x y
  | .refVal => remRefVal t dbg x y
  | .refRef => remRefRef t dbg x y
  | .assignVal => (remAssignVal t dbg x y).result
  | .assignRef => (remAssignRef t dbg x y).result

/-- `src/ubig/ops.rs:512-529`, `x %= d` with a digit.  `rem_digit` only reads `x`. -/
def remAssignDigit (x : List Nat) (d : Nat) : After :=
  kept x (Babs.remDigit (t.ops dbg) x d) fun r =>
    match r with
    | .ok rem => .done (if rem = 0 then [] else [rem])
    | .error _ => .panicked (some x) .explicit

/-- `src/ubig/ops.rs:605-617`, `&x % d` with a digit. -/
def remRefDigit (x : List Nat) (d : Nat) : R (List Nat) := do
  match ← Babs.remDigit (t.ops dbg) x d with
  | .ok rem => ubigNew [rem]
  | .error _ => throw .explicit

/-- `src/ubig/ops.rs:595-603`, `x % d` with a digit. -/
def remValDigit (x : List Nat) (d : Nat) : R (List Nat) := remRefDigit t dbg x d

/-- `x % d` with a digit in each form. -/
def remDigit (f : Small) (x : List Nat) (d : Nat) : R (List Nat) :=
  match f with
  | .val => remValDigit t dbg x d
  | .ref => remRefDigit t dbg x d
  | .assign => (remAssignDigit t dbg x d).result

/-- `src/ubig/ops.rs:531-538` (binary) and `540-572` (decimal), `x %= n` with a word. -/
def remAssignWord (x : List Nat) (n : Nat) : After :=
  match t with
  | .bin _ => remAssignDigit t dbg x n
  | .dec w =>
    if n < w.decRadix then remAssignDigit t dbg x n
    else
      pairInPlace t dbg x (n % w.decRadix) (n / w.decRadix) fun (_, remLow, remHigh) =>
        if remHigh ≠ 0 then [remLow, remHigh] else if remLow ≠ 0 then [remLow] else []

/-- `src/ubig/ops.rs:629-637` (binary: `self % BinaryDigit(digit)`) and `650-658` with `639-648`
(decimal: a copy is changed in place), `&x % n` with a word. -/
def remRefWord (x : List Nat) (n : Nat) : R (List Nat) :=
  match t with
  | .bin _ => remRefDigit t dbg x n
  | .dec _ => (remAssignWord t dbg x n).result

/-- `src/ubig/ops.rs:619-627` (binary: `&self % digit`) and `639-648` (decimal), `x % n` with a word. -/
def remValWord (x : List Nat) (n : Nat) : R (List Nat) :=
  match t with
  | .bin _ => remRefWord t dbg x n
  | .dec _ => (remAssignWord t dbg x n).result

/-- `x % n` with a word in each form. -/
def remWord (f : Small) (x : List Nat) (n : Nat) : R (List Nat) :=
  match f with
  | .val => remValWord t dbg x n
  | .ref => remRefWord t dbg x n
  | .assign => (remAssignWord t dbg x n).result

/-! ## Shifts -/

/-- `src/ubig/ops.rs:702-721` (binary) and `723-743` (decimal), `x <<= n`.  For large shifts of decimal
numbers the power of two is computed before `x` is touched. -/
def shlAssign (x : List Nat) (n : Nat) : After :=
  match t with
  | .bin w =>
    let (high, low) := (n / w.bits, n % w.bits)
    let y : After :=
      if low ≠ 0 then
        lost (shlWithin (t.ops dbg) x low 0) fun (x, carry) =>
          .done (if carry ≠ 0 then x ++ [carry] else x)
      else .done x
    match y with
    | .done x => .done (if high ≠ 0 then List.replicate high 0 ++ x else x)
    | r => r
  | .dec w =>
    if n ≤ 4 * UBig.maxHexPlaces w then
      lost (shlWithin (t.ops dbg) x n 0) fun (x, carry) =>
        .done (if carry ≠ 0 then x ++ [carry] else x)
    else
      kept x (addValVal t dbg ubigOne ubigOne) fun two =>
        kept x (pow (t.ops dbg) dbg two n) fun scale => mulAssignVal t dbg x scale

/-- `src/ubig/ops.rs:745-754`, `x << n`. -/
def shlVal (x : List Nat) (n : Nat) : R (List Nat) := (shlAssign t dbg x n).result

/-- `src/ubig/ops.rs:756-764`, `&x << n`. -/
def shlRef (x : List Nat) (n : Nat) : R (List Nat) := shlVal t dbg x n

/-- `x << n` in each form. -/
def shl (f : Small) (x : List Nat) (n : Nat) : R (List Nat) :=
  match f with
  | .val => shlVal t dbg x n
  | .ref => shlRef t dbg x n
  | .assign => (shlAssign t dbg x n).result

/-- `src/ubig/ops.rs:767-786` (binary) and `788-807` (decimal), `x >>= n`.  `Vec::drain(..high)` panics
before it removes anything if there are fewer than `high` digits. -/
def shrAssign (x : List Nat) (n : Nat) : After :=
  match t with
  | .bin w =>
    let (high, low) := (n / w.bits, n % w.bits)
    let y : After := if high ≠ 0 then kept x (slice x high x.length) .done else .done x
    match y with
    | .done x =>
      if low ≠ 0 then lost (shrWithin (t.ops dbg) x low 0) fun (x, nd, _) => .done (x.take nd)
      else .done x
    | r => r
  | .dec w =>
    if n ≤ 4 * UBig.maxHexPlaces w then
      lost (shrWithin (t.ops dbg) x n 0) fun (x, nd, _) => .done (x.take nd)
    else .panicked (some x) .unimplemented

/-- `src/ubig/ops.rs:809-818`, `x >> n`. -/
def shrVal (x : List Nat) (n : Nat) : R (List Nat) := (shrAssign t dbg x n).result

/-- `src/ubig/ops.rs:820-828`, `&x >> n`. -/
def shrRef (x : List Nat) (n : Nat) : R (List Nat) := shrVal t dbg x n

/-- `x >> n` in each form. -/
def shr (f : Small) (x : List Nat) (n : Nat) : R (List Nat) :=
  match f with
  | .val => shrVal t dbg x n
  | .ref => shrRef t dbg x n
  | .assign => (shrAssign t dbg x n).result

/-! ## Powers -/

/-- `src/ubig/ops.rs:1031-1039`, `(&x).pow(n)`. -/
def powRef (x : List Nat) (n : Nat) : R (List Nat) := pow (t.ops dbg) dbg x n

end

end Forms

end Babs
