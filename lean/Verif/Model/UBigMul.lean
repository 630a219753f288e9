import Verif.Model.Mul
import Verif.Model.UBigAdd

/-!
# Big numbers: multiplication and powers (`src/ubig.rs`, `src/ubig/ops.rs`)
-/

namespace Babs

section
variable (D : DigitOps) (dbg : Bool)

/-- `src/ubig.rs:129-145`, `UBig::mul_add_assign_digit`. -/
def mulAddDigit (x : List Nat) (fac offset : Nat) : R (List Nat) := do
  let (x, carry) ← if fac = 0 then pure ([], offset) else mulAddAssignDigit D x fac offset
  return if carry = 0 then x else x ++ [carry]

/-- `src/ubig.rs:149-162`, `UBig::mul_pair_add_assign_digit`. -/
def mulPairAddDigit (x : List Nat) (facLow facHigh offset : Nat) : R (List Nat) := do
  let (x, carry0, carry1) ← mulPairAddAssignDigit D x facLow facHigh offset
  let x :=
    if carry0 ≠ 0 ∨ carry1 ≠ 0 then
      if carry1 ≠ 0 then x ++ [carry0] ++ [carry1] else x ++ [carry0]
    else x
  normalise x

/-- `src/ubig/ops.rs:355-362` (`*=` with a digit) and `408-427` (`*`). -/
def mulDigit (x : List Nat) (digit : Nat) : R (List Nat) := mulAddDigit D x digit 0

/-- `src/ubig/ops.rs:373-388` (`*=` of a decimal number with a word). -/
def mulWordDec (rx : Nat) (x : List Nat) (n : Nat) : R (List Nat) :=
  if n < rx then mulDigit D x n else mulPairAddDigit D x (n % rx) (n / rx) 0

/-- `src/ubig.rs:165-181`, `mul_big`; `src/ubig/ops.rs:390-406` (`*=`) and `471-509` (`*`). -/
def mulBig (x y : List Nat) : R (List Nat) := do
  if x = [] ∨ y = [] then return []
  else
    let (digits, n) ← mulBigInto D dbg x y (List.replicate (x.length + y.length) 0)
    return digits.take n

/-- `src/ubig.rs:184-199`, `square`. -/
def square (x : List Nat) : R (List Nat) := do
  if x = [] then return []
  else
    let (digits, n) ← squareInto D dbg x (List.replicate (2 * x.length) 0)
    return digits.take n

/-- The loop of `pow`, `src/ubig/ops.rs:1016-1024`, on fuel. -/
def powLoop : Nat → List Nat → List Nat → Nat → R (List Nat)
  | 0, _, _, _ => .error .noFuel
  | fuel + 1, result, power, n => do
    if n = 0 then return result
    else
      let power ← square D dbg power
      let result ← if n % 2 ≠ 0 then mulBig D dbg result power else pure result
      powLoop fuel result power (n / 2)

/-- `src/ubig/ops.rs:1001-1039`, `pow`. -/
def pow (x : List Nat) (exp : Nat) : R (List Nat) := do
  if exp = 0 then return ubigOne
  else if exp = 1 then return x
  else if exp = 2 then square D dbg x
  else powLoop D dbg (exp + 1) (if exp % 2 = 0 then ubigOne else x) x (exp / 2)

end

end Babs
