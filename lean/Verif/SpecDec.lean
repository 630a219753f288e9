import Verif.SpecMul

/-!
# Specification: the conversion of long binary numbers to decimal

A number is split into two parts by dividing it by a power of the decimal radix; the parts are
converted separately and their digits are put one after the other.  The lower part must then have the
full number of digits.  The definitions below say, in terms of numbers alone, that it does.
-/

namespace Babs

/-- The number `m`, of `n` digits in base `b`, is converted as it is if `n < 16`; otherwise it is split
into `m % r ^ u` and `m / r ^ u` with `u = 2 ^ e n`.  Every lower part has `u` digits in base `r`.  `k`
bounds the depth of the recursion. -/
def padded (b r : Nat) (e : Nat → Nat) : Nat → Nat → Bool
  | 0, _ => true
  | k + 1, m =>
    if size b m < 16 then true
    else
      let u := 2 ^ e (size b m)
      r ^ (u - 1) ≤ m % r ^ u && padded b r e k (m % r ^ u) && padded b r e k (m / r ^ u)

/-- Every division of `m` by `n` in this process satisfies `G m n`. -/
def EverySplit (G : Nat → Nat → Prop) (b r : Nat) (e : Nat → Nat) : Nat → Nat → Prop
  | 0, _ => True
  | k + 1, m =>
    16 ≤ size b m →
      let u := 2 ^ e (size b m)
      G m (r ^ u) ∧ EverySplit G b r e k (m % r ^ u) ∧ EverySplit G b r e k (m / r ^ u)

end Babs
