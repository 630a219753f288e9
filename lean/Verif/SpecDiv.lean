import Verif.Spec
import Verif.SpecMul

/-!
# Specification: the divisions that contain no tie, and those that do not panic

Long division estimates a digit of the quotient from the leading digits of the partial remainder and
of the divisor.  There is a *tie* when these leading digits are equal.  The binary digit types cannot
handle a tie.  The definitions below say, in terms of numbers alone, that a division leads to no tie.

The recursive division, used for divisors of 20 digits or more, can also panic: when it meets a part
of the dividend with the same leading digit as the divisor, and when a product it needs panics.  The
definitions `bzSafe` and `BlocksSafe` say that this does not happen.
-/

namespace Babs

/-- In the division of `a`, of `2 * n` digits in base `b`, by `y`, of `n` digits, one digit at a time, no
partial remainder has the same leading digit as `y`, except perhaps the first. -/
def LongTieFree (b n a y : Nat) : Prop :=
  ∀ i, i + 1 < n → a / b ^ (i + 1) % y / b ^ (n - 1) < y / b ^ (n - 1)

/-- The same for the recursive division of `a`, of `2 * n` digits, by `y`, of `n` digits.  Below 20
digits division is done one digit at a time.  Otherwise the upper three quarters of `a` are divided
by `y`, and then the remainder with the last quarter of `a` behind it; each time by dividing the upper
two thirds by the upper half of `y`, unless the estimate of the quotient has only maximal digits.  `k`
bounds the depth of the recursion. -/
def BzTieFree (b : Nat) : Nat → Nat → Nat → Nat → Prop
  | 0, _, _, _ => True
  | k + 1, n, a, y =>
    if n < 20 then LongTieFree b n a y
    else
      let h := b ^ (n / 2)
      (a / h / h / h < y / h → BzTieFree b k (n / 2) (a / h / h) (y / h)) ∧
        (a % (h * y) / h / h < y / h → BzTieFree b k (n / 2) (a % (h * y) / h) (y / h))

/-- The number of digits to which a divisor of `len` digits is extended: with the least `e` such that
`len ≤ 20 * 2 ^ e`, the least multiple of `2 ^ e` that is at least `len`. -/
def IsBlockLen (len n : Nat) : Prop :=
  ∃ e, len ≤ 20 * 2 ^ e ∧ (∀ e', e' < e → 20 * 2 ^ e' < len) ∧ len ≤ n ∧ n < len + 2 ^ e ∧ 2 ^ e ∣ n

/-- The division of `m`, of `nnum` digits, by `y`, of `len ≥ 20` digits, leads to no tie: both are
multiplied by `2 ^ s` and extended by zero digits at the end, until the divisor has `n` digits; then
the dividend is divided in blocks of `n` digits. -/
def BlocksTieFree (b m nnum y len s : Nat) : Prop :=
  ∀ n, IsBlockLen len n → ∀ i, i ≤ (nnum - len) / n →
    BzTieFree b (n + 1) n
      (m * 2 ^ s * b ^ (n - len) / b ^ (i * n) % (y * 2 ^ s * b ^ (n - len) * b ^ n))
      (y * 2 ^ s * b ^ (n - len))

/-- The recursive division of `a`, of `2 * n` digits, by `y`, of `n` digits, does not panic.  Below 20
digits the leading digits must differ; if they are equal, a quotient of `n + 1` digits is expected, for
which there is no room.  Otherwise the two quotients are found as described for `BzTieFree`; the
estimate of the quotient is multiplied by the lower half of `y`.  `k` bounds the depth of the recursion;
`M` says which products do not panic. -/
def bzSafe (M : Nat → Nat → Bool) (b : Nat) : Nat → Nat → Nat → Nat → Bool
  | 0, _, _, _ => false
  | k + 1, n, a, y =>
    if n < 20 then a / b ^ (2 * n - 1) < y / b ^ (n - 1)
    else
      let h := b ^ (n / 2)
      let part := fun a =>
        if a / h / h < y / h then
          bzSafe M b k (n / 2) (a / h) (y / h) && M (a / h / (y / h)) (y % h)
        else M (h - 1) (y % h)
      part (a / h) && part (a % (h * y))

/-- The division of `m`, of `nnum` digits, by `y`, of `len ≥ 20` digits, does not panic, if the products
for which `M` holds do not panic. -/
def BlocksSafe (M : Nat → Nat → Bool) (b m nnum y len s : Nat) : Prop :=
  ∀ n, IsBlockLen len n → ∀ i, i ≤ (nnum - len) / n →
    bzSafe M b (n + 1) n
      (m * 2 ^ s * b ^ (n - len) / b ^ (i * n) % (y * 2 ^ s * b ^ (n - len) * b ^ n))
      (y * 2 ^ s * b ^ (n - len)) = true

end Babs
