import Mathlib.Data.Nat.Dist
import Mathlib.Data.Nat.Log

/-!
# Specification: the products that do not panic

Multiplication of long numbers splits them into parts and subtracts the parts from each other.  The
subtraction forgets to remove the leading zero digit of the difference if the minuend has one digit
more than the subtrahend and the difference has at least two digits less than the minuend.  A number
that is not in normal form can make a later step panic.  The definitions below say, in terms of numbers
alone, that a multiplication meets no such difference.
-/

namespace Babs

/-- The number of digits of `n` in base `b`. -/
def size (b n : Nat) : Nat := if n = 0 then 0 else Nat.log b n + 1

/-- The number `m` has `k ≥ lo` digits in base `b`, the number `n` has more, and they differ by less
than `b ^ (k - 1)`; or the other way round. -/
def near (lo b m n : Nat) : Bool :=
  let k := size b (min m n)
  lo ≤ k && b ^ k ≤ max m n && max m n - min m n < b ^ (k - 1)

/-- The polynomial `p0 + p1 X + p2 X²` can be evaluated at `-1` and `-2`, as
`p(-1) = (p0 + p2) - p1` and `p(-2) = 2 (p(-1) + p2) - p0`. -/
def evalSafe (b p0 p1 p2 : Nat) : Bool :=
  let m1 := Nat.dist (p0 + p2) p1
  !near 1 b (p0 + p2) p1 &&
  (if p0 + p2 < p1 then
    !near 1 b p2 m1 && (p2 < m1 || !near 1 b (2 * (p2 - m1)) p0)
  else
    !near 1 b (2 * (m1 + p2)) p0)

/-- The product of `x` and `y` in base `b` does not panic.  Nothing can happen if one of the factors
has less than 20 digits.  If both have 128 digits or more they are split into three parts, otherwise
into two; the products of the values of the two polynomials at 0, 1, -1, -2 and infinity, or those at
0, 1 and infinity, must not panic either.  `d` bounds the depth of the recursion. -/
def mulSafe (b : Nat) : Nat → Nat → Nat → Bool
  | 0, _, _ => false
  | d + 1, x, y =>
    if size b x < 20 ∨ size b y < 20 then true
    else if 128 ≤ size b x ∧ 128 ≤ size b y then
      let h := b ^ ((max (size b x) (size b y) + 2) / 3)
      let x0 := x % h
      let x1 := x / h % h
      let x2 := x / h / h
      let y0 := y % h
      let y1 := y / h % h
      let y2 := y / h / h
      evalSafe b x0 x1 x2 && evalSafe b y0 y1 y2 &&
      (decide (x0 + x2 < x1) != decide (y0 + y2 < y1) ||
        !near 1 b (Nat.dist (x0 + x2) x1 * Nat.dist (y0 + y2) y1) (x0 * y0)) &&
      mulSafe b d x0 y0 &&
      mulSafe b d (x0 + x1 + x2) (y0 + y1 + y2) &&
      mulSafe b d (Nat.dist (x0 + x2) x1) (Nat.dist (y0 + y2) y1) &&
      mulSafe b d (Nat.dist (x0 + 4 * x2) (2 * x1)) (Nat.dist (y0 + 4 * y2) (2 * y1)) &&
      mulSafe b d x2 y2
    else
      let h := b ^ ((max (size b x) (size b y) + 1) / 2)
      !near 20 b (x % h) (x / h) && !near 20 b (y % h) (y / h) &&
      mulSafe b d (x % h) (y % h) &&
      mulSafe b d (Nat.dist (x % h) (x / h)) (Nat.dist (y % h) (y / h)) &&
      mulSafe b d (x / h) (y / h)

/-- None of the products in the computation of `m ^ e` by repeated squaring panics: neither the squares
of `m ^ (2 ^ i)` nor the products of the squares that make up the power. -/
def powSafe (b d m e : Nat) : Prop :=
  ∀ i, 2 ^ (i + 1) ≤ e → mulSafe b d (m ^ 2 ^ i) (m ^ 2 ^ i) = true ∧
    (e / 2 ^ (i + 1) % 2 = 1 → mulSafe b d (m ^ (e % 2 ^ (i + 1))) (m ^ 2 ^ (i + 1)) = true)

end Babs
