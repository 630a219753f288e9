import Verif.SpecKara

/-!
# Specification: exactly which products panic

If both factors have at least 128 digits, a product is computed by the method of Toom and Cook: both
numbers are split into three parts, the coefficients of a polynomial, the polynomials are evaluated at
0, 1, -1, -2 and infinity, the values are multiplied and the product polynomial is found by
interpolation.  The definitions below follow, in terms of numbers alone, how many digits the values are
returned with, leading zeros included, and say when one of the subtractions fails.  A number is given
as a count of digits and a value.
-/

namespace Babs

/-- The number of digits with which the sum `m + n` is returned, if `m` is given with `k` digits and `n`
with `j` digits: those of the longer one, and one more if there is a carry. -/
def sumDigits (b k m j n : Nat) : Nat :=
  if b ^ max k j ≤ m + n then max k j + 1 else max k j

/-- The difference of `m`, given with `k` digits, and `n`, given with `j` digits, fails: the longer one
is taken for the larger one, but it is the smaller one. -/
def absFail (k m j n : Nat) : Bool := (k < j && n < m) || (j < k && m < n)

/-- The number of digits with which the difference of `m` and `n` is returned. -/
def absDigits (b k m j n : Nat) : Nat :=
  if k < j || (k == j && m < n) then diffDigits b j n k m else diffDigits b k m j n

/-- The number of digits with which the difference of `m` and `n` is returned, if it replaces `m`: if `m`
is the smaller one, all leading zeros are removed. -/
def assignDigits (b k m j n : Nat) : Nat :=
  if k < j || (k == j && m < n) then size b (n - m) else diffDigits b k m j n

/-! The polynomial `p0 + p1 X + p2 X²`, where `p0` and `p1` are given without leading zeros and `p2` with
`k2` digits. -/

/-- The number of digits of `p0 + p2`. -/
def digits02 (b p0 k2 p2 : Nat) : Nat := sumDigits b (size b p0) p0 k2 p2

/-- The number of digits of the value at 1. -/
def digits1 (b p0 p1 k2 p2 : Nat) : Nat :=
  sumDigits b (digits02 b p0 k2 p2) (p0 + p2) (size b p1) p1

/-- The number of digits of the absolute value at -1, computed as `(p0 + p2) - p1`. -/
def digitsM1 (b p0 p1 k2 p2 : Nat) : Nat :=
  assignDigits b (digits02 b p0 k2 p2) (p0 + p2) (size b p1) p1

/-- The number of digits of the absolute value of `p(-1) + p2`. -/
def digitsMid (b p0 p1 k2 p2 : Nat) : Nat :=
  if p0 + p2 < p1 then absDigits b k2 p2 (digitsM1 b p0 p1 k2 p2) (Nat.dist (p0 + p2) p1)
  else sumDigits b (digitsM1 b p0 p1 k2 p2) (Nat.dist (p0 + p2) p1) k2 p2

/-- The number of digits of twice this. -/
def digitsTwice (b p0 p1 k2 p2 : Nat) : Nat :=
  sumDigits b (digitsMid b p0 p1 k2 p2) (Nat.dist (p0 + 2 * p2) p1)
    (digitsMid b p0 p1 k2 p2) (Nat.dist (p0 + 2 * p2) p1)

/-- The number of digits of the absolute value at -2, computed as `2 (p(-1) + p2) - p0`. -/
def digitsM2 (b p0 p1 k2 p2 : Nat) : Nat :=
  if p0 + 2 * p2 < p1 then
    sumDigits b (digitsTwice b p0 p1 k2 p2) (2 * Nat.dist (p0 + 2 * p2) p1) (size b p0) p0
  else assignDigits b (digitsTwice b p0 p1 k2 p2) (2 * Nat.dist (p0 + 2 * p2) p1) (size b p0) p0

/-- One of the three subtractions in the evaluation fails. -/
def evalFails (b p0 p1 k2 p2 : Nat) : Bool :=
  absFail (digits02 b p0 k2 p2) (p0 + p2) (size b p1) p1 ||
  (decide (p0 + p2 < p1) &&
    absFail k2 p2 (digitsM1 b p0 p1 k2 p2) (Nat.dist (p0 + p2) p1)) ||
  (decide (p1 ≤ p0 + 2 * p2) &&
    absFail (digitsTwice b p0 p1 k2 p2) (2 * Nat.dist (p0 + 2 * p2) p1) (size b p0) p0)

/-- The interpolation fails, where `r0`, `r1`, `rm1` and `rm2` are the products of the values at 0 and 1
and of the absolute values at -1 and -2, and `s1` and `s2` say that the signs at -1 and at -2 differ.
Only the subtraction of `(r(-2) - r(1)) / 3` and `r(-1) - r(0)` can fail, if neither is negative, and
because the latter may have leading zeros. -/
def interpFails (b : Nat) (s1 s2 : Bool) (r0 r1 rm1 rm2 : Nat) : Bool :=
  !s1 && !s2 && decide (r0 ≤ rm1) && decide (r1 ≤ rm2) &&
  absFail (size b ((rm2 - r1) / 3)) ((rm2 - r1) / 3)
    (diffDigits b (size b rm1) rm1 (size b r0) r0) (rm1 - r0)

/-- The product of `m`, given with `k` digits, and `n`, given with `j` digits, panics.  `d` bounds the
depth of the recursion. -/
def mulPanics (b : Nat) : (d k m j n : Nat) → Bool
  | 0, _, _, _, _ => false
  | d + 1, k, m, j, n =>
    if 128 ≤ k ∧ 128 ≤ j then
      let s := (max k j + 2) / 3
      let h := b ^ s
      let m0 := m % h
      let m1 := m / h % h
      let m2 := m / h / h
      let n0 := n % h
      let n1 := n / h % h
      let n2 := n / h / h
      let mm1 := Nat.dist (m0 + m2) m1
      let nm1 := Nat.dist (n0 + n2) n1
      let mm2 := Nat.dist (m0 + 4 * m2) (2 * m1)
      let nm2 := Nat.dist (n0 + 4 * n2) (2 * n1)
      evalFails b m0 m1 (k - 2 * s) m2 || evalFails b n0 n1 (j - 2 * s) n2 ||
      mulPanics b d (digits1 b m0 m1 (k - 2 * s) m2) (m0 + m1 + m2)
        (digits1 b n0 n1 (j - 2 * s) n2) (n0 + n1 + n2) ||
      mulPanics b d (digitsM1 b m0 m1 (k - 2 * s) m2) mm1 (digitsM1 b n0 n1 (j - 2 * s) n2) nm1 ||
      mulPanics b d (digitsM2 b m0 m1 (k - 2 * s) m2) mm2 (digitsM2 b n0 n1 (j - 2 * s) n2) nm2 ||
      mulPanics b d (size b m0) m0 (size b n0) n0 ||
      mulPanics b d (k - 2 * s) m2 (j - 2 * s) n2 ||
      interpFails b (decide (m0 + m2 < m1) ^^ decide (n0 + n2 < n1))
        (decide (m0 + 4 * m2 < 2 * m1) ^^ decide (n0 + 4 * n2 < 2 * n1))
        (m0 * n0) ((m0 + m1 + m2) * (n0 + n1 + n2)) (mm1 * nm1) (mm2 * nm2)
    else karaPanics b (d + 1) k m j n

/-- The product of the numbers `m` and `n` panics. -/
def productPanics (b m n : Nat) : Bool :=
  mulPanics b (max (size b m) (size b n)) (size b m) m (size b n) n

/-- The step of repeated squaring that goes from `m ^ 2 ^ i` to `m ^ 2 ^ (i + 1)` on the way to `m ^ e`
panics: the square does, or the product with what the lower bits of the exponent have given so far. -/
def powStepPanics (b m e i : Nat) : Prop :=
  2 ^ (i + 1) ≤ e ∧
    (productPanics b (m ^ 2 ^ i) (m ^ 2 ^ i) = true ∨
      e / 2 ^ (i + 1) % 2 = 1 ∧ productPanics b (m ^ (e % 2 ^ (i + 1))) (m ^ 2 ^ (i + 1)) = true)

end Babs
