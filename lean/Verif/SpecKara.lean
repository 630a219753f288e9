import Verif.SpecMul

/-!
# Specification: exactly which products of middling length panic

If one of the factors has less than 128 digits, a product is computed by Karatsuba's method, or by the
schoolbook method if one of them has less than 20.  Karatsuba's method splits both numbers into a low
and a high half and takes the differences of the halves.  The definitions below follow, in terms of
numbers alone, how many digits the differences are returned with, leading zeros included, and say when
one of the subtractions fails.  A number is given as a count of digits and a value; the value may be
smaller than the count suggests.
-/

namespace Babs

/-- The number of digits with which the difference `m - n` is returned, if `m` is given with `k` digits
and `n` with `j ≤ k` digits.  If there is a borrow out of the lower `j` digits, at most one leading zero
is removed; otherwise all of them are. -/
def diffDigits (b k m j n : Nat) : Nat :=
  if m % b ^ j < n then
    if m / b ^ j = b ^ (k - j - 1) then k - 1 else k
  else size b (m - n)

/-- The difference of the halves fails: the low half, which has no leading zeros, is shorter than the
`j` digits of the high half, and so taken for the smaller one, but it is the larger one. -/
def halvesFail (b j low high : Nat) : Bool := size b low < j && high < low

/-- The number of digits with which the difference of the halves is returned. -/
def halvesDigits (b j low high : Nat) : Nat :=
  if size b low < j || (size b low == j && low < high) then diffDigits b j high (size b low) low
  else diffDigits b (size b low) low j high

/-- The product of `m`, given with `k` digits, and `n`, given with `j` digits, panics: one of the
differences of the halves fails, or the product of the differences, of the low halves or of the high
halves panics.  `d` bounds the depth of the recursion. -/
def karaPanics (b : Nat) : (d k m j n : Nat) → Bool
  | 0, _, _, _, _ => false
  | d + 1, k, m, j, n =>
    if k < 20 ∨ j < 20 then false
    else
      let s := (max k j + 1) / 2
      let h := b ^ s
      halvesFail b (k - s) (m % h) (m / h) || halvesFail b (j - s) (n % h) (n / h) ||
      karaPanics b d (halvesDigits b (k - s) (m % h) (m / h)) (Nat.dist (m % h) (m / h))
        (halvesDigits b (j - s) (n % h) (n / h)) (Nat.dist (n % h) (n / h)) ||
      karaPanics b d (size b (m % h)) (m % h) (size b (n % h)) (n % h) ||
      karaPanics b d (k - s) (m / h) (j - s) (n / h)

end Babs
