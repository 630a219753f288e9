import Verif.SpecMul

/-!
# Specification: the squares that meet no stale digits

Squaring of numbers of 128 digits or more evaluates the polynomial `p0 + p1 X + p2 X²`, whose
coefficients are the three parts of the number, at `-1` and `-2`. It does so in buffers that are not
cleared. If a number that is subtracted or added is longer than the number in the buffer, digits left
over from earlier computations are read. The definitions below say, in terms of numbers alone, that
this does not happen.
-/

namespace Babs

/-- The number subtracted from `p0 + p2` to get the value at `-1` is not longer, and the number
subtracted from `2 (p(-1) + p2)` to get the value at `-2` is not longer. -/
def evalFresh (b p0 p1 p2 : Nat) : Bool :=
  size b p1 ≤ size b (p0 + p2) && size b p0 ≤ size b (2 * Nat.dist (p0 + 2 * p2) p1)

/-- The square of `x` in base `b` meets no stale digits. `clr` says that the buffer for the result is
clear, `wclr` that the work space is clear. The squares of the values at 1, -1 and -2 are computed in
the work space, which is not clear any more inside of these computations; the squares of the values at 0
and infinity are computed in the buffer for the result, which is cleared before. `d` bounds the
depth of the recursion. -/
def squareFresh (b : Nat) : Nat → Bool → Bool → Nat → Bool
  | 0, _, _, _ => false
  | d + 1, clr, wclr, x =>
    if size b x < 128 then true
    else
      let h := b ^ ((size b x + 2) / 3)
      let x0 := x % h
      let x1 := x / h % h
      let x2 := x / h / h
      (clr || evalFresh b x0 x1 x2) &&
      squareFresh b d true false x0 &&
      squareFresh b d wclr false (x0 + x1 + x2) &&
      squareFresh b d wclr false (Nat.dist (x0 + x2) x1) &&
      squareFresh b d wclr false (Nat.dist (x0 + 4 * x2) (2 * x1)) &&
      squareFresh b d true false x2

/-- The square of `x` in base `b` meets no stale digits, and the values it is computed from are in normal
form.  That is all it takes for the square to be right if it is returned. -/
def squareSound (b : Nat) : Nat → Bool → Bool → Nat → Bool
  | 0, _, _, _ => false
  | d + 1, clr, wclr, x =>
    if size b x < 128 then true
    else
      let h := b ^ ((size b x + 2) / 3)
      let x0 := x % h
      let x1 := x / h % h
      let x2 := x / h / h
      evalSafe b x0 x1 x2 &&
      (clr || evalFresh b x0 x1 x2) &&
      squareSound b d true false x0 &&
      squareSound b d wclr false (x0 + x1 + x2) &&
      squareSound b d wclr false (Nat.dist (x0 + x2) x1) &&
      squareSound b d wclr false (Nat.dist (x0 + 4 * x2) (2 * x1)) &&
      squareSound b d true false x2

/-- The square of `x` is known to meet no stale digits that matter: it has at most 1131 digits, or it meets
none at all. -/
def squareClean (b x : Nat) : Prop := size b x ≤ 1131 ∨ ∃ d, squareSound b d true true x = true

/-- The same of all squares in the computation of `m ^ e` by repeated squaring. -/
def powClean (b m e : Nat) : Prop := ∀ i, 2 ^ (i + 1) ≤ e → squareClean b (m ^ 2 ^ i)

/-- The square of `x` neither panics nor meets stale digits. -/
def squareSafe (b d x : Nat) : Bool := mulSafe b d x x && squareFresh b d true true x

/-- None of the squares in the computation of `m ^ e` by repeated squaring meets stale digits. -/
def powFresh (b d m e : Nat) : Prop :=
  ∀ i, 2 ^ (i + 1) ≤ e → squareFresh b d true true (m ^ 2 ^ i) = true

end Babs
