import Verif.Proofs.KaraWitness
import Verif.Proofs.PowExact
import Verif.Props.Mul

/-!
# C52, C53, C56: exactly which products and squares panic
-/

namespace Babs.Props

variable (t : DType) (dbg : Bool)

theorem Ex.cases {α : Type} {c : Bool} {x : R α} {Q : α → Prop} (h : Ex (c = true) x Q) :
    if c then Panics x .unwrap else Returns x Q := by
  cases x with
  | ok a =>
    obtain ⟨h1, h2⟩ := h
    rw [if_neg h1]
    exact ⟨a, rfl, h2⟩
  | error p =>
    obtain ⟨h1, h2⟩ := h
    rw [if_pos h2, h1]
    exact rfl

theorem length_eq_size {x : List Nat} {m : Nat} (hx : Rep t.radix x m) : x.length = size t.radix m := by
  have h1 := (ops_lawful t true).base
  have := size_canon (by omega) hx.digs hx.canon
  rw [hx.val_eq] at this
  exact this.symm

theorem length_lt_of_lt {x : List Nat} {m k : Nat} (hx : Rep t.radix x m) (hm : m < t.radix ^ k) :
    x.length ≤ k := hx.length_le (by have := (ops_lawful t true).base; omega) hm

/-- C52: every product panics or is exact, and `productPanics` says which, in terms of the two numbers
alone.  The numbers may have any size, so that schoolbook, Karatsuba and Toom-Cook multiplication are all
covered. -/
theorem mul_panics_exactly (x y : List Nat) (m n : Nat) (hx : Rep t.radix x m) (hy : Rep t.radix y n) :
    if productPanics t.radix m n then Panics (UBig.mul t dbg x y) .unwrap
    else Returns (UBig.mul t dbg x y) fun z => Rep t.radix z (m * n) :=
  Ex.cases (mulBig_exact_rep (dbg := dbg) (ops_lawful t dbg) hx hy)

/-- C56 (in part): the square of a number of at most 1131 digits panics or is exact, and panics exactly if
the product of the number with itself does.  Missing: longer numbers, for which see C13 and
`square_stale_wrong`. -/
theorem square_panics_exactly_partial (x : List Nat) (m : Nat) (hx : Rep t.radix x m)
    (hs : m < t.radix ^ 1131) :
    if productPanics t.radix m m then Panics (UBig.square t dbg x) .unwrap
    else Returns (UBig.square t dbg x) fun z => Rep t.radix z (m ^ 2) := by
  rw [pow_two]
  exact Ex.cases (square_exact_rep (dbg := dbg) (ops_lawful t dbg) hx hs)

/-- C11, C52: a product does not depend on the order of the factors, panics included. -/
theorem mul_comm_exactly (x y : List Nat) (m n : Nat) (hx : Rep t.radix x m) (hy : Rep t.radix y n) :
    UBig.mul t dbg x y = UBig.mul t dbg y x := by
  have h1 := mul_panics_exactly t dbg x y m n hx hy
  have h2 := mul_panics_exactly t dbg y x n m hy hx
  have e : productPanics t.radix n m = productPanics t.radix m n := by
    unfold productPanics
    rw [mulPanics_comm, max_comm]
  rw [e] at h2
  by_cases h : productPanics t.radix m n = true
  · rw [if_pos h] at h1 h2
    exact Eq.trans h1 (Eq.symm h2)
  · rw [if_neg h] at h1 h2
    obtain ⟨z, e1, r1⟩ := h1
    obtain ⟨z', e2, r2⟩ := h2
    rw [Nat.mul_comm] at r2
    rw [e1, e2, r1.unique r2]

/-- C56 (in part): squaring a number of at most 1131 digits is the same as multiplying it with itself,
panics included. -/
theorem square_eq_mul_self_partial (x : List Nat) (m : Nat) (hx : Rep t.radix x m)
    (hs : m < t.radix ^ 1131) : UBig.square t dbg x = UBig.mul t dbg x x := by
  have h1 := square_panics_exactly_partial t dbg x m hx hs
  have h2 := mul_panics_exactly t dbg x x m m hx hx
  by_cases h : productPanics t.radix m m = true
  · rw [if_pos h] at h1 h2
    exact Eq.trans h1 (Eq.symm h2)
  · rw [if_neg h] at h1 h2
    obtain ⟨z, e1, r1⟩ := h1
    obtain ⟨z', e2, r2⟩ := h2
    rw [pow_two] at r1
    rw [e1, e2, r1.unique r2]

/-- C53: for which lengths multiplication is safe.  All products of a number of `k` digits and a number
of `j` digits are computed without panic if and only if one of `k` and `j` is less than 20 or both are
at most 40.  For all other pairs of lengths, whichever algorithm is used, there are numbers whose
product panics. -/
theorem mul_safe_lengths (k j : Nat) :
    (∀ x y m n, Rep t.radix x m → Rep t.radix y n → x.length = k → y.length = j →
      Returns (UBig.mul t dbg x y) fun z => Rep t.radix z (m * n)) ↔
    k < 20 ∨ j < 20 ∨ (k ≤ 40 ∧ j ≤ 40) := by
  constructor
  · intro h
    by_contra hcon
    rcases Nat.le_total k j with hkj | hkj
    · obtain ⟨x, y, m, n, hx, hy, lx, ly, hf, -⟩ := exists_mul_fails (dbg := dbg) (ops_lawful t dbg)
        (k := k) (j := j) (by omega) hkj (by omega)
      obtain ⟨z, hz, -⟩ := h x y m n hx hy lx ly
      exact hf z hz
    · obtain ⟨x, y, m, n, hx, hy, lx, ly, -, hf⟩ := exists_mul_fails (dbg := dbg) (ops_lawful t dbg)
        (k := j) (j := k) (by omega) hkj (by omega)
      obtain ⟨z, hz, -⟩ := h y x n m hy hx ly lx
      exact hf z hz
  · intro h x y m n hx hy lx ly
    exact mul_exact_partial t dbg x y m n hx hy (by omega)

/-- C53: and the panic is that of an unwrapped error. -/
theorem mul_unsafe_lengths (k j : Nat) (hk : 20 ≤ k) (hj : 20 ≤ j) (h : 41 ≤ k ∨ 41 ≤ j) :
    ∃ x y m n, Rep t.radix x m ∧ Rep t.radix y n ∧ x.length = k ∧ y.length = j ∧
      Panics (UBig.mul t dbg x y) .unwrap := by
  have key : ∀ x y m n, Rep t.radix x m → Rep t.radix y n → (∀ z, UBig.mul t dbg x y ≠ .ok z) →
      Panics (UBig.mul t dbg x y) .unwrap := by
    intro x y m n hx hy hf
    have := mul_exact_or_unwrap t dbg x y m n hx hy
    cases h : UBig.mul t dbg x y with
    | ok z => exact absurd h (hf z)
    | error p =>
      rw [h] at this
      have hp : p = .unwrap := this
      rw [hp]
      exact rfl
  rcases Nat.le_total k j with hkj | hkj
  · obtain ⟨x, y, m, n, hx, hy, lx, ly, hf, -⟩ := exists_mul_fails (dbg := dbg) (ops_lawful t dbg)
      (k := k) (j := j) hk hkj (by omega)
    exact ⟨x, y, m, n, hx, hy, lx, ly, key x y m n hx hy hf⟩
  · obtain ⟨x, y, m, n, hx, hy, lx, ly, -, hf⟩ := exists_mul_fails (dbg := dbg) (ops_lawful t dbg)
      (k := j) (j := k) hj hkj (by omega)
    exact ⟨y, x, n, m, hy, hx, ly, lx, key y x n m hy hx hf⟩

/-- C53: all squares of numbers of `k` digits are computed without panic if and only if `k` is at
most 40. -/
theorem square_safe_lengths (k : Nat) :
    (∀ x m, Rep t.radix x m → x.length = k →
      Returns (UBig.square t dbg x) fun z => Rep t.radix z (m ^ 2)) ↔ k ≤ 40 := by
  constructor
  · intro h
    by_contra hcon
    obtain ⟨x, m, hx, lx, hf⟩ := exists_square_fails (dbg := dbg) (ops_lawful t dbg) (k := k) (by omega)
    obtain ⟨z, hz, -⟩ := h x m hx lx
    exact hf z hz
  · intro h x m hx lx
    exact square_exact_partial t dbg x m hx (by omega)

/-- The number of 128 digits with the three parts `radix ^ 43 - 1`, `radix ^ 41 - 1` and
`radix ^ 41`. -/
def interpNumber (b : Nat) : Nat := (b ^ 43 - 1) + b ^ 43 * (b ^ 41 - 1) + b ^ 86 * b ^ 41

/-- C52, C56: a product can panic although nothing goes wrong in the evaluation of the polynomials and
in the products of the values (`evalFails` and `mulPanics` are false of all of them): this number times
itself panics in the interpolation.  Its product with the next number is right. -/
theorem interpolation_panics : ∃ x y, Rep t.radix x (interpNumber t.radix) ∧ x.length = 128 ∧
    Rep t.radix y (interpNumber t.radix + 1) ∧
    Panics (UBig.mul t dbg x x) .unwrap ∧ Panics (UBig.square t dbg x) .unwrap ∧
    Returns (UBig.mul t dbg x y) fun z =>
      Rep t.radix z (interpNumber t.radix * (interpNumber t.radix + 1)) := by
  have hB := (ops_lawful t true).base
  obtain ⟨x, hx⟩ := exists_rep (B := t.radix) (by omega) (interpNumber t.radix)
  obtain ⟨y, hy⟩ := exists_rep (B := t.radix) (by omega) (interpNumber t.radix + 1)
  have h1 : productPanics t.radix (interpNumber t.radix) (interpNumber t.radix) = true := by
    rcases t with w | w <;> cases w <;> decide +kernel
  have h2 : productPanics t.radix (interpNumber t.radix) (interpNumber t.radix + 1) = false := by
    rcases t with w | w <;> cases w <;> decide +kernel
  have h3 : size t.radix (interpNumber t.radix) = 128 := by
    rcases t with w | w <;> cases w <;> decide +kernel
  have h4 : interpNumber t.radix < t.radix ^ 1131 := by
    rcases t with w | w <;> cases w <;> decide +kernel
  have k1 := mul_panics_exactly t dbg x x _ _ hx hx
  have k2 := square_panics_exactly_partial t dbg x _ hx h4
  have k3 := mul_panics_exactly t dbg x y _ _ hx hy
  rw [h1, if_pos rfl] at k1 k2
  rw [h2] at k3
  exact ⟨x, y, hx, by rw [length_eq_size t hx, h3], hy, k1, k2, k3⟩

/-! ## The hypotheses can be met, and both outcomes occur -/

/-- The witness of `mul_panics` is one of the numbers that `productPanics` finds. -/
example : productPanics t.radix (t.radix ^ 20 + t.radix ^ 41 - t.radix ^ 21)
    (t.radix ^ 20 + t.radix ^ 41 - t.radix ^ 21) = true := by
  rcases t with w | w <;> cases w <;> decide +kernel

/-- A number of 20 digits times a number of 41. -/
example : productPanics t.radix (t.radix ^ 19) (t.radix ^ 20 + t.radix ^ 41 - t.radix ^ 21) = true := by
  rcases t with w | w <;> cases w <;> decide +kernel

/-- A product of numbers of 100 digits that does not panic. -/
example : productPanics t.radix (t.radix ^ 100 - 1) (t.radix ^ 100 - 2) = false := by
  rcases t with w | w <;> cases w <;> decide +kernel

/-- A product that `mulSafe` rejects and that does not panic all the same: the halves of the number of
41 digits are near each other, but the other factor has equal halves, so that nothing is multiplied
with the difference. -/
example : mulSafe t.radix 41 (t.radix ^ 20 + t.radix ^ 21 * t.radix ^ 20)
      (t.radix ^ 20 + t.radix ^ 41 - t.radix ^ 21) = false ∧
    productPanics t.radix (t.radix ^ 20 + t.radix ^ 21 * t.radix ^ 20)
      (t.radix ^ 20 + t.radix ^ 41 - t.radix ^ 21) = false := by
  rcases t with w | w <;> cases w <;> decide +kernel

/-- The number of `interpolation_panics` fails in the interpolation alone. -/
example : evalFails t.radix (t.radix ^ 43 - 1) (t.radix ^ 41 - 1) 42 (t.radix ^ 41) = false ∧
    interpFails t.radix false false ((t.radix ^ 43 - 1) * (t.radix ^ 43 - 1))
      ((t.radix ^ 43 + t.radix ^ 41 + t.radix ^ 41 - 2) * (t.radix ^ 43 + t.radix ^ 41 + t.radix ^ 41 - 2))
      (t.radix ^ 43 * t.radix ^ 43)
      ((t.radix ^ 43 + 2 * t.radix ^ 41 + 1) * (t.radix ^ 43 + 2 * t.radix ^ 41 + 1)) = true := by
  rcases t with w | w <;> cases w <;> decide +kernel

/-- A number of 128 digits that fails in the evaluation, whatever it is multiplied with, if the other
factor is not longer. -/
example : evalFails t.radix 3 (2 + 2 * t.radix ^ 41) 42 (t.radix ^ 41) = true ∧
    productPanics t.radix (3 + t.radix ^ 43 * (2 + 2 * t.radix ^ 41) + t.radix ^ 127) (t.radix ^ 127)
      = true := by
  rcases t with w | w <;> cases w <;> decide +kernel

/-- Products by Toom-Cook multiplication that do not panic, one of them with a second level. -/
example : productPanics t.radix (t.radix ^ 200 - 1) (t.radix ^ 128 - 2) = false ∧
    productPanics t.radix (t.radix ^ 500 - 1) (t.radix ^ 450 / 7) = false := by
  rcases t with w | w <;> cases w <;> decide +kernel

end Babs.Props
