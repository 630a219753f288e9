import Verif.Proofs.SquareExact
import Verif.Props.MulExact
import Verif.Props.LawsSafe

/-!
# C55: exactly which powers and decimal left shifts panic
-/

namespace Babs.Props

variable (t : DType) (dbg : Bool)

/-- C56 (in part): squares of any size that meet no stale digits panic exactly if the product of the number
with itself does, and are exact otherwise.  Missing: the other squares of more than 1131 digits, of which some
are wrong (`square_wrong`). -/
theorem square_clean_panics_exactly_partial (x : List Nat) (m : Nat) (hx : Rep t.radix x m)
    (hs : squareClean t.radix m) :
    if productPanics t.radix m m then Panics (UBig.square t dbg x) .unwrap
    else Returns (UBig.square t dbg x) fun z => Rep t.radix z (m ^ 2) := by
  rw [pow_two]
  exact Ex.cases (squareClean_exact (dbg := dbg) (ops_lawful t dbg) hx hs)

/-- C55 (in part): a power of any size, of which no square meets stale digits, panics or is exact.  It
panics exactly if one of the steps of repeated squaring does (`powStepPanics`, in terms of the base and the
exponent alone).  Missing: the other powers of more than 2262 digits. -/
theorem pow_clean_panics_exactly_partial (x : List Nat) (m e : Nat) (hx : Rep t.radix x m)
    (hs : powClean t.radix m e) :
    (∃ i, powStepPanics t.radix m e i) ∧ Panics (UBig.pow t dbg x e) .unwrap ∨
    (¬ ∃ i, powStepPanics t.radix m e i) ∧
      Returns (UBig.pow t dbg x e) fun z => Rep t.radix z (m ^ e) := by
  have key := pow_clean_exact (dbg := dbg) (ops_lawful t dbg) hx hs
  cases h : UBig.pow t dbg x e with
  | ok z =>
    have h' : Babs.pow (t.ops dbg) dbg x e = .ok z := h
    rw [h'] at key
    exact Or.inr ⟨key.1, z, rfl, key.2⟩
  | error p =>
    have h' : Babs.pow (t.ops dbg) dbg x e = .error p := h
    rw [h'] at key
    obtain ⟨h1, h2⟩ := key
    rw [h1]
    exact Or.inl ⟨h2, rfl⟩

/-- C55 (in part): the same for left shifts of decimal numbers by more places than are shifted digit by
digit.  Missing: shifts by numbers of places for which a square meets stale digits. -/
theorem shl_decimal_clean_panics_exactly_partial (w : Width) (x : List Nat) (m n : Nat)
    (hx : Rep (DType.dec w).radix x m) (hn : 4 * UBig.maxHexPlaces w < n)
    (hs : powClean (DType.dec w).radix 2 n) :
    ((∃ i, powStepPanics (DType.dec w).radix 2 n i) ∨
        productPanics (DType.dec w).radix m (2 ^ n) = true) ∧
      Panics (UBig.shl (.dec w) dbg x n) .unwrap ∨
    (¬ ((∃ i, powStepPanics (DType.dec w).radix 2 n i) ∨
        productPanics (DType.dec w).radix m (2 ^ n) = true)) ∧
      Returns (UBig.shl (.dec w) dbg x n) fun z => Rep (DType.dec w).radix z (m * 2 ^ n) := by
  have key := shlDec_clean_exact (dbg := dbg) (ops_lawful (.dec w) dbg) (mh := UBig.maxHexPlaces w) hx
    (by omega) hs
  cases h : UBig.shl (.dec w) dbg x n with
  | ok z =>
    have h' : shlDec ((DType.dec w).ops dbg) dbg (UBig.maxHexPlaces w) x n = .ok z := h
    rw [h'] at key
    exact Or.inr ⟨key.1, z, rfl, key.2⟩
  | error p =>
    have h' : shlDec ((DType.dec w).ops dbg) dbg (UBig.maxHexPlaces w) x n = .error p := h
    rw [h'] at key
    obtain ⟨h1, h2⟩ := key
    rw [h1]
    exact Or.inl ⟨h2, rfl⟩

/-- C55 (in part): in particular a power of at most 2262 digits panics or is exact, and panics exactly if one
of the steps of repeated squaring does.  Missing: longer powers. -/
theorem pow_panics_exactly_partial (x : List Nat) (m e : Nat) (hx : Rep t.radix x m)
    (hs : m ^ e < t.radix ^ 2262) :
    (∃ i, powStepPanics t.radix m e i) ∧ Panics (UBig.pow t dbg x e) .unwrap ∨
    (¬ ∃ i, powStepPanics t.radix m e i) ∧
      Returns (UBig.pow t dbg x e) fun z => Rep t.radix z (m ^ e) :=
  pow_clean_panics_exactly_partial t dbg x m e hx
    (powClean_of_lt (by have := (ops_lawful t dbg).base; omega) hs)

/-- C55 (in part): the same for left shifts of decimal numbers by more places than are shifted digit by
digit, when the power of two has at most 2262 digits.  Missing: larger shifts. -/
theorem shl_decimal_panics_exactly_partial (w : Width) (x : List Nat) (m n : Nat)
    (hx : Rep (DType.dec w).radix x m) (hn : 4 * UBig.maxHexPlaces w < n)
    (hs : 2 ^ n < (DType.dec w).radix ^ 2262) :
    ((∃ i, powStepPanics (DType.dec w).radix 2 n i) ∨
        productPanics (DType.dec w).radix m (2 ^ n) = true) ∧
      Panics (UBig.shl (.dec w) dbg x n) .unwrap ∨
    (¬ ((∃ i, powStepPanics (DType.dec w).radix 2 n i) ∨
        productPanics (DType.dec w).radix m (2 ^ n) = true)) ∧
      Returns (UBig.shl (.dec w) dbg x n) fun z => Rep (DType.dec w).radix z (m * 2 ^ n) :=
  shl_decimal_clean_panics_exactly_partial dbg w x m n hx hn
    (powClean_of_lt (by have := (ops_lawful (.dec w) dbg).base; omega) hs)

/-- C55: for every length of at least 41 digits there is a number all of whose powers from the second
on fail. -/
theorem pow_unsafe_lengths (k : Nat) (hk : 41 ≤ k) :
    ∃ x m, Rep t.radix x m ∧ x.length = k ∧
      ∀ e, 2 ≤ e → ∀ z, UBig.pow t dbg x e ≠ .ok z := by
  obtain ⟨x, m, hx, lx, hf⟩ := exists_square_fails (dbg := dbg) (ops_lawful t dbg) hk
  refine ⟨x, m, hx, lx, ?_⟩
  intro e he z hz
  have hz : Babs.pow (t.ops dbg) dbg x e = .ok z := hz
  unfold Babs.pow at hz
  rw [if_neg (by omega), if_neg (by omega)] at hz
  cases h : Babs.square (t.ops dbg) dbg x with
  | ok y => exact hf y h
  | error p =>
    split_ifs at hz
    · rw [h] at hz; cases hz
    all_goals
      unfold powLoop at hz
      rw [if_neg (by omega), h] at hz
      cases hz

/-- C55: the `e`-th power, `e ≥ 2`, of all numbers of `k` digits is right whenever `k * e ≤ 40`; the
square of all numbers of `k` digits, or any fixed higher power, only if `k ≤ 40`. -/
theorem pow_safe_lengths (k e : Nat) (he : 2 ≤ e) :
    (k * e ≤ 40 → ∀ x m, Rep t.radix x m → x.length = k →
      Returns (UBig.pow t dbg x e) fun z => Rep t.radix z (m ^ e)) ∧
    ((∀ x m, Rep t.radix x m → x.length = k →
      Returns (UBig.pow t dbg x e) fun z => Rep t.radix z (m ^ e)) → k ≤ 40) := by
  have hB := (ops_lawful t dbg).base
  constructor
  · intro hk x m hx lx
    refine pow_exact_partial t dbg x m e hx ?_
    have h1 : m < t.radix ^ k := by rw [← hx.val_eq, ← lx]; exact val_lt hx.digs
    calc m ^ e < (t.radix ^ k) ^ e := Nat.pow_lt_pow_left h1 (by omega)
      _ = t.radix ^ (k * e) := by rw [← pow_mul]
      _ ≤ t.radix ^ 40 := Nat.pow_le_pow_right (by omega) hk
  · intro h
    by_contra hk
    obtain ⟨x, m, hx, lx, hf⟩ := pow_unsafe_lengths t dbg k (by omega)
    obtain ⟨z, hz, -⟩ := h x m hx lx
    exact hf e he z hz

/-! ## The hypotheses can be met, and both outcomes occur -/

/-- The fifth power of a number of 41 digits, which has 205, panics in its first step. -/
example : (t.radix ^ 20 + t.radix ^ 41 - t.radix ^ 21) ^ 5 < t.radix ^ 2262 ∧
    powStepPanics t.radix (t.radix ^ 20 + t.radix ^ 41 - t.radix ^ 21) 5 0 := by
  unfold powStepPanics
  rcases t with w | w <;> cases w <;> decide +kernel

/-- A number of 24 digits whose square is right, while its fourth power panics: the square of the
square fails. -/
example : (t.radix ^ 23 + t.radix ^ 11 - t.radix ^ 5) ^ 4 < t.radix ^ 2262 ∧
    ¬ powStepPanics t.radix (t.radix ^ 23 + t.radix ^ 11 - t.radix ^ 5) 4 0 ∧
    powStepPanics t.radix (t.radix ^ 23 + t.radix ^ 11 - t.radix ^ 5) 4 1 := by
  unfold powStepPanics
  rcases t with w | w <;> cases w <;> decide +kernel

/-- A number of 21 digits whose fourth power is right, while its fifth panics: the product of the number
with its fourth power fails. -/
example : (∀ i < 2, ¬ powStepPanics t.radix (t.radix ^ 20 + t.radix ^ 12 - t.radix ^ 5) 4 i) ∧
    powStepPanics t.radix (t.radix ^ 20 + t.radix ^ 12 - t.radix ^ 5) 5 1 := by
  unfold powStepPanics
  rcases t with w | w <;> cases w <;> decide +kernel

/-- A power of 212 digits, of which no step fails. -/
example : 100 ^ 211 ≤ 7 ^ 500 ∧ 7 ^ 500 < 100 ^ 2262 ∧ ∀ i < 9, ¬ powStepPanics 100 7 500 i := by
  unfold powStepPanics
  decide +kernel

/-- A shift by 1600 places: the power of two has 241 digits, the number 61. -/
example : 2 ^ 1600 < 100 ^ 2262 ∧ (∀ i < 11, ¬ powStepPanics 100 2 1600 i) ∧
    productPanics 100 (100 ^ 61 - 1) (2 ^ 1600) = false := by
  unfold powStepPanics
  decide +kernel

/-- A power of 1268 digits, of which no step fails: the last square is a Toom-Cook square. -/
example : 100 ^ 1267 ≤ 7 ^ 3000 ∧ 7 ^ 3000 < 100 ^ 2262 ∧ ∀ i < 12, ¬ powStepPanics 100 7 3000 i := by
  unfold powStepPanics
  decide +kernel

end Babs.Props
