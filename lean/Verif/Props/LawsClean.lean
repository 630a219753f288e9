import Verif.Props.ShiftDecimal

/-!
# C41, C56, C33: squares and powers of any size that meet no stale digits
-/

namespace Babs.Props

variable (t : DType) (dbg : Bool)

/-- C56 (in part): squaring a number of any size is the same as multiplying it with itself, panics included,
if no stale digits are met.  Missing: the other numbers of more than 1131 digits, for some of which it is
false (`square_ne_mul`). -/
theorem square_clean_eq_mul_self_partial (x : List Nat) (m : Nat) (hx : Rep t.radix x m)
    (hs : squareClean t.radix m) : UBig.square t dbg x = UBig.mul t dbg x x := by
  have h1 := square_clean_panics_exactly_partial t dbg x m hx hs
  have h2 := mul_panics_exactly t dbg x x m m hx hx
  by_cases h : productPanics t.radix m m = true
  · rw [if_pos h] at h1 h2
    exact Eq.trans h1 (Eq.symm h2)
  · rw [if_neg h] at h1 h2
    obtain ⟨z, e1, r1⟩ := h1
    obtain ⟨z', e2, r2⟩ := h2
    rw [pow_two] at r1
    rw [e1, e2, r1.unique r2]

/-- A power that is returned is right, if no square meets stale digits. -/
theorem pow_clean_value (x p : List Nat) (m e : Nat) (hx : Rep t.radix x m) (hs : powClean t.radix m e)
    (hp : UBig.pow t dbg x e = .ok p) : Rep t.radix p (m ^ e) := by
  rcases pow_clean_panics_exactly_partial t dbg x m e hx hs with h | ⟨_, z, h, hz⟩
  · have h' : UBig.pow t dbg x e = .error .unwrap := h.2
    rw [hp] at h'
    cases h'
  · rw [hp] at h
    cases h
    exact hz

/-- Smaller exponents need fewer squares. -/
theorem powClean_mono {b m e f : Nat} (h : powClean b m f) (hef : e ≤ f) : powClean b m e :=
  fun i hi => h i (le_trans hi hef)

/-- C41 (in part): `x ^ (a + b)` is the product of `x ^ a` and `x ^ b`, at any size, when all are returned and
no square of the longest power meets stale digits.  Missing: the other powers of more than 2262 digits. -/
theorem pow_add_clean_partial (x p q r s : List Nat) (m a b : Nat) (hx : Rep t.radix x m)
    (hs : powClean t.radix m (a + b)) (hp : UBig.pow t dbg x a = .ok p)
    (hq : UBig.pow t dbg x b = .ok q) (hr : UBig.pow t dbg x (a + b) = .ok r)
    (hm : UBig.mul t dbg p q = .ok s) : r = s := by
  have h1 := pow_clean_value t dbg x p m a hx (powClean_mono hs (by omega)) hp
  have h2 := pow_clean_value t dbg x q m b hx (powClean_mono hs (by omega)) hq
  have h3 := pow_clean_value t dbg x r m (a + b) hx hs hr
  have h4 := mul_exact_or_unwrap t dbg p q _ _ h1 h2
  rw [hm, ← pow_add] at h4
  exact Rep.unique h3 h4

/-- C41 (in part): `(x ^ a) ^ b` is `x ^ (a * b)`, at any size, when all are returned and no square met on
either way meets stale digits.  Missing: the other powers of more than 2262 digits. -/
theorem pow_pow_clean_partial (x p r s : List Nat) (m a b : Nat) (hx : Rep t.radix x m) (hb : b ≠ 0)
    (hs : powClean t.radix m (a * b)) (hs' : powClean t.radix (m ^ a) b)
    (hp : UBig.pow t dbg x a = .ok p) (hr : UBig.pow t dbg x (a * b) = .ok r)
    (hm : UBig.pow t dbg p b = .ok s) : r = s := by
  have h1 := pow_clean_value t dbg x p m a hx
    (powClean_mono hs (Nat.le_mul_of_pos_right _ (Nat.pos_of_ne_zero hb))) hp
  have h3 := pow_clean_value t dbg x r m (a * b) hx hs hr
  have h4 := pow_clean_value t dbg p s (m ^ a) b h1 hs' hm
  rw [← Nat.pow_mul] at h4
  exact Rep.unique h3 h4

/-- C33 (in part): a power of any size, no square of which meets stale digits, is the same in debug and
release builds, panics included.  Missing: the other powers of more than 2262 digits. -/
theorem pow_clean_profile_partial (x : List Nat) (m e : Nat) (hx : Rep t.radix x m)
    (hs : powClean t.radix m e) : UBig.pow t true x e = UBig.pow t false x e := by
  rcases pow_clean_panics_exactly_partial t true x m e hx hs with ⟨k, h⟩ | ⟨k, z, h, hz⟩ <;>
    rcases pow_clean_panics_exactly_partial t false x m e hx hs with ⟨k', h'⟩ | ⟨k', z', h', hz'⟩
  · exact Eq.trans h (Eq.symm h')
  · exact absurd k k'
  · exact absurd k' k
  · rw [h, h', hz.unique hz']

/-- C33 (in part): the same of squares.  Missing: the other numbers of more than 1131 digits. -/
theorem square_clean_profile_partial (x : List Nat) (m : Nat) (hx : Rep t.radix x m)
    (hs : squareClean t.radix m) : UBig.square t true x = UBig.square t false x := by
  have h1 := square_clean_panics_exactly_partial t true x m hx hs
  have h2 := square_clean_panics_exactly_partial t false x m hx hs
  by_cases h : productPanics t.radix m m = true
  · rw [if_pos h] at h1 h2
    exact Eq.trans h1 (Eq.symm h2)
  · rw [if_neg h] at h1 h2
    obtain ⟨z, e1, r1⟩ := h1
    obtain ⟨z', e2, r2⟩ := h2
    rw [e1, e2, r1.unique r2]

/-! ## The hypotheses can be met -/

-- Powers of two of about 30000 digits in base 100, far more than 2262 digits: `2 ^ (100000 + 99936)`, and
-- `2 ^ (256 * 781)` as a power of a power.
example : powClean (DType.dec .w8).radix 2 (100000 + 99936) ∧ powClean (DType.dec .w8).radix 2 (256 * 781) ∧
    powClean (DType.dec .w8).radix (2 ^ 256) 781 ∧ squareClean (DType.dec .w8).radix (2 ^ 2 ^ 15) := by
  refine ⟨powClean_two .w8 _ (by decide), powClean_two .w8 _ (by decide), fun i hi => ?_,
    Or.inr ⟨20, squareSound_step .w8 15 (by decide)⟩⟩
  have h1 : i + 1 < 10 := (Nat.pow_lt_pow_iff_right (show 1 < 2 by omega)).mp (lt_of_le_of_lt hi (by omega))
  rw [← Nat.pow_mul, show 256 * 2 ^ i = 2 ^ (8 + i) by rw [Nat.pow_add]]
  exact Or.inr ⟨20, squareSound_step .w8 (8 + i) (show 8 + i < 17 by omega)⟩

-- Every power of at most 2262 digits, of every type.
example (m e : Nat) (h : m ^ e < t.radix ^ 2262) : powClean t.radix m e :=
  powClean_of_lt (le_trans (by decide) (ops_lawful t true).base) h

end Babs.Props
