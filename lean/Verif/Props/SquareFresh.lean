import Verif.Proofs.SquareFresh
import Verif.Props.MulSafe
import Verif.Props.SquareLong

/-!
# C13, C14, C23: squares, powers and decimal shifts of any size

`squareFresh` of `Verif/SpecSquare.lean` says in terms of numbers alone that a square meets no stale
digits in buffers that are not cleared.
-/

namespace Babs.Props

variable (t : DType) (dbg : Bool)

/-- C13 (in part): the square of a number of any size is exact and does not panic, unless the
difference of two parts of the number is one of those that the code gets wrong, or stale digits are
met.  Missing: the squares that do meet one of these; some of them panic (`square_panics`), some of
them are wrong (`square_wrong`). -/
theorem square_fresh_exact_partial (x : List Nat) (m d : Nat) (hx : Rep t.radix x m)
    (h : squareSafe t.radix d m = true) :
    Returns (UBig.square t dbg x) fun z => Rep t.radix z (m ^ 2) := by
  unfold squareSafe at h
  rw [Bool.and_eq_true] at h
  rw [pow_two]
  exact tot_iff.mp ((square_fresh_spec (ops_lawful t dbg) hx h.1 h.2).weaken fun _ h => h.2 trivial)

/-- C13: numbers of up to 1131 digits meet no stale digits. -/
theorem squareFresh_of_short (m : Nat) (h : m < t.radix ^ 1131) :
    squareFresh t.radix 3 true true m = true :=
  squareFresh_1131 (by have := (ops_lawful t true).base; omega) h

/-- C13 (in part): under the same condition squaring and multiplication agree. -/
theorem square_fresh_eq_mul_partial (x : List Nat) (m d : Nat) (hx : Rep t.radix x m)
    (h : squareSafe t.radix d m = true) :
    Returns (UBig.square t dbg x) fun z => UBig.mul t dbg x x = .ok z := by
  obtain ⟨z, hz, hr⟩ := square_fresh_exact_partial t dbg x m d hx h
  unfold squareSafe at h
  rw [Bool.and_eq_true] at h
  obtain ⟨z', hz', hr'⟩ := mul_safe_exact_partial t dbg x x m m d hx hx h.1
  rw [pow_two] at hr
  exact ⟨z, hz, by rw [hz', hr.unique hr']⟩

/-- C14 (in part): powers of any size are exact and do not panic, unless one of the squares or products
meets such a difference or stale digits. -/
theorem pow_fresh_exact_partial (x : List Nat) (m e d : Nat) (hx : Rep t.radix x m)
    (hs : powSafe t.radix d m e) (hf : powFresh t.radix d m e) :
    Returns (UBig.pow t dbg x e) fun z => Rep t.radix z (m ^ e) :=
  tot_iff.mp ((pow_fresh_spec (ops_lawful t dbg) hx hs hf).weaken fun _ h => h.2 trivial)

/-- C23 (in part): the same for decimal left shifts. -/
theorem shl_decimal_fresh_exact_partial (w : Width) (x : List Nat) (m n d : Nat)
    (hx : Rep (DType.dec w).radix x m) (hs : powSafe (DType.dec w).radix d 2 n)
    (hf : powFresh (DType.dec w).radix d 2 n) (hm : mulSafe (DType.dec w).radix d m (2 ^ n) = true) :
    Returns (UBig.shl (.dec w) dbg x n) fun z => Rep (DType.dec w).radix z (m * 2 ^ n) := by
  by_cases hn : n ≤ 4 * UBig.maxHexPlaces w
  · exact shl_decimal_small_exact dbg w x m n hx hn
  · exact tot_iff.mp ((shlDec_fresh_spec (ops_lawful (.dec w) dbg) hx hn hs hf hm).weaken
      fun _ h => h.2 trivial)

/-! ## Powers of two, of any size -/

theorem pow2_fresh (w : Width) (a d : Nat) (ha : a < d) :
    squareFresh (DType.bin w).radix (d + 1) true true (2 ^ a) = true := by
  obtain ⟨k, hk, hw⟩ := bin_radix w
  rw [hw]
  refine squareFresh_pow2 hk (d + 1) (N := d) (by omega) (Or.inr ⟨a, rfl⟩) ?_
  rw [← pow_mul]
  exact Nat.pow_lt_pow_right (by omega) (lt_of_lt_of_le ha (Nat.le_mul_of_pos_left _ (by omega)))

/-- C13 (in part): binary powers of two are squared exactly and without a panic, whatever their size. -/
theorem square_pow2_exact_partial (w : Width) (x : List Nat) (a : Nat)
    (hx : Rep (DType.bin w).radix x (2 ^ a)) :
    Returns (UBig.square (.bin w) dbg x) fun z => Rep (DType.bin w).radix z (2 ^ (2 * a)) := by
  rw [Nat.mul_comm, pow_mul]
  refine square_fresh_exact_partial _ dbg x _ (a + 1 + 1) hx ?_
  unfold squareSafe
  rw [pow2_safe w a a (a + 1) (by omega) (by omega), pow2_fresh w a (a + 1) (by omega)]
  rfl

/-- C14 (in part): powers of binary powers of two are exact and do not panic, whatever their size. -/
theorem pow_pow2_any_exact_partial (w : Width) (x : List Nat) (a e : Nat)
    (hx : Rep (DType.bin w).radix x (2 ^ a)) :
    Returns (UBig.pow (.bin w) dbg x e) fun z => Rep (DType.bin w).radix z (2 ^ (a * e)) := by
  rw [pow_mul]
  refine pow_fresh_exact_partial _ dbg x _ e (a * e + 1 + 1) hx ?_ ?_ <;> intro i hi <;>
    have h1 : 2 ^ i ≤ 2 ^ (i + 1) := Nat.pow_le_pow_right (by omega) (by omega)
  · have h2 : a * 2 ^ i ≤ a * e := Nat.mul_le_mul_left a (by omega)
    have h3 : a * 2 ^ (i + 1) ≤ a * e := Nat.mul_le_mul_left a hi
    have h4 : a * (e % 2 ^ (i + 1)) ≤ a * e := Nat.mul_le_mul_left a (Nat.mod_le _ _)
    simp only [← pow_mul]
    exact ⟨pow2_safe w _ _ _ (by omega) (by omega), fun _ => pow2_safe w _ _ _ (by omega) (by omega)⟩
  · have h2 : a * 2 ^ i ≤ a * e := Nat.mul_le_mul_left a (by omega)
    simp only [← pow_mul]
    exact pow2_fresh w _ _ (by omega)

/-! ## The hypotheses can be met, and not by everything -/

/-- Numbers of 1755 binary digits of 8 bits, and of 2113 decimal digits of two places. -/
example : squareSafe 256 20 (7 ^ 5000) = true := by decide +kernel
example : squareSafe 100 20 (7 ^ 5000) = true := by decide +kernel
example : 256 ^ 1754 ≤ 7 ^ 5000 ∧ 100 ^ 2112 ≤ 7 ^ 5000 := by decide +kernel
/-- The number that has a wrong square does meet stale digits. -/
example : squareFresh 256 20 true true (longNumber 256) = false := by decide +kernel

end Babs.Props
