import Mathlib.Tactic.IntervalCases
import Verif.Proofs.SafePow2
import Verif.Props.Mul

/-!
# C10, C13, C14, C23: products, squares, powers and shifts that do not panic

`mulSafe` of `Verif/SpecMul.lean` says in terms of numbers alone that a product meets no difference of
the kind that makes multiplication panic.
-/

namespace Babs.Props

variable (t : DType) (dbg : Bool)

/-- C10 (in part): factors of any size are multiplied exactly and without a panic, unless the
difference of two parts of the numbers is one of those that the code gets wrong.  Missing: the products
that do meet such a difference; some of them panic (`mul_panics`). -/
theorem mul_safe_exact_partial (x y : List Nat) (m n d : Nat) (hx : Rep t.radix x m)
    (hy : Rep t.radix y n) (h : mulSafe t.radix d m n = true) :
    Returns (UBig.mul t dbg x y) fun z => Rep t.radix z (m * n) :=
  tot_iff.mp ((mulBig_safe_spec (ops_lawful t dbg) (T := True) hx hy
    (fun _ => ⟨d, h⟩)).weaken fun _ h => h.2 trivial)

/-- C10: the condition covers the factors of at most 40 digits and those with a factor of fewer than 20. -/
theorem mulSafe_of_short (b m n : Nat) (hb : 2 ≤ b)
    (h : m < b ^ 19 ∨ n < b ^ 19 ∨ (m < b ^ 40 ∧ n < b ^ 40)) : mulSafe b 3 m n = true := by
  rcases h with h | h | h
  · exact mulSafe_short 2 (Or.inl (Nat.lt_succ_of_le (size_le hb h)))
  · exact mulSafe_short 2 (Or.inr (Nat.lt_succ_of_le (size_le hb h)))
  · exact mulSafe_40 hb h.1 h.2

/-- C13 (in part): the same for squares of up to 1131 digits. -/
theorem square_safe_exact_partial (x : List Nat) (m d : Nat) (hx : Rep t.radix x m)
    (hl : x.length ≤ 1131) (h : mulSafe t.radix d m m = true) :
    Returns (UBig.square t dbg x) fun z => Rep t.radix z (m ^ 2) := by
  rw [pow_two]
  exact tot_iff.mp ((square_safe_spec (ops_lawful t dbg) (T := True) hx hl
    (fun _ => ⟨d, h⟩)).weaken fun _ h => h.2 trivial)

/-- C14 (in part): the same for powers of up to 2262 digits. -/
theorem pow_safe_exact_partial (x : List Nat) (m e d : Nat) (hx : Rep t.radix x m)
    (hs : m ^ e < t.radix ^ 2262) (h : powSafe t.radix d m e) :
    Returns (UBig.pow t dbg x e) fun z => Rep t.radix z (m ^ e) :=
  tot_iff.mp ((pow_safe_spec (ops_lawful t dbg) (T := True) hx hs
    (fun _ => h)).weaken fun _ h => h.2 trivial)

/-- C23 (in part): the same for decimal left shifts, if the power of two has up to 2262 digits. -/
theorem shl_decimal_safe_exact_partial (w : Width) (x : List Nat) (m n d : Nat)
    (hx : Rep (DType.dec w).radix x m) (hs : 2 ^ n < (DType.dec w).radix ^ 2262)
    (hp : powSafe (DType.dec w).radix d 2 n)
    (hm : mulSafe (DType.dec w).radix d m (2 ^ n) = true) :
    Returns (UBig.shl (.dec w) dbg x n) fun z => Rep (DType.dec w).radix z (m * 2 ^ n) := by
  by_cases hn : n ≤ 4 * UBig.maxHexPlaces w
  · exact shl_decimal_small_exact dbg w x m n hx hn
  · exact tot_iff.mp ((shlDec_safe_spec (ops_lawful (.dec w) dbg) (T := True) hx hn hs
      (fun _ => ⟨hp, hm⟩)).weaken fun _ h => h.2 trivial)

/-! ## Powers of two, of any size -/

theorem bin_radix (w : Width) : ∃ k, 3 ≤ k ∧ (DType.bin w).radix = 2 ^ k := by
  cases w
  · exact ⟨8, by omega, by decide⟩
  · exact ⟨16, by omega, by decide⟩
  · exact ⟨32, by omega, by decide⟩
  · exact ⟨64, by omega, by decide⟩

theorem pow2_safe (w : Width) (a b d : Nat) (ha : a < d) (hb : b < d) :
    mulSafe (DType.bin w).radix (d + 1) (2 ^ a) (2 ^ b) = true := by
  obtain ⟨k, hk, hw⟩ := bin_radix w
  rw [hw]
  have h : ∀ c, c < d → 2 ^ c < (2 ^ k) ^ d := by
    intro c hc
    rw [← pow_mul]
    refine Nat.pow_lt_pow_right (by omega) (lt_of_lt_of_le hc ?_)
    exact Nat.le_mul_of_pos_left _ (by omega)
  exact mulSafe_pow2 hk (d + 1) (N := d) (by omega) (Or.inr ⟨a, rfl⟩) (Or.inr ⟨b, rfl⟩)
    (h a ha) (h b hb)

/-- C10 (in part): binary numbers that are powers of two are multiplied exactly and without a panic,
whatever their sizes. -/
theorem mul_pow2_exact_partial (w : Width) (x y : List Nat) (a b : Nat)
    (hx : Rep (DType.bin w).radix x (2 ^ a)) (hy : Rep (DType.bin w).radix y (2 ^ b)) :
    Returns (UBig.mul (.bin w) dbg x y) fun z => Rep (DType.bin w).radix z (2 ^ (a + b)) := by
  rw [pow_add]
  exact mul_safe_exact_partial _ dbg x y _ _ _ hx hy
    (pow2_safe w a b (max a b + 1) (by omega) (by omega))

/-- C14 (in part): powers of binary powers of two are exact and do not panic up to 2262 digits. -/
theorem pow_pow2_exact_partial (w : Width) (x : List Nat) (a e : Nat)
    (hx : Rep (DType.bin w).radix x (2 ^ a)) (hs : 2 ^ (a * e) < (DType.bin w).radix ^ 2262) :
    Returns (UBig.pow (.bin w) dbg x e) fun z => Rep (DType.bin w).radix z (2 ^ (a * e)) := by
  rw [pow_mul] at hs ⊢
  refine pow_safe_exact_partial _ dbg x _ e (a * e + 1 + 1) hx hs ?_
  intro i hi
  have h1 : 2 ^ i ≤ 2 ^ (i + 1) := Nat.pow_le_pow_right (by omega) (by omega)
  have h2 : a * 2 ^ i ≤ a * e := Nat.mul_le_mul_left a (by omega)
  have h3 : a * 2 ^ (i + 1) ≤ a * e := Nat.mul_le_mul_left a hi
  have h4 : a * (e % 2 ^ (i + 1)) ≤ a * e := Nat.mul_le_mul_left a (Nat.mod_le _ _)
  simp only [← pow_mul]
  exact ⟨pow2_safe w _ _ _ (by omega) (by omega), fun _ => pow2_safe w _ _ _ (by omega) (by omega)⟩

/-! ## The hypotheses can be met, and not by everything -/

/-- Factors of 1755 and 1189 binary digits of 8 bits. -/
example : mulSafe 256 20 (7 ^ 5000) (3 ^ 6000) = true := by decide +kernel
example : 256 ^ 1754 ≤ 7 ^ 5000 ∧ 256 ^ 1188 ≤ 3 ^ 6000 := by decide +kernel
/-- A square of 1000 decimal digits of two places. -/
example : mulSafe 100 20 (7 ^ 2366) (7 ^ 2366) = true := by decide +kernel
example : 100 ^ 999 ≤ 7 ^ 2366 ∧ 7 ^ 2366 < 100 ^ 1000 := by decide +kernel
/-- Factors of 19 places in a digit. -/
example : mulSafe (10 ^ 19) 20 (7 ^ 5000) (3 ^ 6000) = true := by decide +kernel
/-- The number of `mul_panics` is not safe, at any depth. -/
example : ¬ ∃ d, mulSafe 256 d (256 ^ 20 + 256 ^ 41 - 256 ^ 21) (256 ^ 20 + 256 ^ 41 - 256 ^ 21) = true := by
  rintro ⟨d, h⟩
  cases d with
  | zero => exact absurd h (by decide)
  | succ d =>
    have h1 : size 256 (256 ^ 20 + 256 ^ 41 - 256 ^ 21) = 41 := by decide +kernel
    rw [mulSafe] at h
    simp only [h1] at h
    simp at h
    exact absurd h.1.1.1 (by decide +kernel)
example : powSafe 100 20 7 1000 := by
  intro i hi
  have : i < 9 := by
    by_contra h
    have : 2 ^ (9 + 1) ≤ 2 ^ (i + 1) := Nat.pow_le_pow_right (by omega) (by omega)
    omega
  interval_cases i <;> decide +kernel
example : (7 : Nat) ^ 1000 < 100 ^ 2262 ∧ 100 ^ 422 ≤ 7 ^ 1000 := by decide +kernel

end Babs.Props
