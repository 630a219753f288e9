import Verif.Proofs.Basic
import Verif.Model.Mul

/-!
# Helper lemmas: sizes of scratch arrays
-/

namespace Babs

/-- More fuel does not change the work size. -/
theorem karatsubaWorkGo_fuel (f g n : Nat) (hf : n ≤ f) (hg : n ≤ g) :
    karatsubaWorkGo f n = karatsubaWorkGo g n := by
  induction f generalizing g n with
  | zero =>
    have : n = 0 := by omega
    subst this
    cases g with
    | zero => rfl
    | succ g => simp [karatsubaWorkGo, karatsubaCutoff]
  | succ f ih =>
    cases g with
    | zero =>
      have : n = 0 := by omega
      subst this
      simp [karatsubaWorkGo, karatsubaCutoff]
    | succ g =>
      unfold karatsubaWorkGo
      split
      · rename_i h
        unfold karatsubaCutoff at h
        rw [ih g ((n + 1) / 2) (by omega) (by omega)]
      · rfl

/-- The recurrence that `calc_karatsuba_work_size` computes. -/
theorem karatsubaWorkSize_eq (n : Nat) : karatsubaWorkSize n =
    if 20 ≤ n then 2 * ((n + 1) / 2) + karatsubaWorkSize ((n + 1) / 2) else 0 := by
  unfold karatsubaWorkSize
  cases n with
  | zero => rfl
  | succ n =>
    conv_lhs => unfold karatsubaWorkGo
    unfold karatsubaCutoff
    split
    · rw [karatsubaWorkGo_fuel n ((n + 1 + 1) / 2) _ (by omega) (by omega)]
    · rfl

theorem karatsubaWorkSize_mono {m n : Nat} (h : m ≤ n) :
    karatsubaWorkSize m ≤ karatsubaWorkSize n := by
  induction n using Nat.strong_induction_on generalizing m with
  | _ n ih =>
    rw [karatsubaWorkSize_eq m, karatsubaWorkSize_eq n]
    by_cases hm : 20 ≤ m
    · rw [if_pos hm, if_pos (by omega)]
      have := @ih ((n + 1) / 2) (by omega) ((m + 1) / 2) (by omega)
      omega
    · rw [if_neg hm]; omega

theorem toom3WorkGo_fuel (f g n : Nat) (hf : n ≤ f) (hg : n ≤ g) :
    toom3WorkGo f n = toom3WorkGo g n := by
  induction f generalizing g n with
  | zero =>
    have : n = 0 := by omega
    subst this
    cases g with
    | zero => rfl
    | succ g => simp [toom3WorkGo, toom3Cutoff]
  | succ f ih =>
    cases g with
    | zero =>
      have : n = 0 := by omega
      subst this
      simp [toom3WorkGo, toom3Cutoff]
    | succ g =>
      unfold toom3WorkGo
      split
      · rename_i h
        unfold toom3Cutoff at h
        rw [ih g ((n + 2) / 3 + 2) (by omega) (by omega)]
      · rfl

/-- The recurrence that `calc_toom3_work_size` computes. -/
theorem toom3WorkSize_eq (n : Nat) : toom3WorkSize n =
    if 128 ≤ n then 6 * ((n + 2) / 3) + 10 + toom3WorkSize ((n + 2) / 3 + 2)
    else karatsubaWorkSize n := by
  unfold toom3WorkSize
  cases n with
  | zero => rfl
  | succ n =>
    conv_lhs => unfold toom3WorkGo
    unfold toom3Cutoff
    split
    · rw [toom3WorkGo_fuel n ((n + 1 + 2) / 3 + 2) _ (by omega) (by omega)]
    · rfl

/-- The scratch array of Karatsuba is little more than twice the operand. -/
theorem karatsubaWorkSize_le (n : Nat) : 4 * karatsubaWorkSize n ≤ 9 * n := by
  induction n using Nat.strong_induction_on with
  | _ n ih =>
    rw [karatsubaWorkSize_eq n]
    by_cases h : 20 ≤ n
    · rw [if_pos h]
      have := ih ((n + 1) / 2) (by omega)
      omega
    · rw [if_neg h]; omega

theorem le_toom3WorkSize {n : Nat} (h : 20 ≤ n) : n ≤ toom3WorkSize n := by
  rw [toom3WorkSize_eq]
  split
  · omega
  · rw [karatsubaWorkSize_eq, if_pos h]; omega

/-- A scratch array for Toom-Cook is large enough for Karatsuba. -/
theorem karatsuba_le_toom3 (n : Nat) : karatsubaWorkSize n ≤ toom3WorkSize n := by
  rw [toom3WorkSize_eq]
  split
  · have h1 := karatsubaWorkSize_le n
    have h2 := le_toom3WorkSize (n := (n + 2) / 3 + 2) (by omega)
    omega
  · exact le_refl _

theorem toom3WorkSize_mono {m n : Nat} (h : m ≤ n) : toom3WorkSize m ≤ toom3WorkSize n := by
  induction n using Nat.strong_induction_on generalizing m with
  | _ n ih =>
    by_cases hm : 128 ≤ m
    · rw [toom3WorkSize_eq m, toom3WorkSize_eq n, if_pos hm, if_pos (by omega)]
      have := @ih ((n + 2) / 3 + 2) (by omega) ((m + 2) / 3 + 2) (by omega)
      omega
    · rw [toom3WorkSize_eq m, if_neg hm]
      exact le_trans (karatsubaWorkSize_mono h) (karatsuba_le_toom3 n)

end Babs
