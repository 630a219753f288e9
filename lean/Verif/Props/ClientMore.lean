import Verif.Props.Client
import Mathlib.Data.Nat.Prime.Basic

/-!
# C62: more programs that never panic

Programs in the sense of C47 that are right for numbers of any length without further conditions.
-/

namespace Babs.Props

open Babs

variable (t : DType) (dbg : Bool)

/-! ## Modular powers -/

/-- `while e != 0 { if e % 2 != 0 { r = r * a % n }; a = a * a % n; e /= 2 }`, where `a` and `r` are at the
positions `ia` and `ir`.  The loop is cut off after `k` rounds. -/
def modPowFrom (n : Nat) : Nat → Nat → Nat → Nat → Client
  | 0, _, _, ir => .done ir
  | k + 1, e, ia, ir =>
    if e = 0 then .done ir
    else if e % 2 ≠ 0 then
      .op (.mul ir ia) (.op (.remWord 0 n) (.op (.mul (ia + 2) (ia + 2)) (.op (.remWord 0 n)
        (modPowFrom n k (e / 2) 0 2))))
    else .op (.mul ia ia) (.op (.remWord 0 n) (modPowFrom n k (e / 2) 0 (ir + 2)))

/-- `let mut a = x % n; let mut r = 1 % n;` and the loop, where `x` is the number built last. -/
def modPow (n k e : Nat) : Client :=
  .op (.remWord 0 n) (.op (.word (1 % n)) (modPowFrom n k e 1 0))

theorem modPowFrom_value (n : Nat) : ∀ k e ia ir ms, e < 2 ^ k → ms.getD ir 0 < n →
    (modPowFrom n k e ia ir).value ms = ms.getD ir 0 * ms.getD ia 0 ^ e % n := by
  intro k
  induction k with
  | zero =>
    intro e ia ir ms he hr
    have : e = 0 := by simpa using he
    subst this
    rw [pow_zero, Nat.mul_one, Nat.mod_eq_of_lt hr]
    rfl
  | succ k ih =>
    intro e ia ir ms he hr
    unfold modPowFrom
    by_cases h0 : e = 0
    · subst h0
      rw [if_pos rfl, pow_zero, Nat.mul_one, Nat.mod_eq_of_lt hr]
      rfl
    have h2 : e / 2 < 2 ^ k := by rw [pow_succ] at he; omega
    have hn : 0 < n := by omega
    generalize ha : ms.getD ia 0 = a
    generalize hr' : ms.getD ir 0 = r at hr
    have hpow : (a * a % n) ^ (e / 2) % n = a ^ (2 * (e / 2)) % n := by
      rw [← Nat.pow_mod, pow_mul, pow_two]
    rw [if_neg h0]
    split
    · next hodd =>
      simp only [Client.value, Op.value, List.getD_cons_zero, List.getD_cons_succ]
      rw [ih _ _ _ _ h2 (by simp only [List.getD_cons_zero, List.getD_cons_succ]; exact Nat.mod_lt _ hn)]
      simp only [List.getD_cons_zero, List.getD_cons_succ]
      rw [ha, hr', Nat.mul_mod, Nat.mod_mod, hpow, ← Nat.mul_mod]
      congr 1
      have : e = 1 + 2 * (e / 2) := by omega
      conv_rhs => rw [this, pow_add, pow_one]
      ring
    · next heven =>
      simp only [Client.value, Op.value, List.getD_cons_zero]
      rw [ih _ _ _ _ h2 (by simp only [List.getD_cons_succ]; rw [hr']; exact hr)]
      simp only [List.getD_cons_zero, List.getD_cons_succ]
      rw [ha, hr', Nat.mul_mod, hpow, ← Nat.mul_mod]
      have : 2 * (e / 2) = e := by omega
      rw [this]

theorem product_small {b m n : Nat} (hb : 2 ≤ b) (h : m < b) : productOk b m n = true := by
  rw [productOk_iff, productPanics_short (lt_of_le_of_lt (size_le (k := 1) hb (by simpa using h)) (by omega))]
  simp

theorem modPowFrom_fine (n : Nat) (h0 : n ≠ 0) (hn : n < t.radix) : ∀ k e ia ir ms, ms.getD ia 0 < n →
    ms.getD ir 0 < n → (modPowFrom n k e ia ir).Fine t ms := by
  have hb := (ops_lawful t true).base
  have hw : n ≠ 0 ∧ WordSound t n := ⟨h0, wordSound_digit t hn⟩
  intro k
  induction k with
  | zero => intros; trivial
  | succ k ih =>
    intro e ia ir ms ha hr
    unfold modPowFrom
    split
    · trivial
    split
    · refine ⟨product_small (by omega) (by omega), hw, ?_, hw, ih _ _ _ _ ?_ ?_⟩
      · exact product_small (by omega) (by simp only [List.getD_cons_succ]; omega)
      · simp only [Op.value, List.getD_cons_zero]
        exact Nat.mod_lt _ (by omega)
      · simp only [Op.value, List.getD_cons_succ, List.getD_cons_zero]
        exact Nat.mod_lt _ (by omega)
    · refine ⟨product_small (by omega) (by omega), hw, ih _ _ _ _ ?_ ?_⟩
      · simp only [Op.value, List.getD_cons_zero]
        exact Nat.mod_lt _ (by omega)
      · simpa only [Op.value, List.getD_cons_succ] using hr

/-- C62: the power of a number of any length modulo a digit is computed exactly, with any exponent. -/
theorem modPow_exact (n k e : Nat) (h0 : n ≠ 0) (hn : n < t.radix) (he : e < 2 ^ k) (x : List Nat) (m : Nat)
    (hx : Rep t.radix x m) :
    Returns ((modPow n k e).run t dbg [x]) fun z => Rep t.radix z (m ^ e % n) := by
  have hw : n ≠ 0 ∧ WordSound t n := ⟨h0, wordSound_digit t hn⟩
  have h1 : 1 % n < 2 ^ UBig.bits t := lt_of_lt_of_le (Nat.mod_lt _ (by omega)) (wordSound_digit t hn).1.le
  have hf : (modPow n k e).Fine t [m] := by
    refine ⟨hw, h1, modPowFrom_fine t n h0 hn _ _ _ _ _ ?_ ?_⟩
    · simp only [Op.value, List.getD_cons_succ, List.getD_cons_zero]
      exact Nat.mod_lt _ (by omega)
    · simp only [Op.value, List.getD_cons_zero]
      exact Nat.mod_lt _ (by omega)
  have := client_exact_partial t dbg (modPow n k e) [x] [m] (.cons hx .nil) hf
  have e1 : (modPow n k e).value [m] = m ^ e % n := by
    unfold modPow
    simp only [Client.value, Op.value, List.getD_cons_zero]
    rw [modPowFrom_value n k e 1 0 _ he (by
      simp only [List.getD_cons_zero]
      exact Nat.mod_lt _ (by omega))]
    simp only [List.getD_cons_zero, List.getD_cons_succ]
    rw [Nat.mul_mod, Nat.mod_mod, ← Nat.pow_mod, ← Nat.mul_mod, Nat.one_mul]
  rwa [e1] at this

/-! ## Trial division -/

/-- `for d in d..d+k { if (x % d).is_zero() { return d } }; return 0`, where `x` is at the position `ix`. -/
def trialFrom : Nat → Nat → Nat → Client
  | 0, _, _ => .op (.word 0) (.done 0)
  | k + 1, d, ix => .op (.remWord ix d) (.isZero 0 fun z => if z then .op (.word d) (.done 0)
      else trialFrom k (d + 1) (ix + 1))

/-- C62: trial division finds the least prime factor of a number of any length, if it is below the bound, which
may be anything up to the radix; otherwise the result is zero. -/
theorem trialDivision_exact (k : Nat) (hk : k + 2 ≤ t.radix) (x : List Nat) (m : Nat) (hx : Rep t.radix x m)
    (h1 : m ≠ 1) :
    Returns ((trialFrom k 2 0).run t dbg [x]) fun z =>
      Rep t.radix z (if m.minFac < k + 2 then m.minFac else 0) := by
  have hv : ∀ k d ix ms, ms.getD ix 0 = m → 2 ≤ d → d ≤ m.minFac →
      (trialFrom k d ix).value ms = if m.minFac < k + d then m.minFac else 0 := by
    intro k
    induction k with
    | zero =>
      intro d ix ms _ _ hm
      rw [if_neg (by omega)]
      rfl
    | succ k ih =>
      intro d ix ms hix hd hm
      unfold trialFrom
      simp only [Client.value, Op.value, List.getD_cons_zero, hix]
      by_cases hdm : d ∣ m
      · have e : m.minFac = d := le_antisymm (Nat.minFac_le_of_dvd hd hdm) hm
        have h0 : m % d = 0 := Nat.mod_eq_zero_of_dvd hdm
        simp only [h0, beq_self_eq_true, if_true, Client.value, Op.value, List.getD_cons_zero]
        rw [if_pos (by omega), e]
      · have h0 : m % d ≠ 0 := fun h => hdm (Nat.dvd_of_mod_eq_zero h)
        have hne : m.minFac ≠ d := fun h => hdm (h ▸ Nat.minFac_dvd m)
        rw [show (m % d == 0) = false by simpa using h0, if_neg (by simp)]
        rw [ih (d + 1) (ix + 1) _ (by simpa using hix) (by omega) (by omega),
          show k + (d + 1) = k + 1 + d by omega]
  have hf : ∀ k d ix ms, 2 ≤ d → d + k ≤ t.radix → (trialFrom k d ix).Fine t ms := by
    intro k
    induction k with
    | zero => intros; exact ⟨word_fits t (by omega), trivial⟩
    | succ k ih =>
      intro d ix ms hd hk
      have hw := wordSound_digit t (n := d) (by omega)
      unfold trialFrom
      refine ⟨⟨by omega, hw⟩, ?_⟩
      simp only [Client.Fine]
      split
      · exact ⟨hw.1, trivial⟩
      · exact ih _ _ _ (by omega) (by omega)
  have := client_exact_partial t dbg (trialFrom k 2 0) [x] [m] (.cons hx .nil) (hf k 2 0 _ (by omega) (by omega))
  rwa [hv k 2 0 [m] rfl le_rfl (Nat.minFac_prime h1).two_le] at this

/-! ## Collatz sequences -/

/-- The Collatz map. -/
def collatz (m : Nat) : Nat := if m % 2 = 0 then m / 2 else 3 * m + 1

/-- `for _ in 0..k { if (x % 2).is_zero() { x /= 2 } else { x = x * 3 + 1 } }`, where `x` is the number built
last. -/
def collatzFrom : Nat → Client
  | 0 => .done 0
  | k + 1 => .op (.remWord 0 2) (.isZero 0 fun z => if z then .op (.divWord 1 2) (collatzFrom k)
      else .op (.mulWord 1 3) (.op (.addWord 0 1) (collatzFrom k)))

/-- C62: any number of steps of the Collatz sequence of a number of any length is computed exactly. -/
theorem collatz_exact (k : Nat) (x : List Nat) (m : Nat) (hx : Rep t.radix x m) :
    Returns ((collatzFrom k).run t dbg [x]) fun z => Rep t.radix z (collatz^[k] m) := by
  have hb := (ops_lawful t true).base
  have hv : ∀ k m ms, (collatzFrom k).value (m :: ms) = collatz^[k] m := by
    intro k
    induction k with
    | zero => intros; rfl
    | succ k ih =>
      intro m ms
      rw [Function.iterate_succ_apply]
      unfold collatzFrom
      simp only [Client.value, Op.value, List.getD_cons_zero]
      by_cases h : m % 2 = 0
      · simp only [h, beq_self_eq_true, if_true, Client.value, Op.value, List.getD_cons_zero, List.getD_cons_succ]
        rw [ih, collatz, if_pos h]
      · rw [show (m % 2 == 0) = false by simpa using h, if_neg (by simp)]
        simp only [Client.value, Op.value, List.getD_cons_zero, List.getD_cons_succ]
        rw [ih, collatz, if_neg h, Nat.mul_comm m 3]
  have hf : ∀ k ms, (collatzFrom k).Fine t ms := by
    intro k
    induction k with
    | zero => intros; trivial
    | succ k ih =>
      intro ms
      have h2 := wordSound_digit t (n := 2) (by omega)
      have h3 := wordSound_digit t (n := 3) (by omega)
      unfold collatzFrom
      refine ⟨⟨by omega, h2⟩, ?_⟩
      simp only [Client.Fine]
      split
      · exact ⟨⟨by omega, h2⟩, ih _⟩
      · exact ⟨h3.1, word_fits t (by omega), ih _⟩
  have := client_exact_partial t dbg (collatzFrom k) [x] [m] (.cons hx .nil) (hf k _)
  rwa [hv k m []] at this

/-! ## Examples -/

/-- `12345 ^ 77` modulo 97. -/
example : (modPow 97 7 77).run (.dec .w8) true [[45, 23, 1]] = .ok [7] ∧ 12345 ^ 77 % 97 = 7 := by
  decide +kernel

/-- 10403 is 101 times 103. -/
example : (trialFrom 200 2 0).run (.bin .w8) true [[163, 40]] = .ok [101] ∧ Rep 256 [163, 40] 10403 := by
  decide +kernel

/-- 27 takes 111 steps to reach 1. -/
example : (collatzFrom 111).run (.dec .w8) false [[27]] = .ok [1] := by decide +kernel

end Babs.Props
