import Verif.SpecFib
import Verif.Props.Fibo
import Verif.Props.MulExact

/-!
# C42, C57: exactly which Fibonacci numbers the program of `benches/fibo.rs` computes

`fibPanics` of `Verif/SpecFib.lean` says it in terms of numbers alone.
-/

namespace Babs.Props

variable (t : DType) (dbg : Bool)

theorem mul_exact_step {x y : List Nat} {m n : Nat} (hx : Rep t.radix x m) (hy : Rep t.radix y n) :
    Ex (productPanics t.radix m n = true) (UBig.mul t dbg x y) fun z => Rep t.radix z (m * n) :=
  mulBig_exact_rep (dbg := dbg) (ops_lawful t dbg) hx hy

theorem fibStepPanics_zero (b : Nat) (hb : 100 ≤ b) : fibStepPanics b 0 = false := by
  have h0 : size b 0 < 20 := by rw [size_zero]; omega
  have h1 : size b 1 < 20 := lt_of_le_of_lt (size_le (k := 1) (by omega) (by rw [pow_one]; omega)) (by omega)
  unfold fibStepPanics
  simp only [Nat.zero_div, Nat.fib_zero, Nat.zero_add, Nat.fib_one, productPanics_short h0,
    productPanics_short h1, Bool.or_self]

/-- The steps on the way to `k`: those on the way to `k / 2`, and the last one. -/
theorem fib_steps_iff {b k : Nat} :
    ((∃ i, fibStepPanics b (k / 2 / 2 ^ i) = true) ∨ fibStepPanics b k = true) ↔
      ∃ i, fibStepPanics b (k / 2 ^ i) = true := by
  have e : ∀ i, k / 2 / 2 ^ i = k / 2 ^ (i + 1) := fun i => by
    rw [Nat.div_div_eq_div_mul, pow_succ']
  constructor
  · rintro (⟨i, h⟩ | h)
    · exact ⟨i + 1, by rw [← e]; exact h⟩
    · exact ⟨0, by simpa using h⟩
  · rintro ⟨i, h⟩
    cases i with
    | zero => exact Or.inr (by simpa using h)
    | succ i => exact Or.inl ⟨i, by rw [e]; exact h⟩

theorem fibStep_even {b k n : Nat} (hk : k = 2 * n) :
    (productPanics b (Nat.fib n) (2 * Nat.fib (n + 1) - Nat.fib n) = true ∨
      productPanics b (Nat.fib (n + 1)) (2 * Nat.fib (n + 1) - Nat.fib n) = true) ↔
      fibStepPanics b k = true := by
  unfold fibStepPanics
  simp only []
  rw [show k / 2 = n by omega, if_pos (by omega)]
  simp only [Bool.or_eq_true]

theorem fibStep_odd {b k n : Nat} (hk : k = 2 * n + 1) :
    (productPanics b (Nat.fib n) (2 * Nat.fib n + Nat.fib (n + 1)) = true ∨
      productPanics b (Nat.fib (n + 1)) (2 * Nat.fib n + Nat.fib (n + 1)) = true) ↔
      fibStepPanics b k = true := by
  unfold fibStepPanics
  simp only []
  rw [show k / 2 = n by omega, if_neg (by omega)]
  simp only [Bool.or_eq_true]

theorem fibWork_exact (fuel k : Nat) (hk : k < fuel) :
    Ex (∃ i, fibStepPanics t.radix (k / 2 ^ i) = true) (fibWork t dbg fuel k) fun r =>
      Rep t.radix r.1 (Nat.fib k) ∧ Rep t.radix r.2 (Nat.fib (k + 1)) := by
  induction fuel generalizing k with
  | zero => omega
  | succ fuel ih =>
    unfold fibWork
    by_cases h0 : k = 0
    · subst h0
      simp only [if_true, Nat.zero_div, fibStepPanics_zero _ (ops_lawful t true).base]
      exact ⟨by simp, rep_zero _, by simpa using one_rep t⟩
    rw [if_neg h0]
    obtain ⟨n, hn⟩ : ∃ n, n = k / 2 := ⟨_, rfl⟩
    refine Ex.congr ?_ fib_steps_iff
    rw [← hn]
    refine Ex.bind (ih n (by omega)) ?_
    rintro ⟨a, b⟩ ⟨ha, hb⟩
    simp only [] at ha hb ⊢
    have hle : Nat.fib n ≤ Nat.fib (n + 1) := Nat.fib_le_fib_succ
    have hpos : 0 < Nat.fib (n + 1) := Nat.fib_pos.mpr (by omega)
    have e1 := Nat.fib_two_mul n
    have e2 := Nat.fib_two_mul_add_one n
    have e3 := Nat.fib_two_mul_add_two n
    have hc := fib_cassini n
    by_cases h2 : k % 2 = 0
    · rw [if_pos h2]
      have hk : k = 2 * n := by omega
      refine Ex.congr ?_ (fibStep_even hk)
      refine Ex.then (Ex.of_tot (shl_one_step t dbg hb)) fun s hs => ?_
      refine Ex.then (Ex.of_tot (sub_step t dbg hs ha (by omega))) fun s hs => ?_
      have key : Nat.fib (n + 1) * (2 * Nat.fib (n + 1) - Nat.fib n) + Nat.fib (n + 1) * Nat.fib n
          = 2 * (Nat.fib (n + 1) * Nat.fib (n + 1)) := by
        rw [← Nat.mul_add, Nat.sub_add_cancel (by omega)]; ring
      by_cases h4 : k % 4 = 0
      · rw [if_pos h4]
        refine Ex.bind (mul_exact_step t dbg ha hs) fun p hp => ?_
        refine Ex.congr (Ex.bind (K2 := False) (mul_exact_step t dbg hb hs) fun q hq => ?_) (iff_of_eq (or_false _))
        have := hc.1 (by omega)
        have hge : 1 ≤ Nat.fib (n + 1) * (2 * Nat.fib (n + 1) - Nat.fib n) :=
          Nat.mul_pos hpos (by omega)
        refine Ex.then (Ex.of_tot (sub_one_step t dbg hq hge)) fun z hz => ?_
        refine ⟨not_false, by rw [hk, e1]; exact hp, ?_⟩
        rw [hk, e2]
        convert hz using 1
        rw [Nat.mul_comm (Nat.fib (n + 1)) (Nat.fib n)] at key
        rw [pow_two, pow_two]
        omega
      · rw [if_neg h4]
        refine Ex.bind (mul_exact_step t dbg ha hs) fun p hp => ?_
        refine Ex.congr (Ex.bind (K2 := False) (mul_exact_step t dbg hb hs) fun q hq => ?_) (iff_of_eq (or_false _))
        have := hc.2 (by omega)
        refine Ex.then (Ex.of_tot (add_step t dbg hq (one_rep t))) fun z hz => ?_
        refine ⟨not_false, by rw [hk, e1]; exact hp, ?_⟩
        rw [hk, e2]
        convert hz using 1
        rw [Nat.mul_comm (Nat.fib (n + 1)) (Nat.fib n)] at key
        rw [pow_two, pow_two]
        omega
    · rw [if_neg h2]
      have hk : k = 2 * n + 1 := by omega
      refine Ex.congr ?_ (fibStep_odd hk)
      refine Ex.then (Ex.of_tot (shl_one_step t dbg ha)) fun s hs => ?_
      refine Ex.then (Ex.of_tot (add_step t dbg hs hb)) fun s hs => ?_
      have key : Nat.fib n * (2 * Nat.fib n + Nat.fib (n + 1))
          = 2 * (Nat.fib n * Nat.fib n) + Nat.fib n * Nat.fib (n + 1) := by ring
      by_cases h4 : k % 4 = 1
      · rw [if_pos h4]
        refine Ex.bind (mul_exact_step t dbg ha hs) fun p hp => ?_
        refine Ex.then (Ex.of_tot (add_step t dbg hp (one_rep t))) fun p hp => ?_
        refine Ex.congr (Ex.bind (K2 := False) (mul_exact_step t dbg hb hs) fun q hq => ?_) (iff_of_eq (or_false _))
        have := hc.1 (by omega)
        refine ⟨not_false, ?_, by rw [hk, e3]; exact hq⟩
        rw [hk, e2]
        convert hp using 1
        rw [pow_two, pow_two]
        omega
      · rw [if_neg h4]
        refine Ex.bind (mul_exact_step t dbg ha hs) fun p hp => ?_
        have hn1 : 1 ≤ Nat.fib n := Nat.fib_pos.mpr (by omega)
        refine Ex.then (Ex.of_tot (sub_one_step t dbg hp (Nat.mul_pos hn1 (by omega)))) fun p hp => ?_
        refine Ex.congr (Ex.bind (K2 := False) (mul_exact_step t dbg hb hs) fun q hq => ?_) (iff_of_eq (or_false _))
        have := hc.2 (by omega)
        refine ⟨not_false, ?_, by rw [hk, e3]; exact hq⟩
        rw [hk, e2]
        convert hp using 1
        rw [pow_two, pow_two]
        omega

theorem fibPanics_small {b k : Nat} (hb : 100 ≤ b) (hk : k ≤ 1) : ¬ fibPanics b k := by
  rintro (⟨i, h⟩ | h)
  · rw [show k - 1 = 0 by omega, Nat.zero_div, fibStepPanics_zero b hb] at h
    cases h
  · unfold fibLastPanics at h
    rw [show (k - 1) / 2 = 0 by omega] at h
    simp only [Nat.fib_zero, zero_add, Nat.fib_one, Nat.mul_zero, Nat.mul_one] at h
    have h1 : ∀ m, m ≤ 2 → size b m < 20 := fun m hm =>
      lt_of_le_of_lt (size_le (k := 1) (by omega) (by rw [pow_one]; omega)) (by omega)
    rw [productPanics_short (h1 _ (by split_ifs <;> omega))] at h
    cases h

theorem fibonacci_exact_all (k : Nat) :
    Ex (fibPanics t.radix k) (fibonacci t dbg k) fun z => Rep t.radix z (Nat.fib k) := by
  have hB := (ops_lawful t true).base
  unfold fibonacci
  by_cases h0 : k = 0
  · rw [if_pos h0]
    subst h0
    exact ⟨fibPanics_small hB (by omega), rep_zero t.radix⟩
  rw [if_neg h0]
  by_cases h1 : k = 1
  · rw [if_pos h1]
    subst h1
    exact ⟨fibPanics_small hB (by omega), by simpa using one_rep t⟩
  rw [if_neg h1]
  obtain ⟨n, hn⟩ : ∃ n, n = (k - 1) / 2 := ⟨_, rfl⟩
  have e : ∀ i, (k - 1) / 2 ^ (i + 1) = n / 2 ^ i := fun i => by
    rw [hn, Nat.div_div_eq_div_mul, pow_succ']
  unfold fibPanics
  simp only [e]
  rw [← hn]
  refine Ex.bind (fibWork_exact t dbg (k + 1) n (by omega)) ?_
  rintro ⟨a, b⟩ ⟨ha, hb⟩
  simp only [] at ha hb ⊢
  have hle : Nat.fib n ≤ Nat.fib (n + 1) := Nat.fib_le_fib_succ
  have hpos : 0 < Nat.fib (n + 1) := Nat.fib_pos.mpr (by omega)
  have e2 := Nat.fib_two_mul_add_one n
  have e3 := Nat.fib_two_mul_add_two n
  have hc := fib_cassini n
  by_cases h2 : k % 2 = 0
  · rw [if_pos h2]
    have hk : k = 2 * n + 2 := by omega
    refine Ex.then (Ex.of_tot (shl_one_step t dbg ha)) fun s hs => ?_
    refine Ex.then (Ex.of_tot (add_step t dbg hs hb)) fun s hs => ?_
    have hl : fibLastPanics t.radix k
        = productPanics t.radix (2 * Nat.fib n + Nat.fib (n + 1)) (Nat.fib (n + 1)) := by
      unfold fibLastPanics
      simp only []
      rw [if_pos h2, ← hn]
    rw [hl, hk, e3, Nat.mul_comm (Nat.fib (n + 1))]
    exact mul_exact_step t dbg hs hb
  · rw [if_neg h2]
    have hk : k = 2 * n + 1 := by omega
    have hl : fibLastPanics t.radix k
        = productPanics t.radix (2 * Nat.fib (n + 1) - Nat.fib n) (Nat.fib (n + 1)) := by
      unfold fibLastPanics
      simp only []
      rw [if_neg h2, ← hn]
    rw [hl]
    refine Ex.then (Ex.of_tot (shl_one_step t dbg hb)) fun s hs => ?_
    refine Ex.then (Ex.of_tot (sub_step t dbg hs ha (by omega))) fun s hs => ?_
    have key : (2 * Nat.fib (n + 1) - Nat.fib n) * Nat.fib (n + 1) + Nat.fib n * Nat.fib (n + 1)
        = 2 * (Nat.fib (n + 1) * Nat.fib (n + 1)) := by
      rw [← Nat.add_mul, Nat.sub_add_cancel (by omega)]; ring
    have hn1 : 1 ≤ Nat.fib n := Nat.fib_pos.mpr (by omega)
    refine Ex.congr (Ex.bind (K2 := False) (mul_exact_step t dbg hs hb) fun p hp => ?_) (iff_of_eq (or_false _))
    by_cases h4 : k % 4 = 1
    · rw [if_pos h4]
      have := hc.1 (by omega)
      refine Ex.mono (Ex.of_tot (sub_one_step t dbg hp (Nat.mul_pos (by omega) hpos))) fun z hz => ?_
      rw [hk, e2]
      convert hz using 1
      rw [pow_two, pow_two]
      omega
    · rw [if_neg h4]
      have := hc.2 (by omega)
      refine Ex.mono (Ex.of_tot (add_step t dbg hp (one_rep t))) fun z hz => ?_
      rw [hk, e2]
      convert hz using 1
      rw [pow_two, pow_two]
      omega

/-! ## The theorems -/

/-- C42: for every `k` the program returns the `k`-th Fibonacci number, or panics, and `fibPanics` says
which. -/
theorem fibonacci_panics_exactly (k : Nat) :
    fibPanics t.radix k ∧ Panics (fibonacci t dbg k) .unwrap ∨
    ¬ fibPanics t.radix k ∧ Returns (fibonacci t dbg k) fun z => Rep t.radix z (Nat.fib k) := by
  have key := fibonacci_exact_all t dbg k
  cases h : fibonacci t dbg k with
  | ok z =>
    rw [h] at key
    exact Or.inr ⟨key.1, z, rfl, key.2⟩
  | error p =>
    rw [h] at key
    obtain ⟨h1, h2⟩ := key
    rw [h1]
    exact Or.inl ⟨h2, rfl⟩

/-! ## The benchmark -/

/-- The Fibonacci numbers at `k` and `k + 1`, and whether a step on the way panics. -/
def fibChain (b : Nat) : Nat → Nat → Nat × Nat × Bool
  | 0, _ => (0, 1, false)
  | d + 1, k =>
    if k = 0 then (0, 1, false)
    else
      let r := fibChain b d (k / 2)
      let f := r.1
      let g := r.2.1
      if k % 2 = 0 then
        (f * (2 * g - f), g * g + f * f,
          r.2.2 || (productPanics b f (2 * g - f) || productPanics b g (2 * g - f)))
      else
        (g * g + f * f, g * (2 * f + g),
          r.2.2 || (productPanics b f (2 * f + g) || productPanics b g (2 * f + g)))

theorem fibChain_spec {b : Nat} (hb : 100 ≤ b) (d k : Nat) (hk : k < 2 ^ d) :
    (fibChain b d k).1 = Nat.fib k ∧ (fibChain b d k).2.1 = Nat.fib (k + 1) ∧
      ((fibChain b d k).2.2 = true ↔ ∃ i, fibStepPanics b (k / 2 ^ i) = true) := by
  have h00 : ¬ ∃ i, fibStepPanics b (0 / 2 ^ i) = true := by
    simp [fibStepPanics_zero b hb]
  induction d generalizing k with
  | zero =>
    obtain rfl : k = 0 := by omega
    exact ⟨rfl, rfl, iff_of_false Bool.false_ne_true h00⟩
  | succ d ih =>
    unfold fibChain
    by_cases h0 : k = 0
    · rw [if_pos h0]
      subst h0
      exact ⟨rfl, rfl, iff_of_false Bool.false_ne_true h00⟩
    · rw [if_neg h0]
      rw [pow_succ] at hk
      obtain ⟨i1, i2, i3⟩ := ih (k / 2) (by omega)
      simp only []
      rw [i1, i2]
      by_cases h2 : k % 2 = 0
      · rw [if_pos h2]
        obtain ⟨n, hn⟩ : ∃ n, k = 2 * n := ⟨k / 2, by omega⟩
        rw [← fib_steps_iff, ← fibStep_even hn, ← i3, show k / 2 = n by omega]
        refine ⟨by rw [hn, Nat.fib_two_mul], by rw [hn, Nat.fib_two_mul_add_one, pow_two, pow_two], ?_⟩
        simp only [Bool.or_eq_true]
      · rw [if_neg h2]
        obtain ⟨n, hn⟩ : ∃ n, k = 2 * n + 1 := ⟨k / 2, by omega⟩
        rw [← fib_steps_iff, ← fibStep_odd hn, ← i3, show k / 2 = n by omega]
        refine ⟨by rw [hn, Nat.fib_two_mul_add_one, pow_two, pow_two],
          by rw [hn, Nat.fib_two_mul_add_two], ?_⟩
        simp only [Bool.or_eq_true]

/-- `fibPanics`, computed. -/
def fibPanicsEval (b d k : Nat) : Bool :=
  let r := fibChain b d ((k - 1) / 2)
  r.2.2 || productPanics b (if k % 2 = 0 then 2 * r.1 + r.2.1 else 2 * r.2.1 - r.1) r.2.1

theorem fibPanicsEval_iff {b : Nat} (hb : 100 ≤ b) (d k : Nat) (hk : (k - 1) / 2 < 2 ^ d) :
    fibPanicsEval b d k = true ↔ fibPanics b k := by
  obtain ⟨i1, i2, i3⟩ := fibChain_spec hb d _ hk
  unfold fibPanicsEval fibPanics fibLastPanics
  simp only []
  rw [i1, i2, Bool.or_eq_true, i3]
  have e : ∀ i, (k - 1) / 2 ^ (i + 1) = (k - 1) / 2 / 2 ^ i := fun i => by
    rw [Nat.div_div_eq_div_mul, pow_succ']
  simp only [e]

/-! ## Both outcomes can be told apart -/

/-- A number of 1045 decimal digits of two places: the products on the way are made by all three
algorithms, and none panics. -/
example : ¬ fibPanics 100 10000 := by
  rw [← fibPanicsEval_iff (by norm_num) 13 _ (by norm_num)]
  decide +kernel

/-- If the step to 400 started from other numbers of the same length it could panic. -/
example : fibStepPanics 256 400 = false ∧
    productPanics 256 (256 ^ 20 + 256 ^ 41 - 256 ^ 21) (256 ^ 20 + 256 ^ 41 - 256 ^ 21) = true := by
  decide +kernel

end Babs.Props
