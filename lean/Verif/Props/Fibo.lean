import Verif.Model.Fibo
import Verif.Props.MulSafe
import Mathlib.Data.Nat.Fib.Basic

/-!
# C42: the Fibonacci program of the crate's benchmarks computes Fibonacci numbers
-/

namespace Babs.Props

variable (t : DType) (dbg : Bool)

/-! ## Identities -/

theorem fib_cassini (n : Nat) :
    (n % 2 = 0 → Nat.fib (n + 1) * Nat.fib (n + 1)
      = Nat.fib n * Nat.fib (n + 1) + Nat.fib n * Nat.fib n + 1) ∧
    (n % 2 = 1 → Nat.fib (n + 1) * Nat.fib (n + 1) + 1
      = Nat.fib n * Nat.fib (n + 1) + Nat.fib n * Nat.fib n) := by
  induction n with
  | zero => simp
  | succ n ih =>
    rw [show n + 1 + 1 = n + 2 from rfl, Nat.fib_add_two]
    generalize Nat.fib n = a at *
    generalize Nat.fib (n + 1) = b at *
    constructor
    · intro h
      have := ih.2 (by omega)
      nlinarith
    · intro h
      have := ih.1 (by omega)
      nlinarith

/-! ## Steps -/

/-- The panics that are allowed for: that of the multiplication, unless `T`. -/
abbrev unwrapIf (T : Prop) (p : Panic) : Prop := p = .unwrap ∧ ¬ T

theorem Sp.of_returns {α : Type} {E : Panic → Prop} {x : R α} {Q : α → Prop} (h : Returns x Q) :
    Sp E x Q := by
  obtain ⟨a, rfl, ha⟩ := h; exact ha

theorem Rep.length_le {b k m : Nat} {x : List Nat} (hb : 2 ≤ b) (h : Rep b x m) (hm : m < b ^ k) :
    x.length ≤ k := by
  by_contra hc
  have hne : x ≠ [] := by rintro rfl; simp at hc
  have h1 := h.canon.ge (show 0 < b by omega) hne
  rw [h.val_eq] at h1
  have h2 : b ^ k ≤ b ^ (x.length - 1) := Nat.pow_le_pow_right (by omega) (by omega)
  omega

theorem mul_step {T : Prop} {d : Nat} {x y : List Nat} {m n : Nat} (hx : Rep t.radix x m)
    (hy : Rep t.radix y n) (h : T → mulSafe t.radix d m n = true) :
    Sp (unwrapIf T) (UBig.mul t dbg x y) fun z => Rep t.radix z (m * n) := by
  by_cases hT : T
  · exact Sp.of_returns (mul_safe_exact_partial t dbg x y m n d hx hy (h hT))
  · exact Sp.weaken (mul_exact_or_unwrap t dbg x y m n hx hy) fun p hp => ⟨hp, hT⟩

/-- The products of the step from the Fibonacci numbers at `n` and `n + 1` to those at `2 n` and beyond
do not panic. -/
def fibStepSafe (b d n : Nat) : Prop :=
  let f := Nat.fib n
  let g := Nat.fib (n + 1)
  (mulSafe b d f (2 * g - f) = true ∧ mulSafe b d g (2 * g - f) = true ∧
    mulSafe b d (2 * g - f) g = true) ∧
  mulSafe b d f (2 * f + g) = true ∧ mulSafe b d g (2 * f + g) = true ∧
    mulSafe b d (2 * f + g) g = true

/-- The indices of the steps are those obtained by repeated halving. -/
def fibSafe (b d k : Nat) : Prop := ∀ i, fibStepSafe b d ((k - 1) / 2 ^ (i + 1))

theorem fibStepSafe_40 {b k n : Nat} (hb : 100 ≤ b) (hn : 2 * n + 1 ≤ k)
    (h : Nat.fib k < b ^ 40) : fibStepSafe b 3 n := by
  have h1 : Nat.fib (n + 3) < b ^ 40 := by
    by_cases hn2 : n < 2
    · have h2 : Nat.fib (n + 3) ≤ Nat.fib 4 := Nat.fib_mono (by omega)
      have h3 : Nat.fib 4 = 3 := by decide
      have h4 : b ^ 1 ≤ b ^ 40 := Nat.pow_le_pow_right (by omega) (by omega)
      rw [pow_one] at h4
      omega
    · exact lt_of_le_of_lt (Nat.fib_mono (by omega)) h
  have e2 : Nat.fib (n + 2) = Nat.fib n + Nat.fib (n + 1) := Nat.fib_add_two
  have e3 : Nat.fib (n + 3) = Nat.fib (n + 1) + Nat.fib (n + 2) := Nat.fib_add_two
  have key : ∀ {x y}, x ≤ Nat.fib (n + 3) → y ≤ Nat.fib (n + 3) → mulSafe b 3 x y = true :=
    fun hx hy => mulSafe_40 (by omega) (lt_of_le_of_lt hx h1) (lt_of_le_of_lt hy h1)
  have hle : Nat.fib n ≤ Nat.fib (n + 1) := Nat.fib_le_fib_succ
  exact ⟨⟨key (by omega) (by omega), key (by omega) (by omega), key (by omega) (by omega)⟩,
    key (by omega) (by omega), key (by omega) (by omega), key (by omega) (by omega)⟩

theorem fibSafe_40 {b k : Nat} (hb : 100 ≤ b) (h : Nat.fib k < b ^ 40) : fibSafe b 3 k := by
  intro i
  have h2 : 2 ≤ 2 ^ (i + 1) := by
    calc 2 = 2 ^ 1 := rfl
      _ ≤ 2 ^ (i + 1) := Nat.pow_le_pow_right (by omega) (by omega)
  have h3 : (k - 1) / 2 ^ (i + 1) ≤ (k - 1) / 2 := Nat.div_le_div_left h2 (by omega)
  by_cases hk : k = 0
  · subst hk
    exact fibStepSafe_40 (k := 1) hb (by omega) (by
      rw [Nat.fib_one]; exact Nat.one_lt_pow (by norm_num) (by omega))
  · exact fibStepSafe_40 hb (by omega) h

theorem shl_one_step {E : Panic → Prop} {x : List Nat} {m : Nat} (hx : Rep t.radix x m) :
    Sp E (UBig.shl t dbg x 1) fun z => Rep t.radix z (2 * m) := by
  rcases t with w | w
  · obtain ⟨z, h1, h2⟩ := shl_binary_normalised_partial dbg w x m 1 hx
    refine Sp.of_returns ⟨z, h1, ?_⟩
    have := h2.mpr (by cases w <;> simp [Width.bits])
    rwa [pow_one, Nat.mul_comm] at this
  · obtain ⟨z, h1, h2⟩ := shl_decimal_small_exact dbg w x m 1 hx (by cases w <;> decide)
    rw [pow_one, Nat.mul_comm] at h2
    exact Sp.of_returns ⟨z, h1, h2⟩

/-- A difference that is not less than the subtrahend is in normal form. -/
theorem sub_step {E : Panic → Prop} {x y : List Nat} {m n : Nat} (hx : Rep t.radix x m)
    (hy : Rep t.radix y n) (h : 2 * n ≤ m) :
    Sp E (UBig.sub t dbg x y) fun z => Rep t.radix z (m - n) := by
  have hB := (ops_lawful t dbg).base
  obtain ⟨z, h1, h2⟩ := sub_normalised_partial t dbg x y m n hx hy (by omega)
  refine Sp.of_returns ⟨z, h1, h2.mpr ?_⟩
  rintro ⟨hl, hlt⟩
  have hx0 : x ≠ [] := by rintro rfl; simp at hl
  have hm := hx.canon.pos (show 0 < t.radix by omega) hx0
  rw [hx.val_eq] at hm
  by_cases hy0 : y = []
  · subst hy0
    have := hy.val_eq
    simp at this hlt
    omega
  · have := hy.canon.ge (show 0 < t.radix by omega) hy0
    rw [hy.val_eq] at this
    omega

theorem one_rep : Rep t.radix ubigOne 1 := by
  have hB := (ops_lawful t true).base
  exact ⟨by intro d hd; simp [ubigOne] at hd; omega, by simp [ubigOne, Canon], by simp [ubigOne, val]⟩

theorem sub_one_step {E : Panic → Prop} {x : List Nat} {m : Nat} (hx : Rep t.radix x m)
    (h : 1 ≤ m) : Sp E (UBig.sub t dbg x ubigOne) fun z => Rep t.radix z (m - 1) := by
  have hB := (ops_lawful t dbg).base
  by_cases h1 : 2 ≤ m
  · exact sub_step t dbg hx (one_rep t) h1
  · obtain rfl : m = 1 := by omega
    rw [hx.unique (one_rep t), sub_self_zero t dbg _ 1 (one_rep t)]
    exact rep_zero _

theorem add_step {E : Panic → Prop} {x y : List Nat} {m n : Nat} (hx : Rep t.radix x m)
    (hy : Rep t.radix y n) : Sp E (UBig.add t dbg x y) fun z => Rep t.radix z (m + n) :=
  Sp.of_returns (add_exact t dbg x y m n hx hy)

theorem fibWork_step {T : Prop} {d : Nat} (fuel k : Nat) (hk : k < fuel)
    (hT : T → ∀ i, fibStepSafe t.radix d (k / 2 ^ (i + 1))) :
    Sp (unwrapIf T) (fibWork t dbg fuel k) fun r =>
      Rep t.radix r.1 (Nat.fib k) ∧ Rep t.radix r.2 (Nat.fib (k + 1)) := by
  induction fuel generalizing k with
  | zero => omega
  | succ fuel ih =>
    unfold fibWork
    by_cases h0 : k = 0
    · subst h0
      simp only [if_true]
      exact ⟨rep_zero _, by simpa using one_rep t⟩
    rw [if_neg h0]
    have hn : ∃ n, n = k / 2 := ⟨_, rfl⟩
    obtain ⟨n, hn⟩ := hn
    rw [← hn]
    refine Sp.bind (ih n (by omega) fun h i => by
      have := hT h (i + 1)
      rwa [pow_succ', ← Nat.div_div_eq_div_mul, ← hn] at this) ?_
    rintro ⟨a, b⟩ ⟨ha, hb⟩
    simp only [] at ha hb ⊢
    have hle : Nat.fib n ≤ Nat.fib (n + 1) := Nat.fib_le_fib_succ
    have hpos : 0 < Nat.fib (n + 1) := Nat.fib_pos.mpr (by omega)
    have e1 := Nat.fib_two_mul n
    have e2 := Nat.fib_two_mul_add_one n
    have e3 := Nat.fib_two_mul_add_two n
    have hc := fib_cassini n
    have hbd : T → fibStepSafe t.radix d n := fun h => by
      have := hT h 0
      rwa [Nat.zero_add, pow_one, ← hn] at this
    by_cases h2 : k % 2 = 0
    · rw [if_pos h2]
      have hk : k = 2 * n := by omega
      refine Sp.bind (shl_one_step t dbg hb) fun s hs => ?_
      refine Sp.bind (sub_step t dbg hs ha (by omega)) fun s hs => ?_
      have key : Nat.fib (n + 1) * (2 * Nat.fib (n + 1) - Nat.fib n) + Nat.fib (n + 1) * Nat.fib n
          = 2 * (Nat.fib (n + 1) * Nat.fib (n + 1)) := by
        rw [← Nat.mul_add, Nat.sub_add_cancel (by omega)]; ring
      by_cases h4 : k % 4 = 0
      · rw [if_pos h4]
        refine Sp.bind (mul_step t dbg ha hs fun h => (hbd h).1.1) fun p hp => ?_
        refine Sp.bind (mul_step t dbg hb hs fun h => (hbd h).1.2.1) fun q hq => ?_
        have := hc.1 (by omega)
        have hge : 1 ≤ Nat.fib (n + 1) * (2 * Nat.fib (n + 1) - Nat.fib n) :=
          Nat.mul_pos hpos (by omega)
        refine Sp.bind (sub_one_step t dbg hq hge) fun z hz => ?_
        refine ⟨by rw [hk, e1]; exact hp, ?_⟩
        rw [hk, e2]
        convert hz using 1
        rw [Nat.mul_comm (Nat.fib (n + 1)) (Nat.fib n)] at key
        rw [pow_two, pow_two]
        omega
      · rw [if_neg h4]
        refine Sp.bind (mul_step t dbg ha hs fun h => (hbd h).1.1) fun p hp => ?_
        refine Sp.bind (mul_step t dbg hb hs fun h => (hbd h).1.2.1) fun q hq => ?_
        have := hc.2 (by omega)
        refine Sp.bind (add_step t dbg hq (one_rep t)) fun z hz => ?_
        refine ⟨by rw [hk, e1]; exact hp, ?_⟩
        rw [hk, e2]
        convert hz using 1
        rw [Nat.mul_comm (Nat.fib (n + 1)) (Nat.fib n)] at key
        rw [pow_two, pow_two]
        omega
    · rw [if_neg h2]
      have hk : k = 2 * n + 1 := by omega
      refine Sp.bind (shl_one_step t dbg ha) fun s hs => ?_
      refine Sp.bind (add_step t dbg hs hb) fun s hs => ?_
      have key : Nat.fib n * (2 * Nat.fib n + Nat.fib (n + 1))
          = 2 * (Nat.fib n * Nat.fib n) + Nat.fib n * Nat.fib (n + 1) := by ring
      by_cases h4 : k % 4 = 1
      · rw [if_pos h4]
        refine Sp.bind (mul_step t dbg ha hs fun h => (hbd h).2.1) fun p hp => ?_
        refine Sp.bind (add_step t dbg hp (one_rep t)) fun p hp => ?_
        refine Sp.bind (mul_step t dbg hb hs fun h => (hbd h).2.2.1) fun q hq => ?_
        have := hc.1 (by omega)
        refine ⟨?_, by rw [hk, e3]; exact hq⟩
        rw [hk, e2]
        convert hp using 1
        rw [pow_two, pow_two]
        omega
      · rw [if_neg h4]
        refine Sp.bind (mul_step t dbg ha hs fun h => (hbd h).2.1) fun p hp => ?_
        have hn1 : 1 ≤ Nat.fib n := Nat.fib_pos.mpr (by omega)
        refine Sp.bind (sub_one_step t dbg hp (Nat.mul_pos hn1 (by omega))) fun p hp => ?_
        refine Sp.bind (mul_step t dbg hb hs fun h => (hbd h).2.2.1) fun q hq => ?_
        have := hc.2 (by omega)
        refine ⟨?_, by rw [hk, e3]; exact hq⟩
        rw [hk, e2]
        convert hp using 1
        rw [pow_two, pow_two]
        omega

theorem fibonacci_step {T : Prop} {d : Nat} (k : Nat) (hT : T → fibSafe t.radix d k) :
    Sp (unwrapIf T) (fibonacci t dbg k) fun z => Rep t.radix z (Nat.fib k) := by
  unfold fibonacci
  by_cases h0 : k = 0
  · subst h0; exact rep_zero _
  by_cases h1 : k = 1
  · subst h1; exact one_rep t
  rw [if_neg h0, if_neg h1]
  obtain ⟨n, hn⟩ : ∃ n, n = (k - 1) / 2 := ⟨_, rfl⟩
  rw [← hn]
  refine Sp.bind (fibWork_step t dbg (T := T) (d := d) (k + 1) n (by omega) fun h i => by
    have := hT h (i + 1)
    rwa [pow_succ', ← Nat.div_div_eq_div_mul, ← hn] at this) ?_
  rintro ⟨a, b⟩ ⟨ha, hb⟩
  simp only [] at ha hb ⊢
  have hle : Nat.fib n ≤ Nat.fib (n + 1) := Nat.fib_le_fib_succ
  have hpos : 0 < Nat.fib (n + 1) := Nat.fib_pos.mpr (by omega)
  have e2 := Nat.fib_two_mul_add_one n
  have e3 := Nat.fib_two_mul_add_two n
  have hc := fib_cassini n
  have hbd : T → fibStepSafe t.radix d n := fun h => by
    have := hT h 0
    rwa [Nat.zero_add, pow_one, ← hn] at this
  by_cases h2 : k % 2 = 0
  · rw [if_pos h2]
    have hk : k = 2 * n + 2 := by omega
    refine Sp.bind (shl_one_step t dbg ha) fun s hs => ?_
    refine Sp.bind (add_step t dbg hs hb) fun s hs => ?_
    rw [hk, e3, Nat.mul_comm]
    exact mul_step t dbg hs hb fun h => (hbd h).2.2.2
  · rw [if_neg h2]
    have hk : k = 2 * n + 1 := by omega
    refine Sp.bind (shl_one_step t dbg hb) fun s hs => ?_
    refine Sp.bind (sub_step t dbg hs ha (by omega)) fun s hs => ?_
    have key : (2 * Nat.fib (n + 1) - Nat.fib n) * Nat.fib (n + 1) + Nat.fib n * Nat.fib (n + 1)
        = 2 * (Nat.fib (n + 1) * Nat.fib (n + 1)) := by
      rw [← Nat.add_mul, Nat.sub_add_cancel (by omega)]; ring
    have hn1 : 1 ≤ Nat.fib n := Nat.fib_pos.mpr (by omega)
    refine Sp.bind (mul_step t dbg hs hb fun h => (hbd h).1.2.2) fun p hp => ?_
    by_cases h4 : k % 4 = 1
    · rw [if_pos h4]
      have := hc.1 (by omega)
      refine Sp.mono (sub_one_step t dbg hp (Nat.mul_pos (by omega) hpos)) fun z hz => ?_
      rw [hk, e2]
      convert hz using 1
      rw [pow_two, pow_two]
      omega
    · rw [if_neg h4]
      have := hc.2 (by omega)
      refine Sp.mono (add_step t dbg hp (one_rep t)) fun z hz => ?_
      rw [hk, e2]
      convert hz using 1
      rw [pow_two, pow_two]
      omega

/-! ## The theorems -/

/-- C42: whatever the number type, for every `k` the program returns the `k`-th Fibonacci number in
normal form, unless a multiplication panics (C10). -/
theorem fibonacci_exact_or_unwrap (k : Nat) :
    ReturnsOr (· = .unwrap) (fibonacci t dbg k) fun z => Rep t.radix z (Nat.fib k) :=
  Sp.weaken (fibonacci_step t dbg (T := False) (d := 0) k fun h => h.elim) fun _ h => h.1

/-- C42 (in part): the program does not panic if none of its products is one of those that the
multiplication gets wrong.  Missing: the numbers for which it meets such a product. -/
theorem fibonacci_safe_exact_partial (k d : Nat) (h : fibSafe t.radix d k) :
    Returns (fibonacci t dbg k) fun z => Rep t.radix z (Nat.fib k) :=
  tot_iff.mp (Sp.weaken (fibonacci_step t dbg (T := True) k fun _ => h) fun _ h => h.2 trivial)

/-- C42: Fibonacci numbers of at most 40 digits are computed without panic. -/
theorem fibonacci_exact_partial (k : Nat) (h : Nat.fib k < t.radix ^ 40) :
    Returns (fibonacci t dbg k) fun z => Rep t.radix z (Nat.fib k) :=
  fibonacci_safe_exact_partial t dbg k 3 (fibSafe_40 (ops_lawful t dbg).base h)

/-- C42: results for two number types and build profiles are the same number. -/
theorem fibonacci_agree (t' : DType) (dbg' : Bool) (k : Nat) (x y : List Nat)
    (hx : fibonacci t dbg k = .ok x) (hy : fibonacci t' dbg' k = .ok y) :
    val t.radix x = val t'.radix y := by
  have h1 := fibonacci_exact_or_unwrap t dbg k
  have h2 := fibonacci_exact_or_unwrap t' dbg' k
  rw [hx] at h1
  rw [hy] at h2
  exact h1.val_eq.trans h2.val_eq.symm

/-! ## The hypotheses can be met -/

example : fibonacci (.dec .w8) true 100 = .ok [75, 50, 91, 61, 92, 17, 48, 48, 22, 54, 3] := by
  decide +kernel
example : (fibonacci (.bin .w8) true 300).map (val 256) = .ok (Nat.fib 300) := by decide +kernel
/-- A number of 105 digits, beyond the bound of `fibonacci_exact_partial`. -/
example : (fibonacci (.dec .w8) false 1000).map (val 100) = .ok (Nat.fib 1000) := by decide +kernel
/-- The program does not panic on this one, for any of the types with 8 bits. -/
example : fibSafe 100 20 1000 ∧ fibSafe 256 20 1000 := by
  have h : ∀ n, n ∈ [499, 249, 124, 62, 31, 15, 7, 3, 1, 0] →
      fibStepSafe 100 20 n ∧ fibStepSafe 256 20 n := by
    intro n hn
    simp only [List.mem_cons, List.not_mem_nil, or_false] at hn
    unfold fibStepSafe
    rcases hn with rfl | rfl | rfl | rfl | rfl | rfl | rfl | rfl | rfl | rfl <;> decide +kernel
  have h' : ∀ i, (1000 - 1) / 2 ^ (i + 1) ∈ [499, 249, 124, 62, 31, 15, 7, 3, 1, 0] := by
    intro i
    by_cases hi : i < 9
    · interval_cases i <;> decide
    · have : 2 ^ 10 ≤ 2 ^ (i + 1) := Nat.pow_le_pow_right (by omega) (by omega)
      rw [Nat.div_eq_of_lt (by omega)]
      decide
  exact ⟨fun i => (h _ (h' i)).1, fun i => (h _ (h' i)).2⟩
example : Nat.fib 90 < (DType.dec .w8).radix ^ 40 := by decide +kernel

end Babs.Props
