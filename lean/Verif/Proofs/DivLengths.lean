import Verif.SpecDivLen
import Verif.SpecDiv
import Verif.Proofs.Safe

/-!
# For which lengths the recursive division meets equal leading digits

`bzSafe` and `BzTieFree` in terms of lengths: dividends that are too short for a panic, and a divisor and
a dividend that lead to one for all other lengths.
-/

namespace Babs

theorem leafDigits_lt (len : Nat) : leafDigits len < 20 := by
  fun_induction leafDigits len with
  | case1 _ h => exact h
  | case2 _ _ ih => exact ih

theorem le_leafDigits {len : Nat} (h : 20 ≤ len) : 10 ≤ leafDigits len := by
  fun_induction leafDigits len with
  | case1 _ h' => omega
  | case2 len _ ih =>
    by_cases h' : 20 ≤ (len + 1) / 2
    · exact ih h'
    · rw [leafDigits, if_pos (by omega)]; omega

theorem leafDigits_block : ∀ {e len n : Nat}, len ≤ 20 * 2 ^ e → (∀ e', e' < e → 20 * 2 ^ e' < len) →
    len ≤ n → n < len + 2 ^ e → 2 ^ e ∣ n → ∃ e', n = leafDigits len * 2 ^ e' := by
  intro e
  induction e with
  | zero =>
    intro len n h1 _ h3 h4 _
    obtain rfl : n = len := by simp at h4; omega
    by_cases h : n < 20
    · exact ⟨0, by rw [leafDigits, if_pos h]; simp⟩
    · refine ⟨1, ?_⟩
      obtain rfl : n = 20 := by simp at h1; omega
      rw [leafDigits, if_neg (by omega), leafDigits, if_pos (by omega)]
      norm_num
  | succ e ih =>
    intro len n h1 h2 h3 h4 h5
    have hlen : 20 * 2 ^ e < len := h2 e (by omega)
    have hp : 0 < 2 ^ e := Nat.pow_pos (by omega)
    rw [Nat.pow_succ] at h1 h4 h5
    obtain ⟨c, rfl⟩ := h5
    obtain ⟨e', he'⟩ := ih (len := (len + 1) / 2) (n := 2 ^ e * c) (by omega)
      (fun e' he' => by
        have := h2 (e' + 1) (by omega)
        rw [Nat.pow_succ] at this
        omega)
      (by rw [Nat.mul_assoc, Nat.mul_left_comm] at h3; omega)
      (by rw [Nat.mul_assoc, Nat.mul_left_comm] at h4; omega)
      (dvd_mul_right _ _)
    refine ⟨e' + 1, ?_⟩
    rw [leafDigits, if_neg (by omega), Nat.pow_succ, ← Nat.mul_assoc, ← he']
    ring

/-- The blocks are as long as the leaves, up to a power of two. -/
theorem IsBlockLen.leaf {len n : Nat} (h : IsBlockLen len n) : ∃ e, n = leafDigits len * 2 ^ e := by
  obtain ⟨e, h1, h2, h3, h4, h5⟩ := h
  exact leafDigits_block h1 h2 h3 h4 h5

/-! ## Dividends that are too short for a panic -/

section
variable {b : Nat}

theorem top_le {n y : Nat} (n' : Nat) (hn : n = 2 * n') (h1 : 1 ≤ n') :
    y / b ^ (n - 1) * b ^ (n' - 1) ≤ y / b ^ n' := by
  rcases Nat.eq_zero_or_pos b with rfl | hb
  · simp [show n - 1 ≠ 0 by omega]
  rw [show n - 1 = n' + (n' - 1) by omega, pow_add, ← Nat.div_div_eq_div_mul]
  exact Nat.div_mul_le_self _ _

theorem bzSafe_of_short {M : Nat → Nat → Bool} (hb : 2 ≤ b) {n0 : Nat} (h0 : 10 ≤ n0) (h0' : n0 < 20)
    (hM : ∀ u v, u < b ^ 19 → M u v = true) : ∀ (e k a y : Nat), e < k →
    a / b ^ (n0 * 2 ^ e + n0 - 1) < y / b ^ (n0 * 2 ^ e - 1) →
    bzSafe M b k (n0 * 2 ^ e) a y = true := by
  intro e
  induction e with
  | zero =>
    intro k a y hk h
    obtain ⟨k, rfl⟩ : ∃ k', k = k' + 1 := ⟨k - 1, by omega⟩
    rw [bzSafe, if_pos (by omega)]
    simp only [pow_zero, Nat.mul_one] at h ⊢
    rw [show n0 + n0 - 1 = 2 * n0 - 1 by omega] at h
    simpa using h
  | succ e ih =>
    intro k a y hk h
    obtain ⟨k, rfl⟩ : ∃ k', k = k' + 1 := ⟨k - 1, by omega⟩
    have hp : 1 ≤ 2 ^ e := Nat.one_le_two_pow
    obtain ⟨N, hN⟩ : ∃ N, N = n0 * 2 ^ e := ⟨_, rfl⟩
    have hN0 : n0 ≤ N := by rw [hN]; exact Nat.le_mul_of_pos_right _ hp
    have e1 : n0 * 2 ^ (e + 1) = 2 * N := by rw [hN, pow_succ]; ring
    rw [e1] at h ⊢
    rw [bzSafe, if_neg (by omega), show 2 * N / 2 = N by omega]
    have hb0 : 0 < b := by omega
    -- the leading digit of the divisor
    obtain ⟨T, hT⟩ : ∃ T, T = y / b ^ (2 * N - 1) := ⟨_, rfl⟩
    rw [← hT] at h
    have hT0 : 1 ≤ T := Nat.one_le_iff_ne_zero.mpr (Nat.ne_of_gt (Nat.zero_lt_of_lt h))
    have hy : T * b ^ (N - 1) ≤ y / b ^ N := by rw [hT]; exact top_le N rfl (by omega)
    have hTd : y / b ^ N / b ^ (N - 1) = T := by
      rw [hT, Nat.div_div_eq_div_mul, ← pow_add]; congr 2; omega
    have hypos : 0 < y / b ^ N := lt_of_lt_of_le (Nat.mul_pos hT0 (Nat.pow_pos hb0)) hy
    have ha : ∀ a', a' ≤ a → a' < T * b ^ (2 * N + n0 - 1) := fun a' ha' =>
      lt_of_le_of_lt ha' (by rwa [Nat.div_lt_iff_lt_mul (Nat.pow_pos hb0)] at h)
    -- one step
    have part : ∀ a', a' < T * b ^ (2 * N + n0 - 1) →
        (if a' / b ^ N / b ^ N < y / b ^ N then
          bzSafe M b k N (a' / b ^ N) (y / b ^ N) && M (a' / b ^ N / (y / b ^ N)) (y % b ^ N)
        else M (b ^ N - 1) (y % b ^ N)) = true := by
      intro a' ha'
      have h2 : a' / b ^ N / b ^ N < T * b ^ (N - 1) := by
        rw [Nat.div_div_eq_div_mul, ← pow_add, Nat.div_lt_iff_lt_mul (Nat.pow_pos hb0), Nat.mul_assoc,
          ← pow_add]
        exact lt_of_lt_of_le ha' (Nat.mul_le_mul_left _ (Nat.pow_le_pow_right hb0 (by omega)))
      rw [if_pos (by omega), Bool.and_eq_true]
      constructor
      · rw [hN]
        refine ih k _ _ (by omega) ?_
        rw [← hN, hTd, Nat.div_div_eq_div_mul, ← pow_add, Nat.div_lt_iff_lt_mul (Nat.pow_pos hb0)]
        rwa [show N + (N + n0 - 1) = 2 * N + n0 - 1 by omega]
      · refine hM _ _ ?_
        have h3 : a' / b ^ N < T * b ^ (N + n0 - 1) := by
          rw [Nat.div_lt_iff_lt_mul (Nat.pow_pos hb0), Nat.mul_assoc, ← pow_add]
          rwa [show N + n0 - 1 + N = 2 * N + n0 - 1 by omega]
        refine lt_of_lt_of_le ?_ (Nat.pow_le_pow_right hb0 (show n0 ≤ 19 by omega))
        rw [Nat.div_lt_iff_lt_mul hypos]
        refine lt_of_lt_of_le h3 ?_
        rw [show N + n0 - 1 = n0 + (N - 1) by omega, pow_add, Nat.mul_left_comm]
        exact Nat.mul_le_mul_left _ hy
    simp only [Bool.and_eq_true]
    exact ⟨part _ (ha _ (Nat.div_le_self _ _)), part _ (ha _ (Nat.mod_le _ _))⟩

/-- A dividend that is no longer than the divisor meets no tie. -/
theorem bzTieFree_of_short (hb : 2 ≤ b) {n0 : Nat} (h0 : 10 ≤ n0) : ∀ (e k a y : Nat),
    a / b ^ (n0 * 2 ^ e) < y / b ^ (n0 * 2 ^ e - 1) → n0 < 20 →
    BzTieFree b k (n0 * 2 ^ e) a y := by
  intro e
  induction e with
  | zero =>
    intro k a y h h0'
    cases k with
    | zero => trivial
    | succ k =>
      rw [BzTieFree, if_pos (by omega)]
      intro i _
      simp only [pow_zero, Nat.mul_one] at h ⊢
      refine lt_of_le_of_lt ?_ h
      refine le_trans (Nat.div_le_div_right (Nat.mod_le _ _)) ?_
      rw [Nat.div_div_eq_div_mul, ← pow_add]
      exact Nat.div_le_div_left (Nat.pow_le_pow_right (by omega) (by omega)) (Nat.pow_pos (by omega))
  | succ e ih =>
    intro k a y h h0'
    cases k with
    | zero => trivial
    | succ k =>
      have hp : 1 ≤ 2 ^ e := Nat.one_le_two_pow
      obtain ⟨N, hN⟩ : ∃ N, N = n0 * 2 ^ e := ⟨_, rfl⟩
      have hN0 : n0 ≤ N := by rw [hN]; exact Nat.le_mul_of_pos_right _ hp
      have e1 : n0 * 2 ^ (e + 1) = 2 * N := by rw [hN, pow_succ]; ring
      rw [e1] at h ⊢
      rw [BzTieFree, if_neg (by omega), show 2 * N / 2 = N by omega]
      have hTd : y / b ^ N / b ^ (N - 1) = y / b ^ (2 * N - 1) := by
        rw [Nat.div_div_eq_div_mul, ← pow_add]; congr 2; omega
      constructor
      · intro _
        rw [hN]
        refine ih k _ _ ?_ h0'
        rw [← hN, hTd, Nat.div_div_eq_div_mul, Nat.div_div_eq_div_mul]
        refine lt_of_le_of_lt (Nat.div_le_div_left ?_ (Nat.pow_pos (by omega))) h
        rw [← Nat.mul_assoc, ← pow_add, ← pow_add]
        exact Nat.pow_le_pow_right (by omega) (by omega)
      · intro _
        rw [hN]
        refine ih k _ _ ?_ h0'
        rw [← hN, hTd, Nat.div_div_eq_div_mul, ← pow_add, show N + N = 2 * N by omega]
        exact lt_of_le_of_lt (Nat.div_le_div_right (Nat.mod_le _ _)) h

/-! ## A divisor and a dividend that panic

The divisor is `b ^ n0 - 1`, the leaf, followed by zeros; the dividend `b - 1` followed by zeros, so long
that the leading digits are equal at the bottom of the recursion.  To make it longer, a multiple of the
divisor is added. -/

theorem bzSafe_false {M : Nat → Nat → Bool} (hb : 100 ≤ b) {n0 : Nat} (h0 : 10 ≤ n0) (h0' : n0 < 20) :
    ∀ (e k u c : Nat), (u = 0 ∨ u = 2 ∧ n0 ≤ c ∧ c < n0 * 2 ^ e) →
    bzSafe M b k (n0 * 2 ^ e)
      (u * ((b ^ n0 - 1) * b ^ (n0 * 2 ^ e - n0)) * b ^ c + (b - 1) * b ^ (n0 * 2 ^ e + n0 - 1))
      ((b ^ n0 - 1) * b ^ (n0 * 2 ^ e - n0)) = false := by
  have hb0 : 0 < b := by omega
  have hpos : ∀ i, 0 < b ^ i := fun i => Nat.pow_pos hb0
  have hy0 : (b ^ n0 - 1) / b ^ (n0 - 1) = b - 1 := by
    have h1 : b ^ n0 = b * b ^ (n0 - 1) := by rw [← pow_succ']; congr 1; omega
    have h2 := hpos (n0 - 1)
    rw [h1]
    apply Nat.div_eq_of_lt_le
    · rw [Nat.sub_mul, Nat.one_mul]; omega
    · rw [show b - 1 + 1 = b by omega]
      have : 0 < b * b ^ (n0 - 1) := Nat.mul_pos hb0 h2
      omega
  intro e
  induction e with
  | zero =>
    intro k u c hu
    cases k with
    | zero => rfl
    | succ k =>
      obtain rfl : u = 0 := by simp at hu; omega
      simp only [pow_zero, Nat.mul_one, Nat.zero_mul, Nat.zero_add, Nat.sub_self]
      rw [bzSafe, if_pos (by omega), hy0, show n0 + n0 - 1 = 2 * n0 - 1 by omega,
        Nat.mul_div_cancel _ (hpos _)]
      simp
  | succ e ih =>
    intro k u c hu
    cases k with
    | zero => rfl
    | succ k =>
      have hp : 1 ≤ 2 ^ e := Nat.one_le_two_pow
      obtain ⟨N, hN⟩ : ∃ N, N = n0 * 2 ^ e := ⟨_, rfl⟩
      have hN0 : n0 ≤ N := by rw [hN]; exact Nat.le_mul_of_pos_right _ hp
      have e1 : n0 * 2 ^ (e + 1) = 2 * N := by rw [hN, pow_succ]; ring
      rw [e1] at hu ⊢
      rw [bzSafe, if_neg (by omega), show 2 * N / 2 = N by omega]
      obtain ⟨z, hz⟩ : ∃ z, z = (b ^ n0 - 1) * b ^ (N - n0) := ⟨_, rfl⟩
      have ey : (b ^ n0 - 1) * b ^ (2 * N - n0) = z * b ^ N := by
        rw [hz, Nat.mul_assoc, ← pow_add]; congr 2; omega
      have er : (b - 1) * b ^ (2 * N + n0 - 1) = (b - 1) * b ^ (N + n0 - 1) * b ^ N := by
        rw [Nat.mul_assoc, ← pow_add]; congr 2; omega
      have hz0 : 0 < z := by
        rw [hz]
        refine Nat.mul_pos ?_ (hpos _)
        have : b ^ 1 ≤ b ^ n0 := Nat.pow_le_pow_right hb0 (by omega)
        simp at this; omega
      -- the last term is less than the divisor shifted
      have hr : (b - 1) * b ^ (N + n0 - 1) < z * b ^ n0 := by
        rw [hz, Nat.mul_assoc, ← pow_add, show N - n0 + n0 = N by omega,
          show N + n0 - 1 = n0 - 1 + N by omega, pow_add, ← Nat.mul_assoc]
        refine Nat.mul_lt_mul_of_pos_right ?_ (hpos _)
        have h1 : b ^ n0 = b * b ^ (n0 - 1) := by rw [← pow_succ']; congr 1; omega
        rw [h1, Nat.sub_mul, Nat.one_mul]
        have h3 : b ^ 1 ≤ b ^ (n0 - 1) := Nat.pow_le_pow_right hb0 (by omega)
        have h4 : b ^ (n0 - 1) ≤ b * b ^ (n0 - 1) := Nat.le_mul_of_pos_left _ hb0
        simp at h3; omega
      rw [ey, er]
      -- the second step sees a dividend of the same form
      obtain ⟨u', hu', hmod⟩ : ∃ u', (u' = 0 ∨ u' = 2 ∧ n0 ≤ c ∧ c < N) ∧
          (u * (z * b ^ N) * b ^ c + (b - 1) * b ^ (N + n0 - 1) * b ^ N) % (b ^ N * (z * b ^ N))
            = (u' * z * b ^ c + (b - 1) * b ^ (N + n0 - 1)) * b ^ N ∧
          u' * z * b ^ c + (b - 1) * b ^ (N + n0 - 1) < z * b ^ N := by
        have hrN : z * b ^ n0 ≤ z * b ^ N :=
          Nat.mul_le_mul_left _ (Nat.pow_le_pow_right hb0 hN0)
        by_cases hc : u = 2 ∧ c < N
        · refine ⟨2, Or.inr ⟨rfl, by omega, hc.2⟩, ?_⟩
          have hlt : 2 * z * b ^ c + (b - 1) * b ^ (N + n0 - 1) < z * b ^ N := by
            have h1 : z * b ^ n0 ≤ z * b ^ c :=
              Nat.mul_le_mul_left _ (Nat.pow_le_pow_right hb0 (by omega))
            have h2 : z * (b ^ c * b) ≤ z * b ^ N := by
              rw [← pow_succ]
              exact Nat.mul_le_mul_left _ (Nat.pow_le_pow_right hb0 (by omega))
            have h3 : z * (b ^ c * 3) ≤ z * (b ^ c * b) :=
              Nat.mul_le_mul_left _ (Nat.mul_le_mul_left _ (by omega))
            have h4 : 2 * z * b ^ c + z * b ^ c = z * (b ^ c * 3) := by ring
            omega
          refine ⟨?_, hlt⟩
          rw [hc.1, Nat.mod_eq_of_lt]
          · ring
          · calc 2 * (z * b ^ N) * b ^ c + (b - 1) * b ^ (N + n0 - 1) * b ^ N
                = (2 * z * b ^ c + (b - 1) * b ^ (N + n0 - 1)) * b ^ N := by ring
              _ < z * b ^ N * b ^ N := Nat.mul_lt_mul_of_pos_right hlt (hpos _)
              _ = b ^ N * (z * b ^ N) := by ring
        · refine ⟨0, Or.inl rfl, ?_, by omega⟩
          have hlt : (b - 1) * b ^ (N + n0 - 1) * b ^ N < b ^ N * (z * b ^ N) := by
            calc (b - 1) * b ^ (N + n0 - 1) * b ^ N < z * b ^ N * b ^ N :=
                  Nat.mul_lt_mul_of_pos_right (by omega) (hpos _)
              _ = b ^ N * (z * b ^ N) := by ring
          rcases hu with rfl | ⟨rfl, hu1, hu2⟩
          · simp only [Nat.zero_mul, Nat.zero_add]
            exact Nat.mod_eq_of_lt hlt
          · have hcN : N ≤ c := by omega
            have e2 : 2 * (z * b ^ N) * b ^ c = b ^ N * (z * b ^ N) * (2 * b ^ (c - N)) := by
              rw [show b ^ c = b ^ N * b ^ (c - N) by rw [← pow_add]; congr 1; omega]
              ring
            rw [e2, Nat.mul_add_mod, Nat.mod_eq_of_lt hlt]
            simp
      obtain ⟨hmod, hlt⟩ := hmod
      have hih := ih k u' c (by rwa [← hN])
      rw [← hN, ← hz] at hih
      simp only
      rw [Bool.and_eq_false_iff]
      right
      rw [hmod, Nat.mul_div_cancel _ (hpos _), Nat.mul_div_cancel _ (hpos _), if_pos, hih,
        Bool.false_and]
      rw [Nat.div_lt_iff_lt_mul (hpos _)]
      exact hlt

/-- A dividend all of whose partial remainders have a small leading digit, except where a leaf begins. -/
def LeadSmall (b n0 a : Nat) : Prop :=
  ∀ l, ¬ n0 ∣ l → a / b ^ l % (b ^ n0 - 1) / b ^ (n0 - 1) < (b ^ n0 - 1) / b ^ (n0 - 1)

theorem leadSmall_div {n0 a s : Nat} (h : LeadSmall b n0 a) (hs : n0 ∣ s) :
    LeadSmall b n0 (a / b ^ s) := by
  intro l hl
  rw [Nat.div_div_eq_div_mul, ← pow_add]
  exact h _ fun hd => hl ((Nat.dvd_add_right hs).mp hd)

theorem leadSmall_mod (hb : 2 ≤ b) {n0 a s : Nat} (h0 : 1 ≤ n0) (h : LeadSmall b n0 a) :
    LeadSmall b n0 (a % ((b ^ n0 - 1) * b ^ s)) := by
  have hb0 : 0 < b := by omega
  have hpos : ∀ i, 0 < b ^ i := fun i => Nat.pow_pos hb0
  intro l hl
  obtain ⟨y, hy⟩ : ∃ y, y = b ^ n0 - 1 := ⟨_, rfl⟩
  rw [← hy]
  have key : ∀ l', a % (y * b ^ s) / b ^ l' = a / b ^ l' % (y * b ^ (s - l')) ∨ s < l' := by
    intro l'
    by_cases hls : l' ≤ s
    · left
      have e : y * b ^ s = b ^ l' * (y * b ^ (s - l')) := by
        rw [Nat.mul_left_comm, ← pow_add]; congr 2; omega
      rw [e, Nat.mod_mul_right_div_self]
    · right; omega
  rcases key l with h1 | h1
  · rw [h1, Nat.mod_mul_right_mod, hy]
    exact h l hl
  · have h2 := (key s).resolve_right (by omega)
    rw [Nat.sub_self, pow_zero, Nat.mul_one] at h2
    have hy1 : b ^ (n0 - 1) ≤ y := by
      have e2 : b ^ n0 = b * b ^ (n0 - 1) := by rw [← pow_succ']; congr 1; omega
      have := Nat.mul_le_mul_right (b ^ (n0 - 1)) hb
      have := hpos (n0 - 1)
      omega
    have hypos : 0 < y := lt_of_lt_of_le (hpos _) hy1
    have h3 : a % (y * b ^ s) / b ^ l / b ^ (n0 - 1) = 0 := by
      rw [show b ^ l = b ^ s * b ^ (l - s) by rw [← pow_add]; congr 1; omega,
        ← Nat.div_div_eq_div_mul, h2, Nat.div_div_eq_div_mul, ← pow_add]
      apply Nat.div_eq_of_lt
      calc a / b ^ s % y < y := Nat.mod_lt _ hypos
        _ ≤ b ^ n0 := by omega
        _ ≤ b ^ (l - s + (n0 - 1)) := Nat.pow_le_pow_right hb0 (by omega)
    have h4 : a % (y * b ^ s) / b ^ l < y := by
      have := (Nat.div_eq_zero_iff_lt (hpos (n0 - 1))).mp h3
      omega
    rw [Nat.mod_eq_of_lt h4, h3]
    exact Nat.div_pos hy1 (hpos _)

theorem bzTieFree_lead (hb : 2 ≤ b) {n0 : Nat} (h0 : 10 ≤ n0) (h0' : n0 < 20) : ∀ (e k a : Nat),
    LeadSmall b n0 a →
    BzTieFree b k (n0 * 2 ^ e) a ((b ^ n0 - 1) * b ^ (n0 * 2 ^ e - n0)) := by
  have hb0 : 0 < b := by omega
  have hpos : ∀ i, 0 < b ^ i := fun i => Nat.pow_pos hb0
  intro e
  induction e with
  | zero =>
    intro k a h
    cases k with
    | zero => trivial
    | succ k =>
      simp only [pow_zero, Nat.mul_one, Nat.sub_self]
      rw [BzTieFree, if_pos (by omega)]
      intro i hi
      exact h (i + 1) fun hd => by have := Nat.le_of_dvd (by omega) hd; omega
  | succ e ih =>
    intro k a h
    cases k with
    | zero => trivial
    | succ k =>
      have hp : 1 ≤ 2 ^ e := Nat.one_le_two_pow
      obtain ⟨N, hN⟩ : ∃ N, N = n0 * 2 ^ e := ⟨_, rfl⟩
      have hN0 : n0 ≤ N := by rw [hN]; exact Nat.le_mul_of_pos_right _ hp
      have hdN : n0 ∣ N := ⟨_, hN⟩
      have e1 : n0 * 2 ^ (e + 1) = 2 * N := by rw [hN, pow_succ]; ring
      have ey : (b ^ n0 - 1) * b ^ (2 * N - n0) = (b ^ n0 - 1) * b ^ (N - n0) * b ^ N := by
        rw [Nat.mul_assoc, ← pow_add]; congr 2; omega
      rw [e1, BzTieFree, if_neg (by omega), show 2 * N / 2 = N by omega]
      simp only
      have eyd : (b ^ n0 - 1) * b ^ (2 * N - n0) / b ^ N = (b ^ n0 - 1) * b ^ (N - n0) := by
        rw [ey, Nat.mul_div_cancel _ (hpos _)]
      rw [eyd]
      constructor
      · intro _
        have := ih k (a / b ^ N / b ^ N) (leadSmall_div (leadSmall_div h hdN) hdN)
        rwa [← hN] at this
      · intro _
        have h3 : b ^ N * ((b ^ n0 - 1) * b ^ (2 * N - n0)) = (b ^ n0 - 1) * b ^ (3 * N - n0) := by
          rw [Nat.mul_left_comm, ← pow_add]; congr 2; omega
        rw [h3]
        have := ih k _ (leadSmall_div (leadSmall_mod hb (s := 3 * N - n0) (by omega) h) hdN)
        rwa [← hN] at this

/-- The dividend has this property. -/
theorem leadSmall_witness (hb : 100 ≤ b) {n0 : Nat} (h0 : 10 ≤ n0) (n u c : Nat) (hn : n0 ∣ n)
    (hnpos : n0 ≤ n) (hu : u = 0 ∨ u = 2 ∧ n0 ≤ c) :
    LeadSmall b n0 (u * ((b ^ n0 - 1) * b ^ (n - n0)) * b ^ c + (b - 1) * b ^ (n + n0 - 1)) := by
  have hb0 : 0 < b := by omega
  have hpos : ∀ i, 0 < b ^ i := fun i => Nat.pow_pos hb0
  have h1 : b ^ n0 = b * b ^ (n0 - 1) := by rw [← pow_succ']; congr 1; omega
  have hq := hpos (n0 - 1)
  obtain ⟨y, hy⟩ : ∃ y, y = b ^ n0 - 1 := ⟨_, rfl⟩
  have hylead : y / b ^ (n0 - 1) = b - 1 := by
    rw [hy, h1]
    apply Nat.div_eq_of_lt_le
    · rw [Nat.sub_mul, Nat.one_mul]; omega
    · rw [show b - 1 + 1 = b by omega]
      have : 0 < b * b ^ (n0 - 1) := Nat.mul_pos hb0 hq
      omega
  have hyge : 99 * b ^ (n0 - 1) ≤ y := by
    have := Nat.mul_le_mul_right (b ^ (n0 - 1)) hb
    omega
  -- powers of the base are periodic
  have hper : ∀ q i, (b - 1) * b ^ (i + n0 * q) % y = (b - 1) * b ^ i % y := by
    intro q
    induction q with
    | zero => intro i; simp
    | succ q ih =>
      intro i
      have : (b - 1) * b ^ (i + n0 * (q + 1))
          = y * ((b - 1) * b ^ (i + n0 * q)) + (b - 1) * b ^ (i + n0 * q) := by
        rw [show i + n0 * (q + 1) = i + n0 * q + n0 by ring, pow_add _ (i + n0 * q) n0]
        have : b ^ n0 = y + 1 := by have := hpos n0; omega
        rw [this]; ring
      rw [this, Nat.mul_add_mod]
      exact ih i
  have hlast : ∀ l, ¬ n0 ∣ l → (b - 1) * b ^ (n + n0 - 1) / b ^ l % y / b ^ (n0 - 1) < b - 1 := by
    intro l hl
    by_cases hle : l ≤ n + n0 - 1
    · have e1 : (b - 1) * b ^ (n + n0 - 1) / b ^ l = (b - 1) * b ^ (n + n0 - 1 - l) := by
        rw [show b ^ (n + n0 - 1) = b ^ (n + n0 - 1 - l) * b ^ l by rw [← pow_add]; congr 1; omega,
          ← Nat.mul_assoc, Nat.mul_div_cancel _ (hpos _)]
      obtain ⟨r, hr⟩ : ∃ r, r = n + n0 - 1 - l := ⟨_, rfl⟩
      have hmod : r % n0 ≠ n0 - 1 := by
        intro hcon
        apply hl
        have h2 : n0 ∣ r + 1 := by
          have := Nat.div_add_mod r n0
          exact ⟨r / n0 + 1, by rw [Nat.mul_add, Nat.mul_one]; omega⟩
        have h3 : n0 ∣ n + n0 - (r + 1) := Nat.dvd_sub (Nat.dvd_add hn dvd_rfl) h2
        rwa [show n + n0 - (r + 1) = l by omega] at h3
      have hlt : r % n0 < n0 := Nat.mod_lt _ (by omega)
      have e2 := hper (r / n0) (r % n0)
      rw [Nat.mod_add_div] at e2
      rw [e1, ← hr, e2]
      have h4 : (b - 1) * b ^ (r % n0) < b ^ (n0 - 1) := by
        calc (b - 1) * b ^ (r % n0) < b * b ^ (r % n0) :=
              Nat.mul_lt_mul_of_pos_right (by omega) (hpos _)
          _ = b ^ (r % n0 + 1) := by rw [pow_succ']
          _ ≤ b ^ (n0 - 1) := Nat.pow_le_pow_right hb0 (by omega)
      rw [Nat.mod_eq_of_lt (by omega), Nat.div_eq_of_lt h4]
      omega
    · rw [Nat.div_eq_of_lt (b := b ^ l)]
      · simp; omega
      · calc (b - 1) * b ^ (n + n0 - 1) < b * b ^ (n + n0 - 1) :=
              Nat.mul_lt_mul_of_pos_right (by omega) (hpos _)
          _ = b ^ (n + n0 - 1 + 1) := by rw [pow_succ']
          _ ≤ b ^ l := Nat.pow_le_pow_right hb0 (by omega)
  intro l hl
  rw [← hy, hylead]
  rcases hu with rfl | ⟨rfl, hc⟩
  · simp only [Nat.zero_mul, Nat.zero_add]
    exact hlast l hl
  · have e0 : 2 * (y * b ^ (n - n0)) * b ^ c = 2 * y * b ^ (n - n0 + c) := by rw [pow_add]; ring
    rw [e0]
    by_cases hlC : l ≤ n - n0 + c
    · have e1 : 2 * y * b ^ (n - n0 + c) = b ^ l * (y * (2 * b ^ (n - n0 + c - l))) := by
        rw [show b ^ (n - n0 + c) = b ^ l * b ^ (n - n0 + c - l) by rw [← pow_add]; congr 1; omega]
        ring
      rw [e1, Nat.mul_add_div (hpos _), Nat.mul_add_mod]
      exact hlast l hl
    · obtain ⟨C, hC⟩ : ∃ C, C = n - n0 + c := ⟨_, rfl⟩
      rw [← hC] at hlC ⊢
      have h3 : 2 * y * b ^ C + (b - 1) * b ^ (n + n0 - 1) < 3 * b ^ (n0 - 1) * b ^ l := by
        have h4 : (b - 1) * b ^ (n + n0 - 1) < b ^ n0 * b ^ C := by
          calc (b - 1) * b ^ (n + n0 - 1) < b * b ^ (n + n0 - 1) :=
                Nat.mul_lt_mul_of_pos_right (by omega) (hpos _)
            _ = b ^ (n + n0) := by rw [← pow_succ']; congr 1; omega
            _ ≤ b ^ (n0 + C) := Nat.pow_le_pow_right hb0 (by omega)
            _ = b ^ n0 * b ^ C := pow_add _ _ _
        have h5 : 2 * y * b ^ C ≤ 2 * b ^ n0 * b ^ C := Nat.mul_le_mul_right _ (by omega)
        have h6 : b ^ C * b ≤ b ^ l := by
          rw [← pow_succ]; exact Nat.pow_le_pow_right hb0 (by omega)
        calc 2 * y * b ^ C + (b - 1) * b ^ (n + n0 - 1) < 3 * b ^ n0 * b ^ C := by
              have : 3 * b ^ n0 * b ^ C = 2 * b ^ n0 * b ^ C + b ^ n0 * b ^ C := by ring
              omega
          _ = 3 * b ^ (n0 - 1) * (b ^ C * b) := by rw [h1]; ring
          _ ≤ 3 * b ^ (n0 - 1) * b ^ l := Nat.mul_le_mul_left _ h6
      have h4 := (Nat.div_lt_iff_lt_mul (hpos l)).mpr h3
      rw [Nat.mod_eq_of_lt (by omega)]
      have := (Nat.div_lt_iff_lt_mul hq).mpr h4
      omega

end

end Babs
