import Verif.SpecMul
import Verif.Proofs.Basic

/-!
# Helper lemmas: products without differences that are not in normal form
-/

namespace Babs

variable {B : Nat}

theorem size_zero (b : Nat) : size b 0 = 0 := rfl

theorem size_le {n k : Nat} (hB : 2 ≤ B) (h : n < B ^ k) : size B n ≤ k := by
  unfold size
  split_ifs with h0
  · omega
  · exact (Nat.log_lt_iff_lt_pow (by omega) h0).mpr h

theorem lt_pow_size (n : Nat) (hB : 2 ≤ B) : n < B ^ size B n := by
  unfold size
  split_ifs with h0
  · subst h0; simp
  · exact Nat.lt_pow_succ_log_self (by omega) n

theorem size_canon {l : List Nat} (hB : 2 ≤ B) (hl : Digs B l) (hc : Canon l) :
    size B (val B l) = l.length := by
  by_cases h : l = []
  · subst h; rfl
  · have h1 := hc.ge (by omega : 0 < B) h
    have h2 := val_lt hl
    have h3 : 0 < B ^ (l.length - 1) := Nat.pow_pos (by omega)
    have hl0 : l.length ≠ 0 := fun h' => h (List.eq_nil_of_length_eq_zero h')
    unfold size
    rw [if_neg (by omega), (Nat.log_eq_iff (Or.inr ⟨by omega, by omega⟩)).mpr ⟨h1, ?_⟩]
    · omega
    · rwa [Nat.sub_add_cancel (by omega)]

theorem near_comm (lo b m n : Nat) : near lo b m n = near lo b n m := by
  unfold near
  rw [min_comm, max_comm]

theorem near_zero {lo : Nat} (hlo : 0 < lo) (b n : Nat) : near lo b n 0 = false := by
  unfold near
  simp [size_zero]; omega

theorem near_short {lo m n : Nat} (hB : 2 ≤ B) (hm : m < B ^ lo) (hn : n < B ^ lo) :
    near lo B m n = false := by
  have : max m n < B ^ lo := by omega
  unfold near
  simp only [Bool.and_eq_false_imp, decide_eq_true_eq, Bool.and_eq_true]
  rintro ⟨h1, h2⟩
  have := Nat.pow_le_pow_right (show 0 < B by omega) h1
  omega

/-- If two numbers in normal form are not near each other, subtraction takes care of leading zeros. -/
theorem sub_canon {x y : List Nat} {nd lo : Nat} (hB : 2 ≤ B) (hx : Canon x)
    (hy : Digs B y) (hy' : Canon y) (hv : val B y ≤ val B x)
    (hn : near lo B (val B x) (val B y) = false) (hnd : nd ≤ x.length) :
    nd < lo ∨ (x.length = y.length + 1 →
      nd = x.length ∨ val B y + B ^ (y.length - 1) ≤ val B x) := by
  by_contra hcon
  push Not at hcon
  obtain ⟨h1, h2, h3, h4⟩ := hcon
  have hne : x ≠ [] := by rintro rfl; simp at h2
  have h5 := hx.ge (show 0 < B by omega) hne
  rw [h2, Nat.add_sub_cancel] at h5
  unfold near at hn
  rw [Nat.min_eq_right hv, Nat.max_eq_left hv, size_canon hB hy hy'] at hn
  have hb : (decide (lo ≤ y.length) && decide (B ^ y.length ≤ val B x) &&
    decide (val B x - val B y < B ^ (y.length - 1))) = true := by
    simp only [Bool.and_eq_true, decide_eq_true_eq]
    refine ⟨⟨by omega, h5⟩, by omega⟩
  simp only [] at hn
  rw [hb] at hn
  cases hn

/-- What is needed for a product not to panic. -/
def MulP (B : Nat) (a b : List Nat) : Prop :=
  (a.length < 20 ∨ b.length < 20) ∨
    (Canon a ∧ Canon b ∧ ∃ d, mulSafe B d (val B a) (val B b) = true)

theorem mulSafe_short {x y : Nat} (d : Nat) (h : size B x < 20 ∨ size B y < 20) :
    mulSafe B (d + 1) x y = true := by
  unfold mulSafe
  rw [if_pos h]

theorem dist_le_max (m n : Nat) : Nat.dist m n ≤ max m n := by
  unfold Nat.dist; omega

/-- Products of numbers of at most 40 digits are safe. -/
theorem mulSafe_40 {x y : Nat} (hB : 2 ≤ B) (hx : x < B ^ 40) (hy : y < B ^ 40) :
    mulSafe B 3 x y = true := by
  have key : ∀ d k x y : Nat, k ≤ 40 → x < B ^ k → y < B ^ k →
      (∀ k' x y, 2 * k' ≤ k + 1 → x < B ^ k' → y < B ^ k' → mulSafe B d x y = true) →
      mulSafe B (d + 1) x y = true := by
    intro d k x y hk hx hy ih
    have hsx := size_le hB hx
    have hsy := size_le hB hy
    by_cases h1 : size B x < 20 ∨ size B y < 20
    · exact mulSafe_short d h1
    unfold mulSafe
    rw [if_neg h1, if_neg (by omega)]
    simp only []
    have hx' := lt_pow_size x hB
    have hy' := lt_pow_size y hB
    generalize hs : (max (size B x) (size B y) + 1) / 2 = s
    have hP : 0 < B ^ s := Nat.pow_pos (by omega)
    have hss : B ^ max (size B x) (size B y) ≤ B ^ s * B ^ s := by
      rw [← pow_add]; exact Nat.pow_le_pow_right (by omega) (by omega)
    have h20 : B ^ s ≤ B ^ 20 := Nat.pow_le_pow_right (by omega) (by omega)
    have e1 : B ^ size B x ≤ B ^ max (size B x) (size B y) :=
      Nat.pow_le_pow_right (by omega) (by omega)
    have e2 : B ^ size B y ≤ B ^ max (size B x) (size B y) :=
      Nat.pow_le_pow_right (by omega) (by omega)
    have a0 : x % B ^ s < B ^ s := Nat.mod_lt _ hP
    have b0 : y % B ^ s < B ^ s := Nat.mod_lt _ hP
    have a1 : x / B ^ s < B ^ s := Nat.div_lt_of_lt_mul (by omega)
    have b1 : y / B ^ s < B ^ s := Nat.div_lt_of_lt_mul (by omega)
    have a2 := dist_le_max (x % B ^ s) (x / B ^ s)
    have b2 := dist_le_max (y % B ^ s) (y / B ^ s)
    rw [near_short hB (by omega) (by omega), near_short hB (by omega) (by omega),
      ih s _ _ (by omega) a0 b0, ih s _ _ (by omega) a1 b1,
      ih s _ _ (by omega) (by omega) (by omega)]
    rfl
  refine key 2 40 x y (le_refl _) hx hy ?_
  intro k x y hk hx hy
  refine key 1 k x y (by omega) hx hy ?_
  intro k' x y hk' hx hy
  exact mulSafe_short 0 (Or.inl (lt_of_le_of_lt (size_le hB hx) (by omega)))

theorem mulP_of_40 {a b : List Nat} (hB : 2 ≤ B) (ha : Digs B a) (hb : Digs B b)
    (h : (a.length < 20 ∨ b.length < 20) ∨ (Canon a ∧ Canon b ∧ max a.length b.length ≤ 40)) :
    MulP B a b := by
  rcases h with h | ⟨h1, h2, h3⟩
  · exact Or.inl h
  · refine Or.inr ⟨h1, h2, 3, mulSafe_40 hB ?_ ?_⟩
    · exact lt_of_lt_of_le (val_lt ha) (Nat.pow_le_pow_right (by omega) (by omega))
    · exact lt_of_lt_of_le (val_lt hb) (Nat.pow_le_pow_right (by omega) (by omega))

/-- What a safe product of numbers of moderate length consists of. -/
theorem MulP.kara {x y : List Nat} {s x0 x1 y0 y1 : Nat} (hB : 2 ≤ B) (h : MulP B x y)
    (hx : Digs B x) (hy : Digs B y) (hx20 : 20 ≤ x.length) (hy20 : 20 ≤ y.length)
    (hmin : min x.length y.length < 128) (hs : (max x.length y.length + 1) / 2 = s)
    (ex : val B x = x0 + B ^ s * x1) (ey : val B y = y0 + B ^ s * y1)
    (hx0 : x0 < B ^ s) (hy0 : y0 < B ^ s) :
    Canon x ∧ Canon y ∧ near 20 B x0 x1 = false ∧ near 20 B y0 y1 = false ∧
      ∃ d, mulSafe B d x0 y0 = true ∧ mulSafe B d (Nat.dist x0 x1) (Nat.dist y0 y1) = true ∧
        mulSafe B d x1 y1 = true := by
  rcases h with h | ⟨h1, h2, d, h3⟩
  · omega
  refine ⟨h1, h2, ?_⟩
  have hP : 0 < B ^ s := Nat.pow_pos (by omega)
  cases d with
  | zero => simp [mulSafe] at h3
  | succ d =>
    unfold mulSafe at h3
    rw [size_canon hB hx h1, size_canon hB hy h2, if_neg (by omega), if_neg (by omega), hs] at h3
    have m1 : val B x % B ^ s = x0 := by rw [ex, Nat.add_mul_mod_self_left, Nat.mod_eq_of_lt hx0]
    have m2 : val B y % B ^ s = y0 := by rw [ey, Nat.add_mul_mod_self_left, Nat.mod_eq_of_lt hy0]
    have m3 : val B x / B ^ s = x1 := by
      rw [ex, Nat.add_mul_div_left _ _ hP, Nat.div_eq_of_lt hx0, Nat.zero_add]
    have m4 : val B y / B ^ s = y1 := by
      rw [ey, Nat.add_mul_div_left _ _ hP, Nat.div_eq_of_lt hy0, Nat.zero_add]
    simp only [m1, m2, m3, m4, Bool.and_eq_true, Bool.not_eq_true'] at h3
    exact ⟨h3.1.1.1.1, h3.1.1.1.2, d, h3.1.1.2, h3.1.2, h3.2⟩

/-- What a safe product of long numbers consists of. -/
theorem MulP.toom {x y : List Nat} {s x0 x1 x2 y0 y1 y2 : Nat} (hB : 2 ≤ B) (h : MulP B x y)
    (hx : Digs B x) (hy : Digs B y) (hx20 : 128 ≤ x.length) (hy20 : 128 ≤ y.length)
    (hs : (max x.length y.length + 2) / 3 = s)
    (ex : val B x = x0 + B ^ s * x1 + B ^ (2 * s) * x2)
    (ey : val B y = y0 + B ^ s * y1 + B ^ (2 * s) * y2)
    (hx0 : x0 < B ^ s) (hy0 : y0 < B ^ s) (hx1 : x1 < B ^ s) (hy1 : y1 < B ^ s) :
    Canon x ∧ Canon y ∧ evalSafe B x0 x1 x2 = true ∧ evalSafe B y0 y1 y2 = true ∧
      (decide (x0 + x2 < x1) = decide (y0 + y2 < y1) →
        near 1 B (Nat.dist (x0 + x2) x1 * Nat.dist (y0 + y2) y1) (x0 * y0) = false) ∧
      ∃ d, mulSafe B d x0 y0 = true ∧ mulSafe B d (x0 + x1 + x2) (y0 + y1 + y2) = true ∧
        mulSafe B d (Nat.dist (x0 + x2) x1) (Nat.dist (y0 + y2) y1) = true ∧
        mulSafe B d (Nat.dist (x0 + 4 * x2) (2 * x1)) (Nat.dist (y0 + 4 * y2) (2 * y1)) = true ∧
        mulSafe B d x2 y2 = true := by
  rcases h with h | ⟨h1, h2, d, h3⟩
  · omega
  refine ⟨h1, h2, ?_⟩
  have hP : 0 < B ^ s := Nat.pow_pos (by omega)
  cases d with
  | zero => simp [mulSafe] at h3
  | succ d =>
    unfold mulSafe at h3
    rw [size_canon hB hx h1, size_canon hB hy h2, if_neg (by omega), if_pos (by omega), hs] at h3
    rw [two_mul, pow_add, Nat.mul_assoc, Nat.add_assoc, ← Nat.mul_add] at ex ey
    have m1 : val B x % B ^ s = x0 := by rw [ex, Nat.add_mul_mod_self_left, Nat.mod_eq_of_lt hx0]
    have m2 : val B y % B ^ s = y0 := by rw [ey, Nat.add_mul_mod_self_left, Nat.mod_eq_of_lt hy0]
    have m3 : val B x / B ^ s = x1 + B ^ s * x2 := by
      rw [ex, Nat.add_mul_div_left _ _ hP, Nat.div_eq_of_lt hx0, Nat.zero_add]
    have m4 : val B y / B ^ s = y1 + B ^ s * y2 := by
      rw [ey, Nat.add_mul_div_left _ _ hP, Nat.div_eq_of_lt hy0, Nat.zero_add]
    have m5 : (x1 + B ^ s * x2) % B ^ s = x1 := by
      rw [Nat.add_mul_mod_self_left, Nat.mod_eq_of_lt hx1]
    have m6 : (y1 + B ^ s * y2) % B ^ s = y1 := by
      rw [Nat.add_mul_mod_self_left, Nat.mod_eq_of_lt hy1]
    have m7 : (x1 + B ^ s * x2) / B ^ s = x2 := by
      rw [Nat.add_mul_div_left _ _ hP, Nat.div_eq_of_lt hx1, Nat.zero_add]
    have m8 : (y1 + B ^ s * y2) / B ^ s = y2 := by
      rw [Nat.add_mul_div_left _ _ hP, Nat.div_eq_of_lt hy1, Nat.zero_add]
    simp only [m1, m2, m3, m4, m5, m6, m7, m8, Bool.and_eq_true, Bool.or_eq_true,
      Bool.not_eq_true', bne_iff_ne] at h3
    obtain ⟨⟨⟨⟨⟨⟨⟨a1, a2⟩, a3⟩, a4⟩, a5⟩, a6⟩, a7⟩, a8⟩ := h3
    refine ⟨a1, a2, fun e => ?_, d, a4, a5, a6, a7, a8⟩
    rcases a3 with h | h
    · exact absurd e h
    · exact h

theorem val_split3 (v b : Nat) (hB : 0 < B) : v = v % B ^ b + B ^ b * (v / B ^ b % B ^ b)
    + B ^ (2 * b) * (v / B ^ b / B ^ b) ∧ v % B ^ b < B ^ b ∧ v / B ^ b % B ^ b < B ^ b := by
  have hP : 0 < B ^ b := Nat.pow_pos hB
  refine ⟨?_, Nat.mod_lt _ hP, Nat.mod_lt _ hP⟩
  have h1 := Nat.mod_add_div v (B ^ b)
  have h2 := Nat.mod_add_div (v / B ^ b) (B ^ b)
  rw [two_mul, pow_add, Nat.mul_assoc, Nat.add_assoc, ← Nat.mul_add, h2, h1]

theorem MulP.eval {x y : List Nat} {s : Nat} (hB : 2 ≤ B) (h : MulP B x y)
    (hx : Digs B x) (hy : Digs B y) (hx20 : 128 ≤ x.length) (hy20 : 128 ≤ y.length)
    (hs : (max x.length y.length + 2) / 3 = s) :
    (Canon x ∧ ∀ a0 a1 a2, val B x = a0 + B ^ s * a1 + B ^ (2 * s) * a2 → a0 < B ^ s →
      a1 < B ^ s → evalSafe B a0 a1 a2 = true) ∧
    (Canon y ∧ ∀ a0 a1 a2, val B y = a0 + B ^ s * a1 + B ^ (2 * s) * a2 → a0 < B ^ s →
      a1 < B ^ s → evalSafe B a0 a1 a2 = true) := by
  obtain ⟨e1, e2, e3⟩ := val_split3 (val B x) s (show 0 < B by omega)
  obtain ⟨f1, f2, f3⟩ := val_split3 (val B y) s (show 0 < B by omega)
  have h0 := h.toom hB hx hy hx20 hy20 hs e1 f1 e2 f2 e3 f3
  refine ⟨⟨h0.1, fun a0 a1 a2 h1 h2 h3 => ?_⟩, ⟨h0.2.1, fun a0 a1 a2 h1 h2 h3 => ?_⟩⟩
  · exact (h.toom hB hx hy hx20 hy20 hs h1 f1 h2 f2 h3 f3).2.2.1
  · exact (h.toom hB hx hy hx20 hy20 hs e1 h1 e2 h2 e3 h3).2.2.2.1

end Babs
