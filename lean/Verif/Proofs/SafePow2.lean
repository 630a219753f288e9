import Verif.Proofs.Safe

/-!
# Helper lemmas: in a base that is a power of two, products of powers of two are safe
-/

namespace Babs

variable {B : Nat}

/-- Near numbers differ by less than a factor of two. -/
theorem near_double {lo m n : Nat} (h : 2 * m ≤ n) (hlo : 0 < lo) :
    near lo B n m = false := by
  rw [Bool.eq_false_iff]
  intro hn
  unfold near at hn
  rw [Nat.min_eq_right (by omega), Nat.max_eq_left (by omega)] at hn
  simp only [Bool.and_eq_true, decide_eq_true_eq] at hn
  obtain ⟨⟨h1, h2⟩, h3⟩ := hn
  by_cases h0 : m = 0
  · subst h0; rw [size_zero] at h1; omega
  · have : B ^ (size B m - 1) ≤ m := by
      unfold size
      rw [if_neg h0, Nat.add_sub_cancel]
      exact Nat.pow_log_le_self B h0
    omega

theorem near_self {lo : Nat} (hB : 2 ≤ B) (m : Nat) : near lo B m m = false := by
  rw [Bool.eq_false_iff]
  intro hn
  unfold near at hn
  simp only [Nat.min_self, Nat.max_self, Bool.and_eq_true, decide_eq_true_eq] at hn
  have := lt_pow_size m hB
  omega

/-- Zero or a power of two. -/
def P2 (x : Nat) : Prop := x = 0 ∨ ∃ a, x = 2 ^ a

theorem P2.zero : P2 0 := Or.inl rfl

theorem P2.mul_pow {x : Nat} (h : P2 x) (e : Nat) : P2 (2 ^ e * x) := by
  rcases h with rfl | ⟨a, rfl⟩
  · exact Or.inl (by simp)
  · exact Or.inr ⟨e + a, by rw [pow_add]⟩

theorem P2.split {x : Nat} (h : P2 x) (e : Nat) :
    (x % 2 ^ e = x ∧ x / 2 ^ e = 0) ∨ (x % 2 ^ e = 0 ∧ P2 (x / 2 ^ e)) := by
  rcases h with rfl | ⟨a, rfl⟩
  · left; simp
  · by_cases ha : a < e
    · have := Nat.pow_lt_pow_right (show 1 < 2 by omega) ha
      exact Or.inl ⟨Nat.mod_eq_of_lt this, Nat.div_eq_of_lt this⟩
    · obtain ⟨c, rfl⟩ : ∃ c, a = e + c := ⟨a - e, by omega⟩
      right
      rw [pow_add]
      exact ⟨Nat.mul_mod_right _ _, Or.inr ⟨c, Nat.mul_div_cancel_left _ (Nat.pow_pos (by omega))⟩⟩

/-- The three parts of a power of two: only one of them is not zero. -/
theorem P2.split3 {x : Nat} (h : P2 x) (e : Nat) :
    ∃ p, P2 p ∧
      ((x % 2 ^ e = p ∧ x / 2 ^ e % 2 ^ e = 0 ∧ x / 2 ^ e / 2 ^ e = 0) ∨
       (x % 2 ^ e = 0 ∧ x / 2 ^ e % 2 ^ e = p ∧ x / 2 ^ e / 2 ^ e = 0) ∨
       (x % 2 ^ e = 0 ∧ x / 2 ^ e % 2 ^ e = 0 ∧ x / 2 ^ e / 2 ^ e = p)) := by
  rcases h.split e with ⟨h1, h2⟩ | ⟨h1, h2⟩
  · exact ⟨x, h, Or.inl ⟨h1, by simp [h2], by simp [h2]⟩⟩
  · rcases h2.split e with ⟨h3, h4⟩ | ⟨h3, h4⟩
    · exact ⟨_, h2, Or.inr (Or.inl ⟨h1, h3, h4⟩)⟩
    · exact ⟨_, h4, Or.inr (Or.inr ⟨h1, h3, rfl⟩)⟩

/-- What Toom-Cook does with a power of two. -/
theorem P2.toom {p x0 x1 x2 : Nat} (hB : 2 ≤ B) (hp : P2 p)
    (h : (x0 = p ∧ x1 = 0 ∧ x2 = 0) ∨ (x0 = 0 ∧ x1 = p ∧ x2 = 0) ∨ (x0 = 0 ∧ x1 = 0 ∧ x2 = p)) :
    evalSafe B x0 x1 x2 = true ∧ x0 + x1 + x2 = p ∧ Nat.dist (x0 + x2) x1 = p ∧
      P2 x0 ∧ P2 x2 ∧ P2 (Nat.dist (x0 + 4 * x2) (2 * x1)) ∧
      Nat.dist (x0 + 4 * x2) (2 * x1) ≤ 4 * p ∧ (x0 = 0 ∨ x0 = p) ∧ x0 ≤ p ∧ x2 ≤ p := by
  have hz := near_zero (lo := 1) (by omega) B
  have hz' : ∀ n, near 1 B 0 n = false := fun n => by rw [near_comm]; exact hz n
  rcases h with ⟨rfl, rfl, rfl⟩ | ⟨rfl, rfl, rfl⟩ | ⟨rfl, rfl, rfl⟩
  · refine ⟨?_, by omega, by simp [Nat.dist], hp, P2.zero, ?_, ?_, Or.inr rfl, le_refl _, by omega⟩
    · simp [evalSafe, hz, Nat.dist, near_double (B := B) (le_refl _)]
    · simpa [Nat.dist] using hp
    · simp [Nat.dist]; omega
  · refine ⟨?_, by omega, by simp [Nat.dist], P2.zero, P2.zero, ?_, ?_, Or.inl rfl, by omega,
      by omega⟩
    · by_cases h0 : 0 < x1
      · simp [evalSafe, hz, hz', Nat.dist, h0]
      · simp [evalSafe, hz, hz', Nat.dist, h0]
    · simpa [Nat.dist] using hp.mul_pow 1
    · simp [Nat.dist]; omega
  · refine ⟨?_, by omega, by simp [Nat.dist], P2.zero, hp, ?_, ?_, Or.inl rfl, by omega, le_refl _⟩
    · simp [evalSafe, hz, Nat.dist]
    · simpa [Nat.dist] using hp.mul_pow 2
    · simp [Nat.dist]

/-- Products of powers of two are safe if the base is a power of two. -/
theorem mulSafe_pow2 {w : Nat} (hw : 3 ≤ w) (d : Nat) : ∀ {N x y : Nat}, N < d → P2 x → P2 y →
    x < (2 ^ w) ^ N → y < (2 ^ w) ^ N → mulSafe (2 ^ w) d x y = true := by
  have hB : 2 ≤ 2 ^ w := by
    calc 2 = 2 ^ 1 := rfl
      _ ≤ 2 ^ w := Nat.pow_le_pow_right (by omega) (by omega)
  have hB8 : 8 ≤ 2 ^ w := by
    calc 8 = 2 ^ 3 := rfl
      _ ≤ 2 ^ w := Nat.pow_le_pow_right (by omega) hw
  have hz := fun lo (hlo : 0 < lo) => near_zero hlo (2 ^ w)
  have hz' : ∀ lo (_ : 0 < lo) n, near lo (2 ^ w) 0 n = false := fun lo hlo n => by
    rw [near_comm]; exact hz lo hlo n
  induction d with
  | zero => intros; omega
  | succ d ih =>
    intro N x y hN hx hy hxN hyN
    have hsx := size_le hB hxN
    have hsy := size_le hB hyN
    by_cases h1 : size (2 ^ w) x < 20 ∨ size (2 ^ w) y < 20
    · exact mulSafe_short d h1
    have hx' := lt_pow_size x hB
    have hy' := lt_pow_size y hB
    generalize hn : max (size (2 ^ w) x) (size (2 ^ w) y) = n at *
    have hxn : x < (2 ^ w) ^ n := lt_of_lt_of_le hx' (Nat.pow_le_pow_right (by omega) (by omega))
    have hyn : y < (2 ^ w) ^ n := lt_of_lt_of_le hy' (Nat.pow_le_pow_right (by omega) (by omega))
    unfold mulSafe
    rw [if_neg h1, hn]
    by_cases h2 : 128 ≤ size (2 ^ w) x ∧ 128 ≤ size (2 ^ w) y
    · rw [if_pos h2]
      simp only []
      generalize hs : (n + 2) / 3 = s
      have hP : 0 < (2 ^ w) ^ s := Nat.pow_pos (by omega)
      have hP1 : 8 * (2 ^ w) ^ s ≤ (2 ^ w) ^ (s + 1) := by
        rw [pow_succ, Nat.mul_comm]; exact Nat.mul_le_mul_left _ hB8
      have h3 : (2 ^ w) ^ n ≤ (2 ^ w) ^ s * ((2 ^ w) ^ s * (2 ^ w) ^ s) := by
        rw [← pow_add, ← pow_add]; exact Nat.pow_le_pow_right (by omega) (by omega)
      have a0 : x % (2 ^ w) ^ s < (2 ^ w) ^ s := Nat.mod_lt _ hP
      have b0 : y % (2 ^ w) ^ s < (2 ^ w) ^ s := Nat.mod_lt _ hP
      have a1 : x / (2 ^ w) ^ s % (2 ^ w) ^ s < (2 ^ w) ^ s := Nat.mod_lt _ hP
      have b1 : y / (2 ^ w) ^ s % (2 ^ w) ^ s < (2 ^ w) ^ s := Nat.mod_lt _ hP
      have a2 : x / (2 ^ w) ^ s / (2 ^ w) ^ s < (2 ^ w) ^ s :=
        Nat.div_lt_of_lt_mul (Nat.div_lt_of_lt_mul (by omega))
      have b2 : y / (2 ^ w) ^ s / (2 ^ w) ^ s < (2 ^ w) ^ s :=
        Nat.div_lt_of_lt_mul (Nat.div_lt_of_lt_mul (by omega))
      obtain ⟨p, hp, hps⟩ := hx.split3 (w * s)
      obtain ⟨q, hq, hqs⟩ := hy.split3 (w * s)
      rw [pow_mul] at hps hqs
      have hpl : p < (2 ^ w) ^ s := by
        rcases hps with ⟨h, -, -⟩ | ⟨-, h, -⟩ | ⟨-, -, h⟩ <;> rw [← h] <;> assumption
      have hql : q < (2 ^ w) ^ s := by
        rcases hqs with ⟨h, -, -⟩ | ⟨-, h, -⟩ | ⟨-, -, h⟩ <;> rw [← h] <;> assumption
      generalize x % (2 ^ w) ^ s = x0 at *
      generalize x / (2 ^ w) ^ s % (2 ^ w) ^ s = x1 at *
      generalize x / (2 ^ w) ^ s / (2 ^ w) ^ s = x2 at *
      generalize y % (2 ^ w) ^ s = y0 at *
      generalize y / (2 ^ w) ^ s % (2 ^ w) ^ s = y1 at *
      generalize y / (2 ^ w) ^ s / (2 ^ w) ^ s = y2 at *
      obtain ⟨e1, e2, e3, e4, e5, e6, e7, e8, e9, e10⟩ := P2.toom hB hp hps
      obtain ⟨f1, f2, f3, f4, f5, f6, f7, f8, f9, f10⟩ := P2.toom hB hq hqs
      have hnr : near 1 (2 ^ w) (p * q) (x0 * y0) = false := by
        rcases e8 with h | h
        · rw [h, Nat.zero_mul]; exact hz 1 (by omega) _
        · rcases f8 with h' | h'
          · rw [h', Nat.mul_zero]; exact hz 1 (by omega) _
          · rw [h, h']; exact near_self hB _
      have ih' := fun {x y : Nat} => @ih (s + 1) x y (by omega)
      rw [e1, f1, e2, f2, e3, f3, hnr, ih' e4 f4 (by omega) (by omega),
        ih' hp hq (by omega) (by omega), ih' e5 f5 (by omega) (by omega),
        ih' e6 f6 (by omega) (by omega)]
      simp
    · rw [if_neg h2]
      simp only []
      generalize hs : (n + 1) / 2 = s
      have hP : 0 < (2 ^ w) ^ s := Nat.pow_pos (by omega)
      have h3 : (2 ^ w) ^ n ≤ (2 ^ w) ^ s * (2 ^ w) ^ s := by
        rw [← pow_add]; exact Nat.pow_le_pow_right (by omega) (by omega)
      have a0 : x % (2 ^ w) ^ s < (2 ^ w) ^ s := Nat.mod_lt _ hP
      have b0 : y % (2 ^ w) ^ s < (2 ^ w) ^ s := Nat.mod_lt _ hP
      have a1 : x / (2 ^ w) ^ s < (2 ^ w) ^ s := Nat.div_lt_of_lt_mul (by omega)
      have b1 : y / (2 ^ w) ^ s < (2 ^ w) ^ s := Nat.div_lt_of_lt_mul (by omega)
      have key : ∀ {x}, P2 x → P2 (x % (2 ^ w) ^ s) ∧ P2 (x / (2 ^ w) ^ s) ∧
          P2 (Nat.dist (x % (2 ^ w) ^ s) (x / (2 ^ w) ^ s)) ∧
          near 20 (2 ^ w) (x % (2 ^ w) ^ s) (x / (2 ^ w) ^ s) = false := by
        intro x hx
        have h := hx.split (w * s)
        rw [pow_mul] at h
        rcases h with ⟨h4, h5⟩ | ⟨h4, h5⟩
        · rw [h4, h5]
          exact ⟨hx, P2.zero, by simpa [Nat.dist] using hx, hz 20 (by omega) _⟩
        · rw [h4]
          exact ⟨P2.zero, h5, by simpa [Nat.dist] using h5, hz' 20 (by omega) _⟩
      obtain ⟨e1, e2, e3, e4⟩ := key hx
      obtain ⟨f1, f2, f3, f4⟩ := key hy
      have a2 := dist_le_max (x % (2 ^ w) ^ s) (x / (2 ^ w) ^ s)
      have b2 := dist_le_max (y % (2 ^ w) ^ s) (y / (2 ^ w) ^ s)
      have ih' := fun {x y : Nat} => @ih s x y (by omega)
      rw [e4, f4, ih' e1 f1 a0 b0, ih' e2 f2 a1 b1, ih' e3 f3 (by omega) (by omega)]
      rfl

end Babs
