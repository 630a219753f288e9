import Verif.Proofs.KaraFail

/-!
# Helper lemmas: numbers of every length whose products panic
-/

namespace Babs

variable {D : DigitOps} {B : Nat}

theorem size_of_bounds {v k : Nat} (hB : 2 ≤ B) (h1 : B ^ k ≤ v) (h2 : v < B ^ (k + 1)) :
    size B v = k + 1 := by
  have h3 := size_le hB h2
  have h4 := lt_pow_size v hB
  by_contra hne
  have h5 : B ^ size B v ≤ B ^ k := Nat.pow_le_pow_right (by omega) (by omega)
  omega

/-- Every number has digits. -/
theorem exists_rep (hB : 2 ≤ B) (m : Nat) : ∃ x, Rep B x m := by
  induction m using Nat.strong_induction_on with
  | _ m ih =>
    by_cases h0 : m = 0
    · exact ⟨[], h0 ▸ rep_zero B⟩
    obtain ⟨x, hx⟩ := ih (m / B) (Nat.div_lt_self (by omega) (by omega))
    have hd : Digs B (m % B :: x) := by
      rw [digs_cons]; exact ⟨Nat.mod_lt _ (by omega), hx.digs⟩
    refine ⟨m % B :: x, hd, ?_, ?_⟩
    · cases x with
      | nil =>
        have h1 : m / B = 0 := by rw [← hx.val_eq]; rfl
        have h2 := Nat.div_add_mod m B
        rw [h1] at h2
        apply Canon.of_ge (b := B) hd
        intro _
        simp; omega
      | cons e es => exact canon_cons_cons.mpr hx.canon
    · rw [val_cons, hx.val_eq, Nat.mod_add_div]

/-- A number of `j` digits whose halves differ by one although one of them has one digit more. -/
def nearHalves (b j : Nat) : Nat :=
  let s := (j + 1) / 2
  if j % 2 = 1 then b ^ (s - 1) + b ^ s * (b ^ (s - 1) - 1)
  else b ^ (s - 1) - 1 + b ^ s * b ^ (s - 1)

theorem nearHalves_spec (hB : 2 ≤ B) {j s : Nat} (hs : (j + 1) / 2 = s) (h2 : 2 ≤ s) :
    size B (nearHalves B j) = j ∧
    halvesDigits B (j - s) (nearHalves B j % B ^ s) (nearHalves B j / B ^ s) = s - 1 ∧
    Nat.dist (nearHalves B j % B ^ s) (nearHalves B j / B ^ s) = 1 := by
  obtain ⟨r, rfl⟩ : ∃ r, s = r + 2 := ⟨s - 2, by omega⟩
  have hP : 0 < B ^ r := Nat.pow_pos (by omega)
  have e1 : B ^ (r + 1) = B * B ^ r := pow_succ' B r
  have e2 : B ^ (r + 2) = B * B ^ (r + 1) := pow_succ' B (r + 1)
  have f1 : 2 * B ^ r ≤ B ^ (r + 1) := by rw [e1]; exact Nat.mul_le_mul_right _ hB
  have f2 : 2 * B ^ (r + 1) ≤ B ^ (r + 2) := by rw [e2]; exact Nat.mul_le_mul_right _ hB
  unfold nearHalves
  simp only [hs]
  rw [show r + 2 - 1 = r + 1 by omega]
  by_cases hj : j % 2 = 1
  · rw [if_pos hj]
    have hj' : j = 2 * r + 3 := by omega
    have hlow : B ^ (r + 1) < B ^ (r + 2) := by omega
    have hPs : 0 < B ^ (r + 2) := by omega
    have sz : size B (B ^ (r + 1)) = r + 2 :=
      size_of_bounds hB (le_refl _) hlow
    rw [Nat.add_mul_mod_self_left, Nat.mod_eq_of_lt hlow, Nat.add_mul_div_left _ _ hPs,
      Nat.div_eq_of_lt hlow, Nat.zero_add]
    refine ⟨?_, ?_, by unfold Nat.dist; omega⟩
    · rw [hj', show 2 * r + 3 = (r + 2 + r) + 1 by omega]
      have g1 : B ^ (r + 2 + r) = B ^ (r + 2) * B ^ r := pow_add B (r + 2) r
      have g2 : B ^ (r + 2 + r + 1) = B ^ (r + 2) * B ^ (r + 1) := by
        rw [show r + 2 + r + 1 = (r + 2) + (r + 1) by omega, pow_add]
      apply size_of_bounds hB
      · rw [g1]
        have := Nat.mul_le_mul_left (B ^ (r + 2)) (show B ^ r ≤ B ^ (r + 1) - 1 by omega)
        omega
      · rw [g2]
        have : B ^ (r + 2) * B ^ (r + 1) = B ^ (r + 2) * (B ^ (r + 1) - 1) + B ^ (r + 2) := by
          rw [← Nat.mul_succ]; congr 1; omega
        omega
    · unfold halvesDigits diffDigits
      rw [sz, hj', show 2 * r + 3 - (r + 2) = r + 1 by omega]
      rw [if_neg (by simp), if_pos (by rw [Nat.mod_self]; omega),
        if_pos (by rw [Nat.div_self (by omega)]; simp)]
      omega
  · rw [if_neg hj]
    have hj' : j = 2 * r + 4 := by omega
    have hlow : B ^ (r + 1) - 1 < B ^ (r + 2) := by omega
    have hPs : 0 < B ^ (r + 2) := by omega
    have sz : size B (B ^ (r + 1) - 1) = r + 1 :=
      size_of_bounds hB (by omega) (by omega)
    rw [Nat.add_mul_mod_self_left, Nat.mod_eq_of_lt hlow, Nat.add_mul_div_left _ _ hPs,
      Nat.div_eq_of_lt hlow, Nat.zero_add]
    refine ⟨?_, ?_, by unfold Nat.dist; omega⟩
    · rw [hj', show 2 * r + 4 = (r + 2 + (r + 1)) + 1 by omega]
      have g1 : B ^ (r + 2 + (r + 1)) = B ^ (r + 2) * B ^ (r + 1) := pow_add B (r + 2) (r + 1)
      have g2 : B ^ (r + 2 + (r + 1) + 1) = B * (B ^ (r + 2) * B ^ (r + 1)) := by
        rw [pow_succ', g1]
      have g3 : B ^ (r + 2) * 1 ≤ B ^ (r + 2) * B ^ (r + 1) := Nat.mul_le_mul_left _ (by omega)
      have g4 : 2 * (B ^ (r + 2) * B ^ (r + 1)) ≤ B * (B ^ (r + 2) * B ^ (r + 1)) :=
        Nat.mul_le_mul_right _ hB
      apply size_of_bounds hB
      · rw [g1]; omega
      · rw [g2]; omega
    · unfold halvesDigits diffDigits
      rw [sz, hj', show 2 * r + 4 - (r + 2) = r + 2 by omega]
      rw [if_pos (by simp), if_pos (by rw [Nat.mod_self]; omega),
        if_pos (by rw [Nat.div_self (by omega), show r + 2 - (r + 1) - 1 = 0 by omega]; simp)]
      omega

/-- A factor of value one with many leading zeros. -/
theorem karaPanics_one (hB : 2 ≤ B) {d k j v : Nat} (hk : 20 ≤ k) (hj : 20 ≤ j) (h : k ≤ j + 1) :
    karaPanics B (d + 1) k v j 1 = true := by
  rw [karaPanics_succ (by omega) rfl]
  have h1 : 1 < B ^ ((max k j + 1) / 2) := Nat.one_lt_pow (by omega) (by omega)
  have h2 : halvesFail B (j - (max k j + 1) / 2) (1 % B ^ ((max k j + 1) / 2))
      (1 / B ^ ((max k j + 1) / 2)) = true := by
    rw [Nat.mod_eq_of_lt h1, Nat.div_eq_of_lt h1]
    have : size B 1 = 1 := size_of_bounds (k := 0) hB (by simp) (by simp; omega)
    unfold halvesFail
    rw [this]
    simp; omega
  rw [h2]
  simp

/-- The square of such a number panics. -/
theorem karaPanics_nearHalves (hB : 2 ≤ B) {d j : Nat} (hj : 41 ≤ j) :
    karaPanics B (d + 2) j (nearHalves B j) j (nearHalves B j) = true := by
  obtain ⟨-, h2, h3⟩ := nearHalves_spec hB (j := j) rfl (by omega)
  rw [karaPanics_succ (by omega) rfl, Nat.max_self, h2, h3,
    karaPanics_one hB (by omega) (by omega) (by omega)]
  simp

/-- A number of `k` digits to go with it. -/
def wideHalves (b k s : Nat) : Nat := if k ≤ s then b ^ (k - 1) else b ^ s - 1 + b ^ (k - 1)

theorem wideHalves_spec (hB : 3 ≤ B) {k s : Nat} (hk : 20 ≤ k) (hs : 20 ≤ s) (hks : k ≤ 2 * s) :
    size B (wideHalves B k s) = k ∧
    20 ≤ halvesDigits B (k - s) (wideHalves B k s % B ^ s) (wideHalves B k s / B ^ s) ∧
    halvesDigits B (k - s) (wideHalves B k s % B ^ s) (wideHalves B k s / B ^ s) ≤ s := by
  unfold wideHalves
  by_cases h : k ≤ s
  · rw [if_pos h]
    have h1 : B ^ (k - 1) < B ^ s := Nat.pow_lt_pow_right (by omega) (by omega)
    have sz : size B (B ^ (k - 1)) = k := by
      have := size_of_bounds (B := B) (k := k - 1) (by omega) (le_refl (B ^ (k - 1)))
        (Nat.pow_lt_pow_right (by omega) (by omega))
      omega
    rw [Nat.mod_eq_of_lt h1, Nat.div_eq_of_lt h1, show k - s = 0 by omega]
    have e : halvesDigits B 0 (B ^ (k - 1)) 0 = k := by
      unfold halvesDigits diffDigits
      rw [sz, if_neg (by simp), if_neg (by simp), Nat.sub_zero, sz]
    rw [e]
    exact ⟨sz, hk, h⟩
  · rw [if_neg h]
    obtain ⟨e, rfl⟩ : ∃ e, k = s + e + 1 := ⟨k - s - 1, by omega⟩
    obtain ⟨u, rfl⟩ : ∃ u, s = e + 1 + u := ⟨s - e - 1, by omega⟩
    have hP : 0 < B ^ (e + 1 + u) := Nat.pow_pos (by omega)
    have hPe : 0 < B ^ e := Nat.pow_pos (by omega)
    have h1 : B ^ (e + 1 + u) - 1 < B ^ (e + 1 + u) := by omega
    have e0 : B ^ (e + 1 + u + e + 1 - 1) = B ^ (e + 1 + u) * B ^ e := by
      rw [← pow_add]; congr 1
    have e1 : B ^ (e + 1) = B * B ^ e := pow_succ' B e
    have e2 : 3 * B ^ e ≤ B ^ (e + 1) := by rw [e1]; exact Nat.mul_le_mul_right _ hB
    have sz : size B (B ^ (e + 1 + u) - 1) = e + 1 + u := by
      have g : B ^ (e + 1 + u) = B * B ^ (e + u) := by rw [← pow_succ']; congr 1; omega
      have g1 : 0 < B ^ (e + u) := Nat.pow_pos (by omega)
      have g2 : 2 * B ^ (e + u) ≤ B * B ^ (e + u) := Nat.mul_le_mul_right _ (by omega)
      have := size_of_bounds (B := B) (v := B ^ (e + 1 + u) - 1) (k := e + u) (by omega) (by omega)
        (by rw [show e + u + 1 = e + 1 + u by omega]; omega)
      omega
    rw [e0, Nat.add_mul_mod_self_left, Nat.mod_eq_of_lt h1, Nat.add_mul_div_left _ _ hP,
      Nat.div_eq_of_lt h1, Nat.zero_add, show e + 1 + u + e + 1 - (e + 1 + u) = e + 1 by omega]
    have hmod : (B ^ (e + 1 + u) - 1) % B ^ (e + 1) = B ^ (e + 1) - 1 := by
      have g1 : 0 < B ^ u := Nat.pow_pos (by omega)
      have g2 : B ^ (e + 1 + u) - 1 = (B ^ (e + 1) - 1) + B ^ (e + 1) * (B ^ u - 1) := by
        have : B ^ (e + 1) * B ^ u = B ^ (e + 1) * (B ^ u - 1) + B ^ (e + 1) := by
          rw [← Nat.mul_succ]; congr 1; omega
        rw [pow_add]; omega
      rw [g2, Nat.add_mul_mod_self_left, Nat.mod_eq_of_lt (by omega)]
    have hle : B ^ (e + 1) ≤ B ^ (e + 1 + u) := Nat.pow_le_pow_right (by omega) (by omega)
    have e3 : halvesDigits B (e + 1) (B ^ (e + 1 + u) - 1) (B ^ e) = e + 1 + u := by
      unfold halvesDigits diffDigits
      rw [sz, if_neg (by simp; omega), hmod, if_neg (by omega)]
      have g : B ^ (e + 1 + u) = B * B ^ (e + u) := by rw [← pow_succ']; congr 1; omega
      have g1 : B ^ e ≤ B ^ (e + u) := Nat.pow_le_pow_right (by omega) (by omega)
      have g2 : 3 * B ^ (e + u) ≤ B * B ^ (e + u) := Nat.mul_le_mul_right _ (by omega)
      have := size_of_bounds (B := B) (v := B ^ (e + 1 + u) - 1 - B ^ e) (k := e + u) (by omega)
        (by omega) (by rw [show e + u + 1 = e + 1 + u by omega]; omega)
      omega
    rw [e3]
    refine ⟨?_, by omega, by omega⟩
    apply size_of_bounds (by omega)
    · rw [pow_add B (e + 1 + u) e]; omega
    · rw [show e + 1 + u + e + 1 = (e + 1 + u) + (e + 1) by omega, pow_add B (e + 1 + u) (e + 1)]
      have g1 : B ^ (e + 1 + u) * (3 * B ^ e) ≤ B ^ (e + 1 + u) * B ^ (e + 1) :=
        Nat.mul_le_mul_left _ e2
      have g2 : B ^ (e + 1 + u) * 1 ≤ B ^ (e + 1 + u) * B ^ e := Nat.mul_le_mul_left _ hPe
      have g3 : B ^ (e + 1 + u) * (3 * B ^ e) = 3 * (B ^ (e + 1 + u) * B ^ e) := by ring
      omega

/-- For every pair of lengths above the bounds there are numbers whose product panics. -/
theorem exists_karaPanics (hB : 3 ≤ B) {d k j : Nat} (hk : 20 ≤ k) (hkj : k ≤ j) (hj : 41 ≤ j) :
    ∃ m n, size B m = k ∧ size B n = j ∧ karaPanics B (d + 2) k m j n = true := by
  obtain ⟨a1, a2, a3⟩ := wideHalves_spec hB (k := k) (s := (j + 1) / 2) hk (by omega) (by omega)
  obtain ⟨b1, b2, b3⟩ := nearHalves_spec (B := B) (by omega) (j := j) rfl (by omega)
  refine ⟨_, _, a1, b1, ?_⟩
  rw [karaPanics_succ (by omega) rfl, Nat.max_eq_right hkj, b2, b3,
    karaPanics_one (by omega) a2 (by omega) (by omega)]
  simp

/-! ## The Toom-Cook range -/

/-- If a long product is returned then that of the low parts does not panic. -/
theorem mulBig_ok {dbg : Bool} (L : Lawful D B) {x y z : List Nat} (d : Nat)
    (hx : Digs B x) (hy : Digs B y) (hx1 : 128 ≤ x.length) (hy1 : 128 ≤ y.length)
    {m n : Nat} (hm : m = val B x % B ^ ((max x.length y.length + 2) / 3))
    (hn : n = val B y % B ^ ((max x.length y.length + 2) / 3))
    (hmin : min (size B m) (size B n) < 128)
    (hz : mulBig D dbg x y = .ok z) : karaPanics B d (size B m) m (size B n) n = false := by
  have hB := L.base
  have h0 : ¬ (x = [] ∨ y = []) := by rintro (rfl | rfl) <;> simp at hx1 hy1
  unfold mulBig at hz
  rw [if_neg h0] at hz
  obtain ⟨r, hr, -⟩ := ok_of_bind hz
  unfold mulBigInto at hr
  rw [if_neg h0] at hr
  simp only [] at hr
  obtain ⟨_, -, hr⟩ := ok_of_bind hr
  rw [if_pos (by unfold toom3Cutoff; omega)] at hr
  obtain ⟨out, hout, -⟩ := ok_of_bind hr
  obtain ⟨p, q, hp, hq, _, _, _, hcall⟩ := mulToom3Into_ok L hx hy hout
  rw [← hm] at hp
  rw [← hn] at hq
  have h1 := size_canon (by omega) hp.digs hp.canon
  have h2 := size_canon (by omega) hq.digs hq.canon
  rw [hp.val_eq] at h1
  rw [hq.val_eq] at h2
  have := mulBigIntoWithWork_ok L _ d hp.digs hq.digs (by omega) hcall
  rwa [hp.val_eq, hq.val_eq, ← h1, ← h2] at this

theorem square_ok {dbg : Bool} (L : Lawful D B) {x z : List Nat} (d : Nat)
    (hx : Digs B x) (hx1 : 128 ≤ x.length)
    {m : Nat} (hm : m = val B x % B ^ ((x.length + 2) / 3)) (hmin : size B m < 128)
    (hz : square D dbg x = .ok z) : karaPanics B d (size B m) m (size B m) m = false := by
  have hB := L.base
  have h0 : ¬ x = [] := by rintro rfl; simp at hx1
  unfold square at hz
  rw [if_neg h0] at hz
  obtain ⟨r, hr, -⟩ := ok_of_bind hz
  unfold squareInto at hr
  rw [if_neg h0] at hr
  simp only [] at hr
  obtain ⟨_, -, hr⟩ := ok_of_bind hr
  rw [if_pos (by unfold toom3Cutoff; omega)] at hr
  obtain ⟨out, hout, -⟩ := ok_of_bind hr
  obtain ⟨p, hp, _, _, _, hcall⟩ := squareToom3Into_ok L hx hout
  rw [← hm] at hp
  have h1 := size_canon (by omega) hp.digs hp.canon
  rw [hp.val_eq] at h1
  have := squareIntoWithWork_ok L _ d hp.digs (by omega) hcall
  rwa [hp.val_eq, ← h1] at this

/-- A number with `k` digits and given low part. -/
theorem low_part (hB : 3 ≤ B) {m k b : Nat} (hb : b < k) (hm : m < B ^ b) :
    size B (m + B ^ (k - 1)) = k ∧ (m + B ^ (k - 1)) % B ^ b = m := by
  have h1 : B ^ (k - 1) = B ^ b * B ^ (k - 1 - b) := by rw [← pow_add]; congr 1; omega
  have h2 : B ^ b ≤ B ^ (k - 1) := Nat.pow_le_pow_right (by omega) (by omega)
  have h3 : 3 * B ^ (k - 1) ≤ B * B ^ (k - 1) := Nat.mul_le_mul_right _ hB
  constructor
  · have := size_of_bounds (B := B) (v := m + B ^ (k - 1)) (k := k - 1) (by omega) (by omega)
      (by rw [pow_succ']; omega)
    omega
  · rw [h1, Nat.add_mul_mod_self_left, Nat.mod_eq_of_lt hm]

/-- Numbers of any two lengths above the bounds whose product is not returned. -/
theorem exists_mul_fails {dbg : Bool} (L : Lawful D B) {k j : Nat} (hk : 20 ≤ k) (hkj : k ≤ j)
    (hj : 41 ≤ j) : ∃ x y m n, Rep B x m ∧ Rep B y n ∧ x.length = k ∧ y.length = j ∧
      (∀ z, mulBig D dbg x y ≠ .ok z) ∧ (∀ z, mulBig D dbg y x ≠ .ok z) := by
  have hB := L.base
  have len : ∀ {l : List Nat} {v c : Nat}, Rep B l v → size B v = c → l.length = c := by
    intro l v c h1 h2
    have := size_canon (by omega) h1.digs h1.canon
    rw [h1.val_eq] at this
    omega
  by_cases h128 : k < 128
  · obtain ⟨m, n, h1, h2, h3⟩ := exists_karaPanics (B := B) (by omega) (d := j) hk hkj hj
    obtain ⟨x, hx⟩ := exists_rep (B := B) (by omega) m
    obtain ⟨y, hy⟩ := exists_rep (B := B) (by omega) n
    have lx := len hx h1
    have ly := len hy h2
    refine ⟨x, y, m, n, hx, hy, lx, ly, ?_, ?_⟩
    · intro z hz
      have := mulBig_exact (dbg := dbg) L (j + 2) hx.digs hy.digs (by omega) (by omega)
      rw [hz, lx, ly, hx.val_eq, hy.val_eq] at this
      exact this.1 h3
    · intro z hz
      have := mulBig_exact (dbg := dbg) L (j + 2) hy.digs hx.digs (by omega) (by omega)
      rw [hz, lx, ly, hx.val_eq, hy.val_eq] at this
      exact this.1 ((karaPanics_comm _ _ _ _ _).trans h3)
  · have key : ∀ m n m' n', size B m = k → size B n = j →
        m' = m % B ^ ((j + 2) / 3) → n' = n % B ^ ((j + 2) / 3) →
        min (size B m') (size B n') < 128 →
        karaPanics B 2 (size B m') m' (size B n') n' = true →
        ∃ x y m n, Rep B x m ∧ Rep B y n ∧ x.length = k ∧ y.length = j ∧
          (∀ z, mulBig D dbg x y ≠ .ok z) ∧ (∀ z, mulBig D dbg y x ≠ .ok z) := by
      intro m n m' n' h1 h2 h3 h4 h5 h6
      obtain ⟨x, hx⟩ := exists_rep (B := B) (by omega) m
      obtain ⟨y, hy⟩ := exists_rep (B := B) (by omega) n
      have lx := len hx h1
      have ly := len hy h2
      refine ⟨x, y, m, n, hx, hy, lx, ly, ?_, ?_⟩
      · intro z hz
        have := mulBig_ok L 2 hx.digs hy.digs (by omega) (by omega) (m := m') (n := n')
          (by rw [lx, ly, hx.val_eq, Nat.max_eq_right hkj]; exact h3)
          (by rw [lx, ly, hy.val_eq, Nat.max_eq_right hkj]; exact h4) h5 hz
        rw [h6] at this
        cases this
      · intro z hz
        have := mulBig_ok L 2 hy.digs hx.digs (by omega) (by omega) (m := n') (n := m')
          (by rw [lx, ly, hy.val_eq, Nat.max_eq_left hkj]; exact h4)
          (by rw [lx, ly, hx.val_eq, Nat.max_eq_left hkj]; exact h3) (by omega) hz
        rw [karaPanics_comm, h6] at this
        cases this
    by_cases hkb : k ≤ (j + 2) / 3
    · obtain ⟨n', m, h1, h2, h3⟩ := exists_karaPanics (B := B) (by omega) (d := 0)
        (show 20 ≤ 20 by omega) (show 20 ≤ k by omega) (by omega)
      have hn' : n' < B ^ ((j + 2) / 3) := by
        have := lt_pow_size n' (show 2 ≤ B by omega)
        rw [h1] at this
        exact lt_of_lt_of_le this (Nat.pow_le_pow_right (by omega) (by omega))
      have hm' : m < B ^ ((j + 2) / 3) := by
        have := lt_pow_size m (show 2 ≤ B by omega)
        rw [h2] at this
        exact lt_of_lt_of_le this (Nat.pow_le_pow_right (by omega) (by omega))
      obtain ⟨c1, c2⟩ := low_part (B := B) (k := j) (by omega) (by omega) hn'
      refine key m _ m n' h2 c1 (Nat.mod_eq_of_lt hm').symm c2.symm (by omega) ?_
      rw [h1, h2, karaPanics_comm]
      exact h3
    · obtain ⟨n', m', h1, h2, h3⟩ := exists_karaPanics (B := B) (by omega) (d := 0)
        (show 20 ≤ 41 by omega) (show 41 ≤ 41 by omega) (by omega)
      have hn' : n' < B ^ ((j + 2) / 3) := by
        have := lt_pow_size n' (show 2 ≤ B by omega)
        rw [h1] at this
        exact lt_of_lt_of_le this (Nat.pow_le_pow_right (by omega) (by omega))
      have hm' : m' < B ^ ((j + 2) / 3) := by
        have := lt_pow_size m' (show 2 ≤ B by omega)
        rw [h2] at this
        exact lt_of_lt_of_le this (Nat.pow_le_pow_right (by omega) (by omega))
      obtain ⟨c1, c2⟩ := low_part (B := B) (k := j) (by omega) (by omega) hm'
      obtain ⟨c3, c4⟩ := low_part (B := B) (k := k) (by omega) (by omega) hn'
      refine key _ _ n' m' c3 c1 c4.symm c2.symm (by omega) ?_
      rw [h1, h2]
      exact h3

theorem exists_square_fails {dbg : Bool} (L : Lawful D B) {k : Nat} (hk : 41 ≤ k) :
    ∃ x m, Rep B x m ∧ x.length = k ∧ ∀ z, square D dbg x ≠ .ok z := by
  have hB := L.base
  by_cases h128 : k < 128
  · obtain ⟨h1, -⟩ := nearHalves_spec (B := B) (by omega) (j := k) rfl (by omega)
    obtain ⟨x, hx⟩ := exists_rep (B := B) (by omega) (nearHalves B k)
    have lx := size_canon (by omega) hx.digs hx.canon
    rw [hx.val_eq, h1] at lx
    refine ⟨x, _, hx, lx.symm, ?_⟩
    intro z hz
    have := square_exact (dbg := dbg) L (k + 2) hx.digs (by omega) (by omega)
    rw [hz, ← lx, hx.val_eq] at this
    exact this.1 (karaPanics_nearHalves (by omega) hk)
  · obtain ⟨h1, -⟩ := nearHalves_spec (B := B) (by omega) (j := 41) rfl (by omega)
    have hm : nearHalves B 41 < B ^ ((k + 2) / 3) := by
      have := lt_pow_size (nearHalves B 41) (show 2 ≤ B by omega)
      rw [h1] at this
      exact lt_of_lt_of_le this (Nat.pow_le_pow_right (by omega) (by omega))
    obtain ⟨c1, c2⟩ := low_part (B := B) (k := k) (by omega) (by omega) hm
    obtain ⟨x, hx⟩ := exists_rep (B := B) (by omega) (nearHalves B 41 + B ^ (k - 1))
    have lx := size_canon (by omega) hx.digs hx.canon
    rw [hx.val_eq, c1] at lx
    refine ⟨x, _, hx, lx.symm, ?_⟩
    intro z hz
    have := square_ok L 2 hx.digs (by omega) (m := nearHalves B 41)
      (by rw [← lx, hx.val_eq, c2]) (by omega) hz
    rw [h1, karaPanics_nearHalves (d := 0) (by omega) (le_refl 41)] at this
    cases this

end Babs
