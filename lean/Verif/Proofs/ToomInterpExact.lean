import Verif.Proofs.ToomDigits
import Verif.Proofs.ToomInterp

/-!
# Helper lemmas: exactly when the interpolation step of Toom-Cook multiplication panics
-/

namespace Babs

variable {D : DigitOps} {B : Nat}

theorem Ex.of_sp {α : Type} {x : R α} {Q : α → Prop} (hx : Sp (fun p => p = .unwrap ∧ ¬ True) x Q) :
    Ex False x Q :=
  (hx.weaken fun _ h => (h.2 trivial).elim).mono fun _ h => ⟨not_false, h⟩

/-- Continue after a step that does not panic. -/
theorem Ex.then {α β : Type} {K : Prop} {x : R α} {f : α → R β} {P : α → Prop} {Q : β → Prop}
    (hx : Ex False x P) (hf : ∀ a, P a → Ex K (f a) Q) : Ex K (x >>= f) Q :=
  (Ex.bind hx hf).congr (by simp)

/-- Numbers without leading zeros are compared correctly. -/
theorem absFail_lt {k m j n : Nat} (h1 : k < j → m < n) (h2 : j < k → n < m) :
    absFail k m j n = false := by
  rw [← Bool.not_eq_true, absFail_iff]
  omega

theorem buf_lt_of_shorter {l : List Nat} {k v : Nat} (hB : 0 < B) (hv : v < B ^ k) (hc : Canon l)
    (h : k < l.length) : v < val B l := by
  have h2 := hc.ge (b := B) hB (by rintro rfl; simp at h)
  have h3 : B ^ k ≤ B ^ (l.length - 1) := Nat.pow_le_pow_right hB (by omega)
  omega

theorem Buf.lt_of_shorter {buf : List Nat} {k n v w : Nat} (hB : 0 < B) (h : Buf B buf n w)
    (hc : Canon (buf.take n)) (hv : v < B ^ k) (hk : k < n) : v < w := by
  have := buf_lt_of_shorter hB hv hc (by rw [h.take_len]; exact hk)
  rwa [h.take_val] at this

/-- `r2 = r(-1) - r(0)`. -/
theorem toomR2First_exact (L : Lawful D B) {r0 rm1 : List Nat} {lenRm1 v1 c0 k : Nat} {s : Bool}
    (h0 : Rep B r0 c0) (h1 : Buf B rm1 lenRm1 v1) (hc1 : Canon (rm1.take lenRm1))
    (hk : k ≤ rm1.length) (hl1 : lenRm1 ≤ k) (hl0 : r0.length ≤ k) (hv : v1 + c0 < B ^ k) :
    Ex False (toomR2First D r0 rm1 lenRm1 s) (fun res =>
      ∃ m, Buf B res.1 res.2.1 m ∧ res.1.length = rm1.length ∧ res.2.1 ≤ k ∧
        sv res.2.2 m = sv s v1 - c0 ∧ (res.2.2 = true → Canon (res.1.take res.2.1)) ∧
        (res.2.2 = true ↔ s = true ∨ v1 < c0) ∧
        (res.2.2 = false → res.2.1 = diffDigits B (size B v1) v1 (size B c0) c0)) := by
  have hB := L.base
  have z1 := size_canon (B := B) (by omega) h1.take_digs hc1
  have z0 := size_canon (B := B) (by omega) h0.digs h0.canon
  rw [h1.take_val, h1.take_len] at z1
  rw [h0.val_eq] at z0
  unfold toomR2First
  cases s with
  | true =>
    rw [if_pos rfl]
    obtain ⟨buf1, c, buf', n', e1, e2, e3, e4, e5, e6⟩ := h1.addPush L (k := k) h0.digs hk hl1 hl0
      (by rw [h0.val_eq]; exact hv)
    simp only []
    rw [e1, ok_bind]
    simp only []
    rw [e2, ok_bind]
    rw [h0.val_eq] at e4
    refine ⟨not_false, _, e4, e3, e5, ?_, fun _ => e6 hc1 h0.canon, by simp, by simp⟩
    simp; ring
  | false =>
    rw [if_neg (by simp)]
    have hf : absFail lenRm1 v1 r0.length (val B r0) = false :=
      absFail_lt (fun h => buf_lt_of_shorter L.pos h1.lt h0.canon h)
        (fun h => h1.lt_of_shorter L.pos hc1 (val_lt h0.digs) h)
    refine Ex.then ((subAssignBigAbsSign_exact L h1 h0.digs (by omega)).congr (by rw [hf]; simp)) ?_
    rintro ⟨r, s, len⟩ ⟨e1, e2, e3, e4, e5, e6, e7⟩
    simp only [] at e1 e2 e3 e4 e5 e6 e7
    replace e6 := e6 h0.canon
    rw [h0.val_eq] at e1 e4 e5 e6
    refine ⟨not_false, _, e1, e2, by simp only []; omega, e4, e7, ?_, ?_⟩
    · simp [e6]
    · intro hs
      simp only [] at hs ⊢
      rw [hs] at e6
      have hnl : ¬ v1 < c0 := by simpa using e6.symm
      rw [e5, z0, z1]
      unfold assignDigits
      rw [if_neg]
      rw [ltCond_iff]
      rintro (h | h)
      · have := buf_lt_of_shorter L.pos h1.lt h0.canon h
        rw [h0.val_eq] at this
        exact hnl this
      · exact hnl h.2

/-- `r3 = (r2 - r3) / 2`. -/
theorem toomR3Second_exact (L : Lawful D B) {r2 r3 : List Nat} {lenR2 lenR3 v2 v3 : Nat}
    {s2 s3 : Bool} {t : ℤ} (h2 : Pre B r2 lenR2 v2) (h3 : Buf B r3 lenR3 v3)
    (hlen : lenR2 ≤ r3.length) (ht : sv s2 v2 - sv s3 v3 = 2 * t) :
    Ex (s2 = s3 ∧ absFail lenR3 v3 lenR2 v2 = true)
      (toomR3Second D r2 lenR2 s2 r3 lenR3 s3) (fun res =>
      ∃ m, Buf B res.1 res.2.1 m ∧ res.1.length = r3.length ∧ Canon (res.1.take res.2.1) ∧
        sv res.2.2 m = t) := by
  unfold toomR3Second
  simp only [slice_take h2.le, ok_bind]
  refine Ex.congr (K := (s2 = s3 ∧ absFail lenR3 v3 lenR2 v2 = true) ∨ False) ?_ (by simp)
  refine Ex.bind (P := fun res => ∃ m, Buf B res.1 res.2.1 m ∧ res.1.length = r3.length ∧
    sv res.2.2.1 (res.2.2.2.toNat * B ^ res.2.1 + m) = 2 * t) ?_ ?_
  · by_cases hs : s2 = s3
    · subst hs
      rw [if_neg (by simp)]
      have hsub := subAssignBigAbsSign_exact L h3 (h2.digs.take lenR2)
        (by rw [h2.take_len]; exact hlen)
      rw [h2.take_len, h2.take_val] at hsub
      refine Ex.congr (K := absFail lenR3 v3 lenR2 v2 = true ∨ False) ?_ (by simp)
      refine Ex.bind hsub ?_
      rintro ⟨r, s, len⟩ ⟨e1, e2, e3, e4, -⟩
      simp only [] at e1 e2 e3 e4
      refine ⟨not_false, _, e1, e2, ?_⟩
      generalize Nat.dist v3 v2 = m at *
      simp only [Bool.toNat_false, zero_mul, zero_add]
      rw [← ht]
      by_cases h0 : len = 0
      · have hm := e1.lt
        rw [h0] at hm
        have hm0 : m = 0 := by simpa using hm
        subst hm0
        cases s2 <;> cases s <;> simp [h0] at e4 ⊢ <;> omega
      · have : (len != 0) = true := by simp [h0]
        rw [this, Bool.and_true]
        cases s2 <;> cases s <;> simp at e4 ⊢ <;> omega
    · rw [if_pos (by simpa using hs)]
      obtain ⟨buf', c, v', e1, e2, e3, e4⟩ := h3.add L (h2.digs.take lenR2) (k := max lenR3 lenR2)
        (by omega) (by have := h3.le; omega) (by rw [h2.take_len]; omega)
      rw [e1, ok_bind]
      refine Ex.congr (K := False) ⟨not_false, v', e3, e2, ?_⟩ (by simp [hs])
      rw [← ht]
      rw [h2.take_val] at e4
      have e5 : (c.toNat * B ^ max lenR3 lenR2 + v') = v3 + v2 := by rw [← e4]; ring
      simp only []
      rw [e5]
      cases s2 <;> cases s3 <;> simp at hs ⊢ <;> omega
  rintro ⟨r, len, s, c⟩ ⟨m, e1, e2, e3⟩
  simp only [] at e1 e2 e3 ⊢
  obtain ⟨r', nd, rem, f1, f2, f3, f4, f5, f6, f7, f8⟩ := shrWithin_spec L (r.take len) 1
    c.toNat e1.take_digs (by have := L.base; omega) (by have := toNat_le_one c; omega)
  rw [e1.take_len] at f2 f5 f6 f7
  rw [e1.take_val] at f5
  rw [onSlice_buf e1 (le_refl _) e1.le f1, ok_bind]
  have hle := e1.le
  obtain ⟨g1, g2⟩ := Buf.of_norm (k := r.length - len) L.pos f3 (by omega) f7 rfl
  refine ⟨not_false, val B r', g1, by simp; omega, ?_, ?_⟩
  · simp only []; rw [g2]; exact f8
  · simp only []
    rw [← f5] at e3
    cases s <;> simp at e3 ⊢ <;> omega

theorem toomInterp_exact (L : Lawful D B) {r0 r4 r1 rm1 rm2 : List Nat}
    {lenR1 lenRm1 lenRm2 c0 c1 c2 c3 c4 v1 w1 w2 k : Nat} {s1 s2 : Bool}
    (h0 : Rep B r0 c0) (h4 : Rep B r4 c4) (h1 : Pre B r1 lenR1 v1)
    (hc1 : Canon (r1.take lenR1)) (h1' : s1 = true → Buf B r1 lenR1 v1)
    (hm1 : Buf B rm1 lenRm1 w1) (hcm1 : Canon (rm1.take lenRm1)) (hm2 : Buf B rm2 lenRm2 w2)
    (hcm2 : Canon (rm2.take lenRm2))
    (e1 : v1 = c0 + c1 + c2 + c3 + c4) (e2 : sv s1 w1 = (c0 : ℤ) - c1 + c2 - c3 + c4)
    (e3 : sv s2 w2 = (c0 : ℤ) - 2 * c1 + 4 * c2 - 8 * c3 + 16 * c4)
    (hS : 2 * (c0 + c1 + c2 + c3 + c4) < B ^ k) (hk1 : k ≤ r1.length) (hk2 : k ≤ rm1.length)
    (hk3 : k ≤ rm2.length) (hl1 : lenR1 ≤ rm2.length) :
    Ex (interpFails B s1 s2 c0 v1 w1 w2 = true)
      (toomInterp D r0 r4 r1 lenR1 rm1 lenRm1 s1 rm2 lenRm2 s2)
      (InterpPost B k c1 c2 c3 c4 r1.length rm1.length rm2.length) := by
  have hB : 2 ≤ B := by have := L.base; omega
  have hl0 : r0.length ≤ k := by
    have := length_bound (s := 0) (M := c0) (k := k) hB h0.canon (by rw [h0.val_eq])
      (by rw [pow_zero, one_mul]; omega) (by omega)
    omega
  have hl4 : r4.length ≤ k := by
    have := length_bound (s := 0) (M := c4) (k := k) hB h4.canon (by rw [h4.val_eq])
      (by rw [pow_zero, one_mul]; omega) (by omega)
    omega
  have hw1 : w1 + c0 < B ^ k := by cases s1 <;> simp at e2 <;> omega
  have hlm1 : lenRm1 ≤ k := hm1.len_le_of_lt hB hcm1 (by omega)
  unfold toomInterp
  have ht : sv s2 w2 - v1 = 3 * (-c1 + c2 - 3 * c3 + 5 * c4 : ℤ) := by
    rw [e3, e1]; push_cast; ring
  refine Ex.then (Ex.of_sp (toomR3First_spec (T := True) L (t := -c1 + c2 - 3 * c3 + 5 * c4) h1 hm2 hl1
    ht (fun _ => ⟨hc1, hcm2⟩))) ?_
  rintro ⟨r3, len3, s3⟩ ⟨v3, f1, f2, f3, f4⟩
  simp only [] at f1 f2 f3 f4 ⊢
  refine Ex.then (Ex.of_sp (toomR1First_spec (T := True) L (t := c1 + c3) h1 h1' hm1.pre (by omega)
    (by rw [e2, e1]; push_cast; ring) (fun _ => hcm1))) ?_
  rintro ⟨r1', len1⟩ ⟨g1, g2, g3⟩
  simp only [] at g1 g2 g3 ⊢
  have hlen1 : len1 ≤ k := g1.len_le_of_lt hB g3 (by omega)
  refine Ex.then (toomR2First_exact L (k := k) (s := s1) h0 hm1 hcm1 hk2 hlm1 hl0 hw1) ?_
  rintro ⟨r2, len2, s2'⟩ ⟨v2, i1, i2, i3, i4, i5, i6, i7⟩
  simp only [] at i1 i2 i3 i4 i5 i6 i7 ⊢
  have z3 := size_canon hB f1.take_digs f4
  rw [f1.take_val, f1.take_len] at z3
  refine Ex.congr (K := (s2' = s3 ∧ absFail len3 v3 len2 v2 = true) ∨ False) ?_ ?_
  swap
  · have hneg : s2' = true → absFail len3 v3 len2 v2 = false := fun hs =>
      absFail_lt (fun h => i1.lt_of_shorter L.pos (i5 hs) f1.lt h)
        (fun h => f1.lt_of_shorter L.pos f4 i1.lt h)
    rw [or_false]
    unfold interpFails
    simp only [Bool.and_eq_true, Bool.not_eq_true', decide_eq_true_eq]
    cases s2' with
    | true =>
      have := i6.mp rfl
      rw [hneg rfl]
      constructor
      · rintro ⟨-, h⟩; simp at h
      · rintro ⟨⟨⟨⟨a1, -⟩, a2⟩, -⟩, -⟩
        rcases this with h | h
        · rw [h] at a1; cases a1
        · omega
    | false =>
      have hno := mt i6.mpr (by simp)
      push Not at hno
      have hs1 : s1 = false := by simpa using hno.1
      subst hs1
      simp only [sv_false] at i4
      rw [← i7 rfl, show w1 - c0 = v2 by omega]
      have hpos : absFail len3 v3 len2 v2 = true → 0 < v3 := by
        intro h
        rcases Nat.eq_zero_or_pos v3 with h3 | h3
        · rw [h3, size_zero] at z3
          rw [← z3, h3, absFail_iff] at h
          omega
        · exact h3
      constructor
      · rintro ⟨rfl, h⟩
        have hp := hpos h
        rw [sv_false] at f3
        cases s2 with
        | true => simp at ht; omega
        | false =>
          simp only [sv_false] at ht
          have hv3 : (w2 - v1) / 3 = v3 := by omega
          refine ⟨⟨⟨⟨rfl, rfl⟩, hno.2⟩, by omega⟩, ?_⟩
          rw [hv3, z3]; exact h
      · rintro ⟨⟨⟨⟨-, rfl⟩, -⟩, a4⟩, a5⟩
        simp only [sv_false] at ht
        have ht0 : (-c1 + c2 - 3 * c3 + 5 * c4 : ℤ) = ((w2 - v1) / 3 : Nat) := by omega
        rw [ht0] at f3
        have hv3 : (w2 - v1) / 3 = v3 := by
          cases s3 <;> simp at f3 <;> omega
        rw [hv3, z3] at a5
        have hp := hpos a5
        refine ⟨?_, a5⟩
        cases s3 with
        | false => rfl
        | true => simp at f3; omega
  refine Ex.bind (toomR3Second_exact L (t := c3 - 2 * c4) (s2 := s2') (s3 := s3) i1.pre f1 (by omega)
    (by rw [i4, e2, f3]; ring)) ?_
  rintro ⟨r3', len3', s3'⟩ ⟨v3', j1, j2, j3, j4⟩
  simp only [] at j1 j2 j3 j4 ⊢
  refine Ex.then (Ex.of_tot (toomR3Last_spec L (k := k) h4 j1 j3 j4 (by omega) (by omega) hl4)) ?_
  rintro ⟨r3'', len3''⟩ ⟨m1, m2, m3⟩
  simp only [] at m1 m2 m3 ⊢
  refine Ex.then (Ex.of_tot (toomR2Last_spec L (k := k) (s := s2') (c2 := c2) h4 g1 i1
    (by rw [i4, e2]; push_cast; ring) (by omega) i3 hlen1 (by omega))) ?_
  rintro ⟨r2', len2'⟩ ⟨n1, n2, n3, n4⟩
  simp only [] at n1 n2 n3 n4 ⊢
  refine Ex.then (Ex.of_tot (toomR1Last_spec L g1 g3 m1 m3)) ?_
  rintro ⟨r1'', len1'⟩ ⟨o1, o2, o3⟩
  simp only [] at o1 o2 o3 ⊢
  exact ⟨not_false, o1, by simp only []; omega, o3, n1, by simp only []; omega, n3, n4, m1,
    by simp only []; omega, m3⟩

end Babs
