import Verif.SpecToom
import Verif.Proofs.KaraExact

/-!
# Helper lemmas: with how many digits sums and differences are returned
-/

namespace Babs

variable {D : DigitOps} {B : Nat}

theorem addInto_buf_digits (L : Lawful D B) {l0 l1 : List Nat} {k m : Nat} (h0 : Digs B l0)
    (h1 : Digs B l1) (hm : m ≤ k) (hl0 : l0.length ≤ m) (hl1 : l1.length ≤ m)
    (hv : val B l0 + val B l1 < B ^ m) :
    ∃ buf n, addBigInto D l0 l1 (List.replicate k 0) = .ok (buf, .ok n) ∧ buf.length = k ∧
      Buf B buf n (val B l0 + val B l1) ∧ n ≤ m ∧
      n = sumDigits B l0.length (val B l0) l1.length (val B l1) := by
  obtain ⟨buf, n, a1, a2, a3, a4, -⟩ := addInto_buf L h0 h1 hm hl0 hl1 hv
  obtain ⟨r, c, e1, e2, e3, e4, e5⟩ := addBigInto_spec L l0 l1 (List.replicate k 0) h0 h1
    (by simp; omega)
  refine ⟨buf, n, a1, a2, a3, a4, ?_⟩
  have hr := val_lt e2
  rw [e1] at hr
  unfold sumDigits
  rcases e5 with ⟨rfl, e5⟩ | ⟨rfl, -, e5⟩ | ⟨rfl, -, e5⟩
  · rw [a1] at e5
    simp only [Except.ok.injEq, Prod.mk.injEq] at e5
    rw [if_neg (by omega)]; exact e5.2
  · rw [a1] at e5
    simp at e5
  · rw [a1] at e5
    simp only [Except.ok.injEq, Prod.mk.injEq] at e5
    rw [if_pos (by omega)]; exact e5.2

theorem Buf.addPush_digits (L : Lawful D B) {buf l : List Nat} {n v k : Nat} (h : Buf B buf n v)
    (hl : Digs B l) (hk : k ≤ buf.length) (hn : n ≤ k) (hlk : l.length ≤ k)
    (hv : v + val B l < B ^ k) :
    ∃ buf1 c buf' n', onSlice buf 0 (max n l.length) (fun s => addAssignBig D s l) = .ok (buf1, c) ∧
      pushCarry buf1 (max n l.length) c = .ok (buf', n') ∧ buf'.length = buf.length ∧
      Buf B buf' n' (v + val B l) ∧ n' ≤ k ∧ n' = sumDigits B n v l.length (val B l) := by
  obtain ⟨buf1, c, v1, e1, e2, e3, e4⟩ := h.add L hl (k := max n l.length) (by omega) (by omega)
    (by omega)
  obtain ⟨buf', n', f1, f2, f3, f4, f5, f6⟩ := pushCarry_spec L (k := k) (c := c) e3 (by omega)
    (by omega) (by omega)
  refine ⟨buf1, c, buf', n', e1, f1, by omega, e4 ▸ f3, f4, ?_⟩
  have hr := e3.lt
  unfold sumDigits
  rw [f5]
  cases c with
  | true => rw [if_pos (by simp at e4; omega)]; rfl
  | false => rw [if_neg (by simp at e4; omega)]; rfl

theorem Buf.doublePush_digits (L : Lawful D B) {buf : List Nat} {n v k : Nat} (h : Buf B buf n v)
    (hk : k ≤ buf.length) (hn : n ≤ k) (hv : 2 * v < B ^ k) :
    ∃ buf1 c buf' n', onSlice buf 0 n (fun s => doubleCarryAssign D s false) = .ok (buf1, c) ∧
      pushCarry buf1 n c = .ok (buf', n') ∧ buf'.length = buf.length ∧
      Buf B buf' n' (2 * v) ∧ n' ≤ k ∧ n' = sumDigits B n v n v := by
  obtain ⟨r, c, e1, e2, e3, e4⟩ := doubleCarryAssign_spec L (buf.take n) false h.take_digs
  rw [h.take_len] at e2 e4
  rw [h.take_val] at e4
  simp at e4
  have hb : Buf B (r ++ List.replicate (buf.length - n) 0) n (val B r) := Buf.of L.pos e3 rfl e2
  have hlen : (r ++ List.replicate (buf.length - n) 0).length = buf.length := by
    have := h.le
    simp; omega
  obtain ⟨buf', n', f1, f2, f3, f4, f5, f6⟩ := pushCarry_spec L (k := k) (c := c) hb (by omega) hn
    (by omega)
  refine ⟨_, c, buf', n', onSlice_buf h (le_refl _) h.le e1, f1, by omega,
    by rw [show 2 * v = val B r + B ^ n * c.toNat by omega]; exact f3, f4, ?_⟩
  have hr := val_lt e3
  rw [e2] at hr
  unfold sumDigits
  rw [f5, max_self]
  cases c with
  | true => rw [if_pos (by simp at e4; omega)]; rfl
  | false => rw [if_neg (by simp at e4; omega)]; rfl

theorem subAssignBig_digits (L : Lawful D B) (l0 l1 r : List Nat) (nd : Nat) (h0 : Digs B l0)
    (h1 : Digs B l1) (hlen : l1.length ≤ l0.length)
    (hr : subAssignBig D l0 l1 = .ok (r, .ok nd)) :
    nd = diffDigits B l0.length (val B l0) l1.length (val B l1) := by
  obtain ⟨r1, c1, e1, e2, e3, -, e5⟩ := zipDigits_spec (subCarry_step L) (l0.take l1.length) l1
    (l0.drop l1.length) false (by simp [hlen]) (h0.take _) h1 trivial
  rw [List.take_append_drop] at e1
  have hlt : (l0.take l1.length).length = l1.length := by simp [hlen]
  rw [hlt] at e2 e5
  refine sub_finish_digits L l0 l1 r1 (l0.drop l1.length) [] r c1 nd hlen h0 rfl e2 e3
    (sub_common l0 l1 r1 c1 e5) ?_
  rw [← hr]
  unfold subAssignBig
  simp only [List.append_nil]
  simp only [if_neg (show ¬ l0.length < l1.length by omega), e1, ok_bind]
  all_goals rfl

/-- Which of two numbers is taken for the smaller one. -/
theorem ltBig_iff {a b : List Nat} (ha : Digs B a) (hb : Digs B b) :
    ltBig a b = true ↔ a.length < b.length ∨ (a.length = b.length ∧ val B a < val B b) := by
  rcases Nat.lt_trichotomy a.length b.length with h | h | h
  · simp [ltBig_shorter h, h]
  · rw [ltBig_same_length ha hb h]; simp [h]
  · rw [ltBig_longer h]; simp; omega

theorem ltCond_iff {k m j n : Nat} :
    (k < j || (k == j && m < n)) = true ↔ k < j ∨ (k = j ∧ m < n) := by simp

theorem absFail_iff {k m j n : Nat} :
    absFail k m j n = true ↔ (k < j ∧ n < m) ∨ (j < k ∧ m < n) := by
  unfold absFail; simp

theorem dist_sv {v w : Nat} {s : Bool} (h : if s then v ≤ w else w ≤ v) :
    sv s (Nat.dist v w) = (v : ℤ) - w := by
  unfold Nat.dist
  cases s <;> simp at h ⊢ <;> omega

/-- The difference of the number in a buffer and another one. -/
theorem subAssignBigAbsSign_exact (L : Lawful D B) {buf l : List Nat} {n v : Nat}
    (h : Buf B buf n v) (hl : Digs B l) (hlen : l.length ≤ buf.length) :
    Ex (absFail n v l.length (val B l) = true) (subAssignBigAbsSign D buf n l) (fun res =>
      Buf B res.1 res.2.2 (Nat.dist v (val B l)) ∧ res.1.length = buf.length ∧
        res.2.2 ≤ max n l.length ∧ sv res.2.1 (Nat.dist v (val B l)) = (v : ℤ) - val B l ∧
        res.2.2 = assignDigits B n v l.length (val B l) ∧
        (Canon l → res.2.1 = decide (v < val B l)) ∧
        (res.2.1 = true → Canon (res.1.take res.2.2))) := by
  have hB := L.base
  unfold subAssignBigAbsSign
  rw [slice_take h.le, ok_bind]
  have hiff := ltBig_iff (B := B) h.take_digs hl
  rw [h.take_len, h.take_val] at hiff
  rw [absFail_iff]
  unfold assignDigits
  by_cases hlt : ltBig (buf.take n) l = true
  · rw [if_pos hlt]
    have hc := hiff.mp hlt
    rw [if_pos (ltCond_iff.mpr hc)]
    obtain ⟨buf', res, e1, e2, e3⟩ := h.rsub L hl (by omega) hlen rfl
    rw [e1, ok_bind]
    simp only []
    rcases e3 with ⟨a1, rfl, -⟩ | ⟨a1, nd, rfl, a3, a4, a5⟩
    · exact ⟨rfl, by omega⟩
    · have hsz := size_canon (by omega) a4.take_digs a5
      rw [a4.take_val, a4.take_len] at hsz
      refine ⟨by omega, ?_, e2, ?_, dist_sv (by simpa using a1), hsz.symm, fun hcl => ?_, fun _ => a5⟩
      · simp only []
        rw [Nat.dist_eq_sub_of_le a1]; exact a4
      · simp only []; omega
      · have hne : v < val B l := by
          rcases hc with hc | hc
          · have h1 := h.lt
            have h2 := hcl.ge (b := B) (by omega) (by rintro rfl; simp at hc)
            have h3 : B ^ n ≤ B ^ (l.length - 1) := Nat.pow_le_pow_right (by omega) (by omega)
            omega
          · exact hc.2
        simp [hne]
  · rw [if_neg hlt]
    have hc := mt hiff.mpr hlt
    rw [if_neg (mt ltCond_iff.mp hc)]
    have hle : l.length ≤ n := by omega
    obtain ⟨buf', res, e1, e2, e3⟩ := h.sub L hl (le_refl _) h.le hle
    have hd : ∀ nd, res = .ok nd → nd = diffDigits B n v l.length (val B l) := by
      rintro nd rfl
      obtain ⟨r, res', f1, f2⟩ := subAssignBig_spec L (buf.take n) l h.take_digs hl
        (by rw [h.take_len]; exact hle)
      have f3 := onSlice_take (f := fun s => subAssignBig D s l) h.le f1
      rw [e1] at f3
      simp only [Except.ok.injEq, Prod.mk.injEq] at f3
      rw [← f3.2] at f1
      have := subAssignBig_digits L (buf.take n) l r nd h.take_digs hl
        (by rw [h.take_len]; exact hle) f1
      rwa [h.take_len, h.take_val] at this
    rw [e1, ok_bind]
    simp only []
    rcases e3 with ⟨a1, rfl, -⟩ | ⟨a1, nd, rfl, a3, a4, a5⟩
    · exact ⟨rfl, by omega⟩
    · refine ⟨by omega, ?_, e2, ?_, dist_sv (by simpa using a1), hd nd rfl, fun _ => ?_,
        fun hh => by simp at hh⟩
      · simp only []
        rw [Nat.dist_eq_sub_of_le_right a1]; exact a4
      · simp only []; omega
      · simp; omega

/-- The difference of two numbers, written into a clear buffer. -/
theorem subBigIntoAbsSign_exact_buf {dbg : Bool} (L : Lawful D B) {a b : List Nat} {k : Nat}
    (ha : Digs B a) (hb : Digs B b) (cb : Canon b) (hk : max a.length b.length ≤ k) :
    Ex (absFail a.length (val B a) b.length (val B b) = true)
      (subBigIntoAbsSign D dbg a b (List.replicate k 0))
      (fun res => Buf B res.1 res.2.2 (Nat.dist (val B a) (val B b)) ∧ res.1.length = k ∧
        res.2.2 ≤ max a.length b.length ∧
        res.2.2 = absDigits B a.length (val B a) b.length (val B b) ∧
        res.2.1 = decide (val B a < val B b)) := by
  have hB := L.base
  have hal := val_lt ha
  have key : ∀ res, AbsPost B a b (List.replicate k 0) res →
      Buf B res.1 res.2.2 (Nat.dist (val B a) (val B b)) ∧ res.1.length = k ∧
        res.2.2 ≤ max a.length b.length := by
    intro res h
    have r1 := h.len
    have r4 := h.tail
    have r6 := h.le_buf
    rw [List.length_replicate] at r1 r6
    rw [List.drop_replicate] at r4
    obtain ⟨j, r5⟩ := r4
    rw [List.append_assoc, List.replicate_append_replicate] at r5
    refine ⟨?_, r1, h.le⟩
    rw [← eq_dist h.val_eq]
    exact Buf.of_take (h.digs (digs_replicate L.pos)) (by omega) rfl r5
  have hiff := ltBig_iff ha hb
  rw [absFail_iff]
  unfold subBigIntoAbsSign absDigits
  refine Ex.bind_eq (a := ()) (by simp [debugAssertR, hk]) ?_
  by_cases h : ltBig a b = true
  · rw [if_pos h]
    have hc := hiff.mp h
    rw [if_pos (ltCond_iff.mpr hc)]
    have hlen : a.length ≤ b.length := by omega
    obtain ⟨r, res, e1, e2⟩ := subBigInto_spec L b a (List.replicate k 0) hb ha hlen (by simp; omega)
    have e3 := fun nd (he : res = .ok nd) => subBigInto_digits L b a _ _ nd hb ha hlen
      (by simp; omega) (he ▸ e1)
    rw [e1, ok_bind]
    have q3 := e2.cases
    have hne : val B a < val B b := by
      rcases hc with hc | hc
      · have h2 := cb.ge (b := B) (by omega) (by rintro rfl; simp at hc)
        have h3 : B ^ a.length ≤ B ^ (b.length - 1) := Nat.pow_le_pow_right (by omega) (by omega)
        omega
      · exact hc.2
    cases res with
    | error e =>
      rcases q3 with ⟨a1, -, -⟩ | ⟨-, nd, a2, -⟩
      · omega
      · cases a2
    | ok nd =>
      have hp := absPost_of (a := a) (b := b) (by omega) ha hlen
        (show b.length ≤ (List.replicate k 0).length by simp; omega) e2 (Or.inl ⟨rfl, rfl, rfl⟩)
      obtain ⟨k1, k2, k3⟩ := key _ hp
      exact ⟨by omega, k1, k2, k3, e3 nd rfl, by simp [hne]⟩
  · rw [if_neg h]
    have hc := mt hiff.mpr h
    rw [if_neg (mt ltCond_iff.mp hc)]
    have hlen : b.length ≤ a.length := by omega
    obtain ⟨r, res, e1, e2⟩ := subBigInto_spec L a b (List.replicate k 0) ha hb hlen (by simp; omega)
    have e3 := fun nd (he : res = .ok nd) => subBigInto_digits L a b _ _ nd ha hb hlen
      (by simp; omega) (he ▸ e1)
    rw [e1, ok_bind]
    have q3 := e2.cases
    cases res with
    | error e =>
      rcases q3 with ⟨a1, -, -⟩ | ⟨-, nd, a2, -⟩
      · exact ⟨rfl, by omega⟩
      · cases a2
    | ok nd =>
      rcases q3 with ⟨-, a2, -⟩ | ⟨a1, -⟩
      · cases a2
      have hp := absPost_of (a := a) (b := b) (by omega) hb hlen
        (show a.length ≤ (List.replicate k 0).length by simp; omega) e2 (Or.inr ⟨rfl, rfl, rfl⟩)
      obtain ⟨k1, k2, k3⟩ := key _ hp
      exact ⟨by omega, k1, k2, k3, e3 nd rfl, by simp; omega⟩

end Babs
