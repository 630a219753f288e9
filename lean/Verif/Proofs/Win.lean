import Verif.Proofs.ToomInterp

/-!
# Helper lemmas: arithmetic in buffers with stale digits

Toom-Cook squaring uses buffers that are not cleared. A `Win` is a buffer that is known to be clear up
to some position only.
-/

namespace Babs

variable {D : DigitOps} {B : Nat}

/-- The buffer holds the number `v` in its first `n` digits, zeros from there to `z`, and anything
after that. -/
def Win (B : Nat) (buf : List Nat) (n z v : Nat) : Prop :=
  ∃ w t, buf = w ++ t ∧ w.length = z ∧ Buf B w n v ∧ Digs B t

theorem Win.le {buf : List Nat} {n z v : Nat} (h : Win B buf n z v) : n ≤ z := by
  obtain ⟨w, t, rfl, rfl, h, -⟩ := h
  exact h.le

theorem Win.zle {buf : List Nat} {n z v : Nat} (h : Win B buf n z v) : z ≤ buf.length := by
  obtain ⟨w, t, rfl, rfl, h, -⟩ := h
  simp

theorem Win.digs {buf : List Nat} {n z v : Nat} (h : Win B buf n z v) : Digs B buf := by
  obtain ⟨w, t, rfl, rfl, h, ht⟩ := h
  simp [h.digs, ht]

theorem Win.pre {buf : List Nat} {n z v : Nat} (h : Win B buf n z v) : Pre B buf n v := by
  refine ⟨h.digs, le_trans h.le h.zle, ?_⟩
  obtain ⟨w, t, rfl, rfl, h, ht⟩ := h
  rw [List.take_append_of_le_length h.le]
  exact h.take_val

theorem Win.take_val {buf : List Nat} {n z v : Nat} (h : Win B buf n z v) :
    val B (buf.take n) = v := h.pre.take_val

theorem Win.take_len {buf : List Nat} {n z v : Nat} (h : Win B buf n z v) :
    (buf.take n).length = n := h.pre.take_len

theorem Win.take_digs {buf : List Nat} {n z v : Nat} (h : Win B buf n z v) :
    Digs B (buf.take n) := h.digs.take n

/-- Any buffer, read up to `n`. -/
theorem Win.of_pre {buf : List Nat} {n v : Nat} (h : Pre B buf n v) : Win B buf n n v := by
  refine ⟨buf.take n, buf.drop n, (List.take_append_drop _ _).symm, h.take_len, ?_, h.digs.drop n⟩
  refine Buf.of_take (k := 0) (h.digs.take n) (by rw [h.take_len]) ?_ ?_
  · rw [List.take_take, Nat.min_self]; exact h.take_val
  · rw [List.take_take, Nat.min_self]; simp

/-- Working in a front part of the buffer leaves the rest alone. -/
theorem onSlice_front {α : Type} {w t r : List Nat} {k : Nat} {f : List Nat → R (List Nat × α)}
    {x : α} (hk : k ≤ w.length) (h : onSlice w 0 k f = .ok (r, x)) :
    onSlice (w ++ t) 0 k f = .ok (r ++ t, x) := by
  unfold onSlice at h ⊢
  rw [slice_take hk, ok_bind] at h
  rw [slice_take (by simp; omega), ok_bind, List.take_append_of_le_length hk]
  cases hf : f (w.take k) with
  | error e => rw [hf] at h; cases h
  | ok s =>
    rw [hf, ok_bind] at h
    rw [ok_bind]
    obtain ⟨s, y⟩ := s
    simp only [List.take_zero, List.nil_append, pure_eq_ok, Except.ok.injEq, Prod.mk.injEq] at h ⊢
    obtain ⟨rfl, rfl⟩ := h
    refine ⟨?_, rfl⟩
    rw [List.drop_append_of_le_length hk, List.append_assoc]

/-- Working in a front part of the buffer leaves what comes after it. -/
theorem onSlice_drop {α : Type} {buf r : List Nat} {j k : Nat} {f : List Nat → R (List Nat × α)}
    {x : α} (hj : j ≤ buf.length) (h : onSlice buf 0 j f = .ok (r, x)) (hr : r.length = buf.length)
    (hk : j ≤ k) : r.drop k = buf.drop k := by
  unfold onSlice at h
  rw [slice_take hj, ok_bind] at h
  cases hf : f (buf.take j) with
  | error e => rw [hf] at h; cases h
  | ok s =>
    rw [hf, ok_bind] at h
    obtain ⟨s, y⟩ := s
    simp only [List.take_zero, List.nil_append, pure_eq_ok, Except.ok.injEq, Prod.mk.injEq] at h
    obtain ⟨rfl, rfl⟩ := h
    have hs : s.length = j := by
      simp at hr; omega
    obtain ⟨i, rfl⟩ := Nat.exists_eq_add_of_le hk
    rw [← List.drop_drop, List.drop_left' hs, List.drop_drop]

/-- `if carry { nr[len] = 1; len += 1 }`. -/
theorem pushCarry_win (L : Lawful D B) {buf : List Nat} {n z v k : Nat} {c : Bool}
    (h : Win B buf n z v) (hk : k ≤ buf.length) (hn : n ≤ k) (hv : v + B ^ n * c.toNat < B ^ k) :
    ∃ buf' n', pushCarry buf n c = .ok (buf', n') ∧ buf'.length = buf.length ∧
      Win B buf' n' (max z n') (v + B ^ n * c.toNat) ∧ n' ≤ k ∧ n ≤ n' ∧
      (c = true ∨ Canon (buf.take n) → Canon (buf'.take n')) ∧ buf'.drop k = buf.drop k := by
  have hB := L.base
  cases c with
  | false =>
    exact ⟨buf, n, rfl, rfl, by simpa [Nat.max_eq_left h.le] using h, hn, le_refl _,
      fun hc => by simpa using hc, rfl⟩
  | true =>
    have hlt : n < k := by
      simp at hv
      have h1 : B ^ n < B ^ k := by omega
      exact (Nat.pow_lt_pow_iff_right (by omega : 1 < B)).mp h1
    have hl := h.take_len
    have hdg := h.digs
    have htv := h.take_val
    have hnz := h.le
    have hzl := h.zle
    have hz : buf.drop n = List.replicate (z - n) 0 ++ buf.drop z := by
      obtain ⟨w, t, rfl, rfl, hw, ht⟩ := h
      rw [List.drop_append_of_le_length hw.le, List.drop_left' rfl]
      congr 1
      conv_lhs => rw [hw.zeros]
      rw [List.drop_left' hw.take_len]
    have hnew : buf.set n 1 = (buf.take n ++ [1]) ++ buf.drop (n + 1) := by
      have hn1 : n < buf.length := by omega
      rw [List.set_eq_take_append_cons_drop, if_pos hn1]
      simp
    have htl : (buf.take n ++ [1]).length = n + 1 := by simp [hl]
    refine ⟨buf.set n 1, n + 1, ?_, by simp, ?_, hlt, by omega, ?_, List.drop_set_of_lt hlt⟩
    · simp [pushCarry, setR_ok (show n < buf.length by omega)]
    · rw [hnew]
      have hdrop : buf.drop (n + 1) = List.replicate (max z (n + 1) - (n + 1)) 0 ++
          buf.drop (max z (n + 1)) := by
        by_cases hc : z = n
        · subst hc
          rw [Nat.max_eq_right (by omega)]; simp
        · rw [Nat.max_eq_left (by omega), ← List.drop_drop, hz,
            List.drop_append_of_le_length (by simp; omega), List.drop_replicate, Nat.sub_sub]
      refine ⟨(buf.take n ++ [1]) ++ List.replicate (max z (n + 1) - (n + 1)) 0,
        buf.drop (max z (n + 1)), ?_, ?_, Buf.of L.pos ?_ ?_ htl, hdg.drop _⟩
      · conv_lhs => rw [hdrop]
        rw [List.append_assoc (buf.take n ++ [1])]
      · rw [List.length_append, htl, List.length_replicate]; omega
      · simp [hdg.take]; omega
      · rw [val_snoc, htv, hl]; simp
    · intro _
      rw [hnew, List.take_left' htl, canon_snoc]; omega

/-- Adding a number to a buffer, with room for the carry. -/
theorem Win.addPush (L : Lawful D B) {buf l : List Nat} {n z v k : Nat} (h : Win B buf n z v)
    (hl : Digs B l) (hk : k ≤ buf.length) (hn : n ≤ k) (hlk : l.length ≤ k) (hlz : l.length ≤ z)
    (hv : v + val B l < B ^ k) :
    ∃ buf1 c buf' n', onSlice buf 0 (max n l.length) (fun s => addAssignBig D s l) = .ok (buf1, c) ∧
      pushCarry buf1 (max n l.length) c = .ok (buf', n') ∧ buf'.length = buf.length ∧
      Win B buf' n' (max z n') (v + val B l) ∧ n' ≤ k ∧
      (Canon (buf.take n) → Canon l → Canon (buf'.take n')) ∧ buf'.drop k = buf.drop k := by
  have hnz := h.le
  have htl := h.take_len
  have htv := h.take_val
  obtain ⟨w, t, rfl, rfl, hw, ht⟩ := h
  obtain ⟨buf1, c, v1, e1, e2, e3, e4⟩ := hw.add L hl (k := max n l.length) (by omega) (by omega)
    (by omega)
  have e3' : Win B (buf1 ++ t) (max n l.length) w.length v1 := ⟨buf1, t, rfl, e2, e3, ht⟩
  obtain ⟨buf', n', f1, f2, f3, f4, f5, f6, f7⟩ := pushCarry_win L (k := k) (c := c) e3'
    (by simp at hk ⊢; omega) (by omega) (by omega)
  refine ⟨buf1 ++ t, c, buf', n', onSlice_front (by omega) e1, f1, by simp [f2, e2], e4 ▸ f3, f4, ?_,
    f7.trans (onSlice_drop (by simp; omega) (onSlice_front (t := t) (by omega) e1) (by simp [e2])
      (by omega))⟩
  intro c1 c2
  apply f6
  cases c with
  | true => exact Or.inl rfl
  | false =>
    right
    refine canon_of_max L.pos e3'.take_digs c1 c2 ?_ ?_
    · rw [htv, e3'.take_val]; simp at e4; omega
    · rw [e3'.take_len, htl]

/-- Doubling the number in a buffer, with room for the carry. -/
theorem Win.doublePush (L : Lawful D B) {buf : List Nat} {n z v k : Nat} (h : Win B buf n z v)
    (hk : k ≤ buf.length) (hn : n ≤ k) (hv : 2 * v < B ^ k) :
    ∃ buf1 c buf' n', onSlice buf 0 n (fun s => doubleCarryAssign D s false) = .ok (buf1, c) ∧
      pushCarry buf1 n c = .ok (buf', n') ∧ buf'.length = buf.length ∧
      Win B buf' n' (max z n') (2 * v) ∧ n' ≤ k ∧
      (Canon (buf.take n) → Canon (buf'.take n')) ∧ buf'.drop k = buf.drop k := by
  have hnz := h.le
  have htl := h.take_len
  have htv := h.take_val
  obtain ⟨w, t, rfl, rfl, hw, ht⟩ := h
  have hwl := hw.take_len
  obtain ⟨r, c, e1, e2, e3, e4⟩ := doubleCarryAssign_spec L (w.take n) false hw.take_digs
  rw [hw.take_len] at e2 e4
  rw [hw.take_val] at e4
  simp at e4
  have hb : Buf B (r ++ List.replicate (w.length - n) 0) n (val B r) := Buf.of L.pos e3 rfl e2
  have hlen : (r ++ List.replicate (w.length - n) 0).length = w.length := by simp; omega
  have hb' : Win B (r ++ List.replicate (w.length - n) 0 ++ t) n w.length (val B r) :=
    ⟨_, t, rfl, hlen, hb, ht⟩
  obtain ⟨buf', n', f1, f2, f3, f4, f5, f6, f7⟩ := pushCarry_win L (k := k) (c := c) hb'
    (by rw [List.length_append, hlen, ← List.length_append]; exact hk) hn (by omega)
  refine ⟨_, c, buf', n', onSlice_front hw.le (onSlice_buf hw (le_refl _) hw.le e1), f1,
    by rw [f2, List.length_append, hlen, List.length_append],
    by rw [show 2 * v = val B r + B ^ n * c.toNat by omega]; exact f3, f4, ?_,
    f7.trans (onSlice_drop (by simp; omega)
      (onSlice_front (t := t) hw.le (onSlice_buf (f := fun s => doubleCarryAssign D s false) hw (le_refl _) hw.le e1))
      (by rw [List.length_append, hlen, List.length_append]) hn)⟩
  intro hc
  apply f6
  cases c with
  | true => exact Or.inl rfl
  | false =>
    right
    refine canon_of_max L.pos hb'.take_digs hc hc ?_ ?_
    · rw [htv, hb'.take_val]; simp at e4; omega
    · rw [hb'.take_len, htl]; omega

/-- Adding two numbers into a buffer that is clear up to `z`. -/
theorem addInto_win (L : Lawful D B) {l0 l1 buf : List Nat} {z m : Nat} (h0 : Digs B l0)
    (h1 : Digs B l1) (hb : Digs B buf) (hz : buf.take z = List.replicate z 0) (hm : m ≤ buf.length)
    (hl0 : l0.length ≤ m) (hl1 : l1.length ≤ m) (hv : val B l0 + val B l1 < B ^ m) :
    ∃ buf' n, addBigInto D l0 l1 buf = .ok (buf', .ok n) ∧ buf'.length = buf.length ∧
      Win B buf' n (max z n) (val B l0 + val B l1) ∧ n ≤ m ∧
      (Canon l0 → Canon l1 → Canon (buf'.take n)) ∧ buf'.drop m = buf.drop m := by
  have hB := L.base
  have hzl : z ≤ buf.length := by
    have := congrArg List.length hz
    simp at this; exact this
  have hdrop : ∀ n, buf.drop n = List.replicate (max z n - n) 0 ++ buf.drop (max z n) := by
    intro n
    by_cases hc : z ≤ n
    · rw [Nat.max_eq_right hc]; simp
    · rw [Nat.max_eq_left (by omega)]
      conv_lhs => rw [← List.take_append_drop z buf, hz]
      rw [List.drop_append_of_le_length (by simp; omega), List.drop_replicate]
  obtain ⟨r, c, e1, e2, e3, e4, e5⟩ := addBigInto_spec L l0 l1 buf h0 h1 (by omega)
  have hc1 : c = 1 → max l0.length l1.length < m := by
    rintro rfl
    have h1 : B ^ max l0.length l1.length < B ^ m := by omega
    exact (Nat.pow_lt_pow_iff_right (by omega : 1 < B)).mp h1
  have mk : ∀ (r : List Nat) n v, r.length = n → n ≤ buf.length → Digs B r → val B r = v →
      Win B (r ++ buf.drop n) n (max z n) v := by
    intro r n v hr hn hd hv
    rw [hdrop n, ← List.append_assoc]
    refine ⟨_, _, rfl, ?_, Buf.of L.pos hd hv hr, hb.drop _⟩
    rw [List.length_append, hr, List.length_replicate]; omega
  have dr : ∀ (r : List Nat) n, r.length = n → n ≤ m → (r ++ buf.drop n).drop m = buf.drop m := by
    intro r n hr hn
    obtain ⟨i, rfl⟩ := Nat.exists_eq_add_of_le hn
    rw [← List.drop_drop, List.drop_left' hr, List.drop_drop]
  rcases e5 with ⟨rfl, e5⟩ | ⟨rfl, e5, -⟩ | ⟨rfl, e5, e6⟩
  · refine ⟨_, _, e5, by simp [e1]; omega, mk _ _ _ e1 (by omega) e2 (by simpa using e4), by omega, ?_,
      dr _ _ e1 (by omega)⟩
    intro c0 c1
    rw [List.take_left' e1]
    exact canon_of_max L.pos e2 c0 c1 (by simp at e4; omega) (by omega)
  · have := hc1 rfl; omega
  · have := hc1 rfl
    have hl : (r ++ [1]).length = max l0.length l1.length + 1 := by simp [e1]
    rw [show r ++ 1 :: buf.drop (max l0.length l1.length + 1)
      = (r ++ [1]) ++ buf.drop (max l0.length l1.length + 1) by simp] at e6
    refine ⟨_, _, e6, by rw [List.length_append, hl, List.length_drop]; omega,
      mk _ _ _ hl (by omega) ?_ ?_, by omega, ?_, dr _ _ hl (by omega)⟩
    · simp [e2]; omega
    · rw [val_snoc, e1]; exact e4
    · intro _ _
      rw [List.take_left' hl, canon_snoc]; omega

/-- The difference of the number in a buffer and another one, in a part of the buffer that is clear. -/
theorem subAssignBigAbsSign_win (L : Lawful D B) {T : Prop} {buf l : List Nat} {n z v : Nat}
    (h : Win B buf n z v) (hl : Digs B l) (hlen : l.length ≤ z)
    (hT : T → Canon (buf.take n) ∧ Canon l) :
    Sp (fun p => p = .unwrap ∧ ¬ T) (subAssignBigAbsSign D buf n l) (fun res =>
      ∃ m, Win B res.1 res.2.2 z m ∧ res.1.length = buf.length ∧ res.2.2 ≤ max n l.length ∧
        sv res.2.1 m = (v : ℤ) - val B l ∧
        (T → (res.2.1 = true ↔ v < val B l) ∧
          (near 1 B v (val B l) = false → Canon (res.1.take res.2.2))) ∧
        res.1.drop z = buf.drop z) := by
  obtain ⟨w, t, rfl, rfl, hw, ht⟩ := h
  have hwn := hw.le
  rw [List.take_append_of_le_length hw.le] at hT
  have hs := subAssignBigAbsSign_spec (T := T) L hw hl hlen hT
  have key : ∀ res, subAssignBigAbsSign D w n l = .ok res →
      subAssignBigAbsSign D (w ++ t) n l = .ok (res.1 ++ t, res.2) := by
    intro res hres
    unfold subAssignBigAbsSign at hres ⊢
    rw [slice_take hw.le, ok_bind] at hres
    rw [slice_take (by simp; omega), ok_bind, List.take_append_of_le_length hw.le]
    by_cases hlt : ltBig (w.take n) l = true
    · rw [if_pos hlt] at hres ⊢
      cases ho : onSlice w 0 l.length (fun s => rsubAssignBig D s l) with
      | error e => rw [ho] at hres; cases hres
      | ok q =>
        obtain ⟨q1, q2⟩ := q
        rw [ho, ok_bind] at hres
        rw [onSlice_front hlen ho, ok_bind]
        cases q2 with
        | error e => cases hres
        | ok q2 =>
          simp only [unwrapR, ok_bind, pure_eq_ok, Except.ok.injEq] at hres ⊢
          subst hres; rfl
    · rw [if_neg hlt] at hres ⊢
      cases ho : onSlice w 0 n (fun s => subAssignBig D s l) with
      | error e => rw [ho] at hres; cases hres
      | ok q =>
        obtain ⟨q1, q2⟩ := q
        rw [ho, ok_bind] at hres
        rw [onSlice_front hw.le ho, ok_bind]
        cases q2 with
        | error e => cases hres
        | ok q2 =>
          simp only [unwrapR, ok_bind, pure_eq_ok, Except.ok.injEq] at hres ⊢
          subst hres; rfl
  have keyE : ∀ e, subAssignBigAbsSign D w n l = .error e →
      subAssignBigAbsSign D (w ++ t) n l = .error e := by
    intro e hres
    unfold subAssignBigAbsSign at hres ⊢
    rw [slice_take hw.le, ok_bind] at hres
    rw [slice_take (by simp; omega), ok_bind, List.take_append_of_le_length hw.le]
    by_cases hlt : ltBig (w.take n) l = true
    · rw [if_pos hlt] at hres ⊢
      have hle : n ≤ l.length := by
        by_contra hcon
        rw [ltBig_longer (by rw [hw.take_len]; omega)] at hlt; simp at hlt
      obtain ⟨buf', res, e1, -⟩ := hw.rsub L hl hle hlen rfl
      rw [e1, ok_bind] at hres
      rw [onSlice_front hlen e1, ok_bind]
      cases res with
      | error e' => exact hres
      | ok q2 => cases hres
    · rw [if_neg hlt] at hres ⊢
      have hle : l.length ≤ n := by
        by_contra hcon
        exact hlt (ltBig_shorter (by rw [hw.take_len]; omega))
      obtain ⟨buf', res, e1, -⟩ := hw.sub L hl (le_refl _) hw.le hle
      rw [e1, ok_bind] at hres
      rw [onSlice_front hw.le e1, ok_bind]
      cases res with
      | error e' => exact hres
      | ok q2 => cases hres
  cases ho : subAssignBigAbsSign D w n l with
  | error e =>
    rw [keyE e ho]
    rw [ho] at hs
    exact hs
  | ok res =>
    rw [key res ho]
    rw [ho] at hs
    obtain ⟨m, a1, a2, a3, a4, a5⟩ := hs
    refine ⟨m, ⟨res.1, t, rfl, a2, a1, ht⟩, by simp [a2], a3, a4, fun tt => ⟨(a5 tt).1, fun hn => ?_⟩,
      by simp only []; rw [List.drop_left' a2, List.drop_left' rfl]⟩
    show Canon ((res.1 ++ t).take res.2.2)
    rw [List.take_append_of_le_length a1.le]
    exact (a5 tt).2 hn

end Babs
