import Verif.SpecSquare
import Verif.Proofs.Win
import Verif.Proofs.Toom3

/-!
# Helper lemmas: Toom-Cook squaring in buffers that are not clear
-/

namespace Babs

variable {D : DigitOps} {B : Nat}

/-- What evaluation of an operand at 1, -1 and -2 gives, in buffers with stale digits. -/
structure EvalWin (B : Nat) (T : Prop) (b : Nat) (x q3 : List Nat) (k1 k2 a0 a1 a2 m1 m2 : Nat)
    (e : ToomEval) : Prop where
  v : val B x = a0 + B ^ b * a1 + B ^ (2 * b) * a2
  b0 : a0 < B ^ b
  b1 : a1 < B ^ b
  b2 : a2 < B ^ b
  p0 : Rep B e.p0 a0
  p0len : e.p0.length ≤ b
  pinf : Digs B e.pinf
  pinfv : val B e.pinf = a2
  pinflen : e.pinf.length = x.length - min (2 * b) x.length
  p1 : Pre B e.p1 e.lenP1 (a0 + a1 + a2)
  p1len : e.p1.length = k1
  lenP1 : e.lenP1 ≤ b + 1
  pm1 : Pre B e.pm1 e.lenPm1 m1
  pm1v : sv e.signPm1 m1 = (a0 : ℤ) - a1 + a2
  pm1len : e.pm1.length = k2
  lenPm1 : e.lenPm1 ≤ b + 1
  pm2 : Pre B e.pm2 e.lenPm2 m2
  pm2v : sv e.signPm2 m2 = (a0 : ℤ) - 2 * a1 + 4 * a2
  pm2len : e.pm2.length = q3.length
  lenPm2 : e.lenPm2 ≤ b + 2
  pm2drop : e.pm2.drop (b + 2) = q3.drop (b + 2)
  cinf : T → Canon e.pinf
  c1 : T → Canon (e.p1.take e.lenP1)
  cm1 : T → Canon (e.pm1.take e.lenPm1)
  cm2 : T → Canon (e.pm2.take e.lenPm2)

theorem EvalWin.dist1 {T : Prop} {b : Nat} {x q3 : List Nat} {k1 k2 a0 a1 a2 m1 m2 : Nat}
    {e : ToomEval} (h : EvalWin B T b x q3 k1 k2 a0 a1 a2 m1 m2 e) :
    m1 = Nat.dist (a0 + a2) a1 := by
  have := h.pm1v
  unfold Nat.dist
  cases hs : e.signPm1 <;> rw [hs] at this <;> simp at this <;> omega

theorem EvalWin.dist2 {T : Prop} {b : Nat} {x q3 : List Nat} {k1 k2 a0 a1 a2 m1 m2 : Nat}
    {e : ToomEval} (h : EvalWin B T b x q3 k1 k2 a0 a1 a2 m1 m2 e) :
    m2 = Nat.dist (a0 + 4 * a2) (2 * a1) := by
  have := h.pm2v
  unfold Nat.dist
  cases hs : e.signPm2 <;> rw [hs] at this <;> simp at this <;> omega

/-- A number in normal form is not longer than a buffer with a number of at least the same size. -/
theorem len_le_of_size {l buf : List Nat} {n z v : Nat} (hB : 2 ≤ B) (hl : Digs B l) (hc : Canon l)
    (h : Win B buf n z v) (hs : size B (val B l) ≤ size B v) : l.length ≤ n := by
  rw [size_canon hB hl hc] at hs
  exact le_trans hs (size_le hB h.pre.lt)

/-- Evaluation in buffers that are clear at the front, or if no stale digits are met. -/
theorem toomEval_win {dbg : Bool} (L : Lawful D B) {T : Prop} {x q1 q2 q3 : List Nat} {b : Nat}
    {clr : Bool} (hx : Digs B x) (hb : x.length ≤ 3 * b)
    (hq1 : Digs B q1) (hq2 : Digs B q2) (hq3 : Digs B q3)
    (h1 : b + 1 ≤ q1.length) (h2 : b + 1 ≤ q2.length) (h3 : b + 2 ≤ q3.length)
    (hclr : clr = true → q2.take (b + 1) = List.replicate (b + 1) 0 ∧
      q3.take (b + 2) = List.replicate (b + 2) 0)
    (hF : clr = true ∨ ∀ a0 a1 a2, val B x = a0 + B ^ b * a1 + B ^ (2 * b) * a2 → a0 < B ^ b →
      a1 < B ^ b → evalFresh B a0 a1 a2 = true)
    (hT : T → Canon x ∧ ∀ a0 a1 a2, val B x = a0 + B ^ b * a1 + B ^ (2 * b) * a2 → a0 < B ^ b →
      a1 < B ^ b → evalSafe B a0 a1 a2 = true) :
    Sp (fun p => p = .unwrap ∧ ¬ T) (toomEval D dbg b x q1 q2 q3)
      (fun e => ∃ a0 a1 a2 m1 m2, EvalWin B T b x q3 q1.length q2.length a0 a1 a2 m1 m2 e) := by
  have hB := L.base
  have hB2 : 2 ≤ B := by omega
  obtain ⟨l0, p0, l1, m1, pinf, s1, s2, s3, s4, s5, s6, p0l, p0d, p0c, p0b, m1d, m1c, m1b, pid, pil,
    pic, hv⟩ := toom_split hx hb
  have ha0 : val B p0 < B ^ b :=
    lt_of_lt_of_le (val_lt p0d) (Nat.pow_le_pow_right L.pos p0b)
  have ha1 : val B m1 < B ^ b :=
    lt_of_lt_of_le (val_lt m1d) (Nat.pow_le_pow_right L.pos m1b)
  have pib : pinf.length ≤ b := by omega
  have ha2 : val B pinf < B ^ b :=
    lt_of_lt_of_le (val_lt pid) (Nat.pow_le_pow_right L.pos pib)
  have hp1 : 8 * B ^ b ≤ B ^ (b + 1) := by
    rw [pow_succ, mul_comm]; exact Nat.mul_le_mul_left _ (by omega)
  have hp2 : B ^ (b + 1) ≤ B ^ (b + 2) := Nat.pow_le_pow_right L.pos (by omega)
  unfold toomEval
  simp only []
  rw [s1, ok_bind, s2, ok_bind, s3, ok_bind, s4, ok_bind, s5, ok_bind, s6, ok_bind]
  clear s1 s2 s3 s4 s5 s6
  have hS : T → Canon pinf ∧ evalSafe B (val B p0) (val B m1) (val B pinf) = true := fun t =>
    ⟨pic (hT t).1, (hT t).2 _ _ _ hv ha0 ha1⟩
  clear hT
  -- the clear part of the buffers
  have hZ : ∃ z2 z3, q2.take z2 = List.replicate z2 0 ∧ q3.take z3 = List.replicate z3 0 ∧
      z2 ≤ b + 1 ∧ z3 ≤ b + 2 ∧ (b + 1 ≤ z2 ∧ b + 2 ≤ z3 ∨
        evalFresh B (val B p0) (val B m1) (val B pinf) = true) := by
    rcases hF with h | h
    · exact ⟨b + 1, b + 2, (hclr h).1, (hclr h).2, le_refl _, le_refl _,
        Or.inl ⟨le_refl _, le_refl _⟩⟩
    · exact ⟨0, 0, by simp, by simp, by omega, by omega, Or.inr (h _ _ _ hv ha0 ha1)⟩
  obtain ⟨z2, z3, hz2, hz3, hz2b, hz3b, hZ⟩ := hZ
  clear hF hclr
  -- p0 + pinf
  obtain ⟨q, n, e1, e2, e3, e4, e5, -⟩ := addInto_win L (m := b + 1) p0d pid hq2 hz2 h2 (by omega)
    (by omega) (by omega)
  rw [e1, ok_bind]
  simp only [unwrapR, ok_bind]
  rw [slice_take e3.pre.le, ok_bind]
  have hm1z : m1.length ≤ max z2 n := by
    rcases hZ with h | h
    · omega
    · unfold evalFresh at h
      simp only [Bool.and_eq_true, decide_eq_true_eq] at h
      have := len_le_of_size hB2 m1d m1c e3 h.1
      omega
  -- p(1)
  obtain ⟨r1, n1, f1, f2, f3, f4, f5, -⟩ := addInto_win L (m := b + 1) (z := 0) e3.take_digs m1d hq1
    (by simp) h1 (by rw [e3.take_len]; omega) (by omega) (by rw [e3.take_val]; omega)
  rw [e3.take_val] at f3
  rw [f1, ok_bind]
  simp only [ok_bind]
  -- p(-1)
  refine Sp.bind (subAssignBigAbsSign_win (T := T) L e3 m1d hm1z
    (fun t => ⟨e5 p0c (hS t).1, m1c⟩)) ?_
  rintro ⟨pm1, sg1, len1⟩ ⟨v1, g1, g2, g3, g4, g5, -⟩
  simp only [] at g1 g2 g3 g4 g5 ⊢
  have hd1 : v1 = Nat.dist (val B p0 + val B pinf) (val B m1) := by
    unfold Nat.dist
    cases sg1 <;> simp at g4 <;> omega
  have hc1 : T → Canon (pm1.take len1) := fun t => by
    have h := (hS t).2
    unfold evalSafe at h
    simp only [Bool.and_eq_true, Bool.not_eq_true'] at h
    exact (g5 t).2 h.1
  have hv1 : v1 < 2 * B ^ b := by
    cases sg1 <;> simp at g4 <;> omega
  have hlen1 : len1 ≤ b + 1 := by omega
  -- p(-1) + pinf
  refine Sp.bind (P := fun res => ∃ m z, Win B res.1 res.2.2 z m ∧ (z3 ≤ z ∧ z ≤ b + 2) ∧
    (res.1.length = q3.length ∧ res.1.drop (b + 2) = q3.drop (b + 2)) ∧
    res.2.2 ≤ b + 1 ∧ sv res.2.1 m = sv sg1 v1 + val B pinf ∧
    (T → Canon (res.1.take res.2.2) ∧
      (res.2.1 = false → near 1 B (2 * m) (val B p0) = false))) ?_ ?_
  · cases sg1 with
    | true =>
      rw [if_pos rfl, slice_take g1.pre.le, ok_bind]
      refine ((subBigIntoAbsSign_spec L pid g1.take_digs (buf := q3)
        (by rw [g1.take_len]; omega)).weaken
          (fun p hp => ⟨hp.1, fun t => hp.2 ⟨(hS t).1, hc1 t⟩⟩)).mono ?_
      rintro ⟨r, s, len⟩ hr
      have r0 := fun t => hr.canon (hS t).1 (hc1 t) 1
      rw [g1.take_val] at r0
      have r1 := hr.len
      have r2 := hr.le
      have r3 := hr.val_eq
      have r4 := hr.tail
      have r5 := hr.digs hq3
      simp only [] at r1 r2 r3 r4 r5 ⊢
      rw [g1.take_len] at r2 r4
      rw [g1.take_val] at r3
      have hlen : len ≤ r.length := by omega
      have hw : ∃ z, (z3 ≤ z ∧ z ≤ b + 2) ∧ r.drop (b + 2) = q3.drop (b + 2) ∧ Win B r len z (val B (r.take len)) := by
        obtain ⟨k, hk⟩ := r4
        generalize hM : max pinf.length len1 = M at *
        have hML : M ≤ q3.length := by omega
        have hkl := congrArg List.length hk
        simp only [List.length_append, List.length_take, List.length_replicate,
          List.length_drop] at hkl
        have hdr : q3.drop M = List.replicate (max z3 M - M) 0 ++ q3.drop (max z3 M) := by
          by_cases hc : z3 ≤ M
          · rw [Nat.max_eq_right hc]; simp
          · rw [Nat.max_eq_left (by omega)]
            conv_lhs => rw [← List.take_append_drop z3 q3, hz3]
            rw [List.drop_append_of_le_length (by simp; omega), List.drop_replicate]
        refine ⟨max z3 M, by omega, ?_, r.take len ++ List.replicate (max z3 M - len) 0,
          q3.drop (max z3 M), ?_, ?_, Buf.of L.pos (r5.take _) rfl (by simp; omega), hq3.drop _⟩
        · have hML2 : M ≤ b + 2 := by omega
          obtain ⟨i, hi⟩ := Nat.exists_eq_add_of_le hML2
          rw [hi, ← List.drop_drop]
          conv_lhs => rw [hk]
          rw [List.drop_left' (by
            rw [List.length_append, List.length_take, List.length_replicate]; omega), List.drop_drop]
        · conv_lhs => rw [hk, hdr]
          rw [← List.append_assoc, List.append_assoc (r.take len), List.replicate_append_replicate]
          congr 3; omega
        · simp; omega
      obtain ⟨z, hz, hdr, hw⟩ := hw
      refine ⟨val B (r.take len), z, hw, hz, ⟨r1, hdr⟩, by omega, ?_, fun t => ?_⟩
      · cases s <;> simp at r3 ⊢ <;> linarith
      · have h := (hS t).2
        unfold evalSafe at h
        simp only [Bool.and_eq_true, Bool.not_eq_true', ← hd1, (g5 t).1.mp rfl, if_true,
          Bool.or_eq_true, decide_eq_true_eq] at h
        obtain ⟨-, h4, h5⟩ := h
        refine ⟨?_, ?_⟩
        · rcases r0 t h4 with h | h
          · simp only [] at h
            rw [show len = 0 by omega, List.take_zero]
            exact canon_nil
          · exact h
        · rintro rfl
          simp at r3
          rcases h5 with h | h
          · omega
          · rw [show val B (r.take len) = val B pinf - v1 by omega]; exact h
    | false =>
      rw [if_neg (by simp), slice_take g1.pre.le, ok_bind]
      obtain ⟨r, len, t1, t2, t3, t4, t5, t6⟩ := addInto_win L (m := b + 1) g1.take_digs pid hq3 hz3
        (by omega) (by rw [g1.take_len]; omega) (by omega) (by rw [g1.take_val]; omega)
      rw [t1, ok_bind]
      refine ⟨_, _, t3, by omega, ⟨t2, by
        rw [show b + 2 = b + 1 + 1 by omega, ← List.drop_drop, t6, List.drop_drop]⟩, t4, ?_, fun t => ⟨t5 (hc1 t) (hS t).1, fun _ => ?_⟩⟩
      · simp [g1.take_val]
      · have h := (hS t).2
        have h0 : ¬ val B p0 + val B pinf < val B m1 := fun hh => by
          have := (g5 t).1.mpr hh
          cases this
        unfold evalSafe at h
        simp only [Bool.and_eq_true, Bool.not_eq_true', ← hd1, h0, if_false] at h
        rw [g1.take_val]
        exact h.2
  rintro ⟨pm2, sg2, len2⟩ ⟨v2, z, i1, iz, ⟨i2, i6⟩, i3, i4, i5⟩
  simp only [] at i1 iz i2 i3 i4 i5 i6 ⊢
  have hv2 : v2 < 3 * B ^ b := by
    rw [g4] at i4
    cases sg2 <;> simp at i4 <;> omega
  have hd2 : v2 = Nat.dist (val B p0 + 2 * val B pinf) (val B m1) := by
    rw [g4] at i4
    unfold Nat.dist
    cases sg2 <;> simp at i4 <;> omega
  obtain ⟨r, c, r', n', j1, j2, j3, j4, j5, j6, j7⟩ := i1.doublePush L (k := b + 1) (by omega) i3 (by omega)
  rw [j1, ok_bind]
  simp only []
  rw [j2, ok_bind]
  simp only []
  have hjd : r'.drop (b + 2) = q3.drop (b + 2) := by
    rw [show b + 2 = b + 1 + 1 by omega, ← List.drop_drop, j7, List.drop_drop]
    exact i6
  have hp0z : p0.length ≤ max z n' := by
    rcases hZ with h | h
    · omega
    · unfold evalFresh at h
      simp only [Bool.and_eq_true, decide_eq_true_eq, ← hd2] at h
      have := len_le_of_size hB2 p0d p0c j4 h.2
      omega
  refine Sp.bind (P := fun res => ∃ m z, Win B res.1 res.2.2 z m ∧
    (res.1.length = q3.length ∧ res.1.drop (b + 2) = q3.drop (b + 2)) ∧
    res.2.2 ≤ b + 2 ∧ sv res.2.1 m = 2 * sv sg2 v2 - val B p0 ∧
    (T → Canon (res.1.take res.2.2))) ?_ ?_
  · cases sg2 with
    | true =>
      rw [if_pos rfl]
      rw [← p0l]
      obtain ⟨buf1, c1, buf', n'', t1, t2, t3, t4, t5, t6, t7⟩ := j4.addPush L (k := b + 1) p0d
        (by omega) j5 (by omega) hp0z (by omega)
      rw [t1, ok_bind]
      simp only []
      rw [t2, ok_bind]
      refine ⟨_, _, t4, ⟨by simp only []; omega, by
        simp only []
        rw [← hjd, show b + 2 = b + 1 + 1 by omega, ← List.drop_drop, t7, List.drop_drop]⟩,
        by simp only []; omega, ?_,
        fun t => t6 (j6 (i5 t).1) p0c⟩
      simp
      ring
    | false =>
      rw [if_neg (by simp)]
      refine (subAssignBigAbsSign_win (T := T) L j4 p0d hp0z
        (fun t => ⟨j6 (i5 t).1, p0c⟩)).mono ?_
      rintro ⟨r2, s2, n2⟩ ⟨v3, t1, t2, t3, t4, t5, t6⟩
      simp only [] at t1 t2 t3 t4 t5 ⊢
      refine ⟨v3, _, t1, ⟨by omega, by
        obtain ⟨i, hi⟩ := Nat.exists_eq_add_of_le (show max z n' ≤ b + 2 by omega)
        rw [← hjd, hi, ← List.drop_drop, t6, List.drop_drop]⟩, by omega, ?_, fun t => (t5 t).2 ((i5 t).2 rfl)⟩
      rw [t4]; simp
  rintro ⟨pm2', sg2', len2'⟩ ⟨v3, z', w1, ⟨w2, w6⟩, w3, w4, w5⟩
  simp only [] at w1 w2 w3 w4 w5 w6 ⊢
  refine ⟨val B p0, val B m1, val B pinf, v1, v3, ⟨hv, ha0, ha1, ha2, ⟨p0d, p0c, rfl⟩, p0b, pid,
    rfl, pil, ?_, f2, f4, g1.pre, ?_, by simp only []; omega, hlen1, w1.pre, ?_, w2,
    w3, w6, fun t => (hS t).1, fun t => f5 (e5 p0c (hS t).1) m1c, hc1, w5⟩⟩
  · rw [show val B p0 + val B m1 + val B pinf = val B p0 + val B pinf + val B m1 by ring]
    exact f3.pre
  · simp only []; rw [g4]; push_cast; ring
  · simp only []; rw [w4, i4, g4]; push_cast; ring

/-- The products `r0` and `r4`, interpolation and recomposition, if the result buffer is clear up to
`n` only. -/
theorem toom_end_win (L : Lawful D B) {T : Prop}
    {f0 f4 : List Nat → List Nat → R (List Nat × List Nat × Nat)}
    {b n k wk nd0 nd4 lenR1 lenRm1 lenRm2 c0 c1 c2 c3 c4 v1 w1 w2 V : Nat} {s1 s2 : Bool}
    {r1 rm1 rm2 newWork result work tl : List Nat} (htl : Digs B tl)
    (hf0 : ∀ w, Digs B w → wk ≤ w.length →
      Sp (fun p => p = .unwrap ∧ ¬ T) (f0 (List.replicate (4 * b) 0) w)
        (MulPost B nd0 c0 (List.replicate (4 * b) 0) w))
    (hf4 : ∀ w, Digs B w → wk ≤ w.length →
      Sp (fun p => p = .unwrap ∧ ¬ T) (f4 (List.replicate (n - 4 * b) 0 ++ tl) w)
        (MulPost B nd4 c4 (List.replicate (n - 4 * b) 0 ++ tl) w))
    (hnd4 : nd4 ≤ n - 4 * b)
    (hw : Digs B newWork) (hwk : wk ≤ newWork.length)
    (h1 : Pre B r1 lenR1 v1) (h1' : s1 = true → Buf B r1 lenR1 v1)
    (hm1 : Buf B rm1 lenRm1 w1) (hcm1 : Canon (rm1.take lenRm1)) (hm2 : Buf B rm2 lenRm2 w2)
    (e1 : v1 = c0 + c1 + c2 + c3 + c4) (e2 : sv s1 w1 = (c0 : ℤ) - c1 + c2 - c3 + c4)
    (e3 : sv s2 w2 = (c0 : ℤ) - 2 * c1 + 4 * c2 - 8 * c3 + 16 * c4)
    (hS : 2 * (c0 + c1 + c2 + c3 + c4) < B ^ k) (hk1 : k ≤ r1.length) (hk2 : k ≤ rm1.length)
    (hk3 : k ≤ rm2.length) (hl1 : lenR1 ≤ rm2.length)
    (hV : V = c0 + B ^ b * c1 + B ^ (2 * b) * c2 + B ^ (3 * b) * c3 + B ^ (4 * b) * c4)
    (hVn : V < B ^ n) (hk : 2 * b + k ≤ n)
    (hb1 : 1 ≤ b) (h4 : 4 * b ≤ n)
    (hlen : result.length = n + tl.length) (hres : result.drop n = tl)
    (hwlen : r1.length + rm1.length + rm2.length + newWork.length = work.length)
    (hT : T → Canon (r1.take lenR1) ∧ Canon (rm2.take lenRm2) ∧
      (s1 = false → near 1 B w1 c0 = false)) :
    Sp (fun p => p = .unwrap ∧ ¬ T) (do
      let (r0, r4) ← splitAtR (List.replicate n 0 ++ tl)
        (min (4 * b) (List.replicate n 0 ++ tl).length)
      let (r0, newWork, lenR0) ← f0 r0 newWork
      let (r4, newWork, lenR4) ← f4 r4 newWork
      let (r1, lenR1, r2, lenR2, r3, lenR3) ← toomInterp D (← slice r0 0 lenR0) (← slice r4 0 lenR4)
        r1 lenR1 rm1 lenRm1 s1 rm2 lenRm2 s2
      let result ← toomRecompose D b (r0 ++ r4) r1 lenR1 r2 lenR2 r3 lenR3
      return (result, r1 ++ r2 ++ r3 ++ newWork, ← dropLeadingZeros result n))
      (MulPost B n V result work) := by
  have hB := L.pos
  have hsplit : splitAtR (List.replicate n 0 ++ tl) (min (4 * b) (List.replicate n 0 ++ tl).length)
      = .ok (List.replicate (4 * b) 0, List.replicate (n - 4 * b) 0 ++ tl) := by
    rw [Nat.min_eq_left (by simp; omega), splitAtR_ok (by simp; omega),
      List.take_append_of_le_length (by simpa using h4),
      List.drop_append_of_le_length (by simpa using h4), List.take_replicate, List.drop_replicate,
      Nat.min_eq_left h4]
  rw [hsplit, ok_bind]
  simp only []
  refine Sp.bind (hf0 _ hw hwk) ?_
  rintro ⟨r0, w0, lenR0⟩ m0
  have m0b := m0.buf hB
  have m0l := m0.len
  have m0w := m0.wlen
  have m0d : Digs B w0 := m0.wdigs
  have m0r := m0.rep
  simp only [List.length_replicate] at m0b m0l m0w m0r ⊢
  refine Sp.bind (hf4 _ m0d (by omega)) ?_
  rintro ⟨r4, w4, lenR4⟩ m4
  have m4l := m4.len
  have m4w := m4.wlen
  have m4d : Digs B w4 := m4.wdigs
  have m4r := m4.rep
  have m4g := m4.digs hB (by simp [digs_replicate hB, htl])
  have m4n := m4.le
  have m4ll := m4.lt_len
  have m4t := m4.tail
  simp only [List.length_append, List.length_replicate] at m4l m4w m4r m4g m4n m4ll m4t ⊢
  rw [slice_take m0b.le, ok_bind, slice_take m4ll, ok_bind]
  -- what is left behind the product `r4`
  have hsplit4 : ∃ t', Tail tl t' ∧ r4 = r4.take lenR4 ++ List.replicate (n - 4 * b - lenR4) 0 ++ t' := by
    rw [List.drop_append_of_le_length (by simp; omega), List.drop_replicate] at m4t
    have ha := m4t.take (n - 4 * b - lenR4)
    have hb := m4t.drop (n - 4 * b - lenR4)
    rw [List.take_left' (by simp)] at ha
    rw [List.drop_left' (by simp)] at hb
    refine ⟨_, hb, ?_⟩
    rw [List.append_assoc, ← ha.of_zeros, List.take_append_drop, List.take_append_drop]
  obtain ⟨t', ht', hr4⟩ := hsplit4
  have htl' := ht'.length
  have ht'd : Digs B t' := ht'.digs hB htl
  have hr4v : val B r4 = c4 + B ^ (n - 4 * b) * val B t' := by
    rw [hr4, val_append, val_append_zeros, m4r.val_eq, List.length_append, List.length_take,
      List.length_replicate]
    congr 3; omega
  have hi := toomInterp_spec L (r0 := r0.take lenR0) (r4 := r4.take lenR4) (k := k) m0r m4r
    h1 h1' hm1 hcm1 hm2 e1 e2 e3 hS hk1 hk2 hk3 hl1 hT
  refine Sp.bind hi ?_
  rintro ⟨r1', l1, r2', l2, r3', l3⟩ hp
  have p1 := hp.r1
  have p2 := hp.l1
  have p3 := hp.n1
  have p4 := hp.r2
  have p5 := hp.l2
  have p6 := hp.n2
  have p7 := hp.c2
  have p8 := hp.r3
  have p9 := hp.l3
  have p10 := hp.n3
  clear hp hi
  simp only [] at p1 p2 p3 p4 p5 p6 p7 p8 p9 p10 ⊢
  have hrl : (r0 ++ r4).length = n + tl.length := by rw [List.length_append]; omega
  have hrv : val B (r0 ++ r4) = c0 + B ^ (4 * b) * (c4 + B ^ (n - 4 * b) * val B t') := by
    rw [val_append, m0b.val_eq, hr4v, m0l]
  have hrd : Digs B (r0 ++ r4) := by simp [m0b.digs, m4g]
  have hpow : B ^ (4 * b) * B ^ (n - 4 * b) = B ^ n := by
    rw [← pow_add]; congr 1; omega
  have hVt : c0 + B ^ b * c1 + B ^ (2 * b) * c2 + B ^ (3 * b) * c3
      + B ^ (4 * b) * (c4 + B ^ (n - 4 * b) * val B t') = V + B ^ n * val B t' := by
    rw [hV, Nat.mul_add, ← Nat.mul_assoc, hpow]; ring
  have hVlt : V + B ^ n * val B t' < B ^ (n + tl.length) := by
    have h := val_lt ht'd
    rw [htl'] at h
    rw [pow_add]
    calc V + B ^ n * val B t' < B ^ n + B ^ n * val B t' := by omega
      _ = B ^ n * (val B t' + 1) := by ring
      _ ≤ B ^ n * B ^ tl.length := Nat.mul_le_mul_left _ (by omega)
  refine Sp.bind (toomRecompose_spec L (b := b) (n := n + tl.length) (k := k) (c0 := c0)
    (c4 := c4 + B ^ (n - 4 * b) * val B t') hrd hrv
    (by omega) (by omega) (by rw [hVt]; exact hVlt) p1 p3 p4 p6 (fun h => p7 (by omega)) p8 p10
    (fun _ => by omega) hb1).sp ?_
  intro res ⟨q1, q2, q3⟩
  rw [hVt] at q3
  have hres' : res.length = n + tl.length := by omega
  -- the front of the result and the rest
  have hf1 := val_take_add_drop B res n (by omega)
  have hf2 := val_lt (q2.take n)
  rw [List.length_take, Nat.min_eq_left (by omega)] at hf2
  have hP : 0 < B ^ n := Nat.pow_pos hB
  have hff : val B (res.take n) = V ∧ val B (res.drop n) = val B t' := by
    rw [q3] at hf1
    have g1 : (val B (res.take n) + B ^ n * val B (res.drop n)) % B ^ n = val B (res.take n) := by
      rw [Nat.add_mul_mod_self_left, Nat.mod_eq_of_lt hf2]
    have g2 : (V + B ^ n * val B t') % B ^ n = V := by
      rw [Nat.add_mul_mod_self_left, Nat.mod_eq_of_lt hVn]
    have g3 : val B (res.take n) = V := by
      rw [← g1, ← g2]
      rw [hf1]
    refine ⟨g3, ?_⟩
    rw [g3] at hf1
    exact Nat.eq_of_mul_eq_mul_left hP (by omega)
  have hdropn : res.drop n = t' := val_inj (q2.drop n) ht'd
    (by rw [List.length_drop]; omega) hff.2
  obtain ⟨nd, d1, d2, d3, d4⟩ := dropLeadingZeros_spec res n (by omega)
  rw [d1, ok_bind]
  have hv2 : val B (res.take nd) = V := by
    have := hff.1
    rw [d3, val_append_zeros] at this
    exact this
  have hdrop : res.drop nd = List.replicate (n - nd) 0 ++ t' := by
    conv_lhs => rw [← List.take_append_drop n res, hdropn, d3]
    rw [List.append_assoc, List.drop_left' (by rw [List.length_take]; omega)]
  refine ⟨⟨q2.take nd, d4, hv2⟩, d2, by simp only []; omega, by simp only []; omega, ?_, ?_, ?_⟩
  · simp only []
    rw [hdrop]
    exact Tail.front (by rw [hres]; exact ht') d2 (by omega)
  · simp; omega
  · simp [p1.digs, p4.digs, p8.digs, m4d]

set_option maxHeartbeats 1000000 in
/-- Toom-Cook squaring in buffers that need not be clear. `clr` and `wclr` say whether the buffer for
the result and the work space are clear, `Q c v` is what is needed of `v` for its square to be right
in a buffer that is clear if `c` holds. -/
theorem squareToom3Into_win {dbg : Bool} (L : Lawful D B) {T U : Prop} {square : SquareFn}
    {x result work : List Nat} {clr wclr : Bool} {Q : Bool → Nat → Prop}
    (hx : Digs B x) (hr : Digs B result) (hw : Digs B work)
    (hcut : 128 ≤ x.length) (hlen : 2 * x.length ≤ result.length)
    (hwork : toom3WorkSize x.length ≤ work.length)
    (hclr : clr = true → result.take (2 * x.length) = List.replicate (2 * x.length) 0)
    (hwclr : wclr = true →
      work.take (6 * ((x.length + 2) / 3) + 10) = List.replicate (6 * ((x.length + 2) / 3) + 10) 0)
    (hT : T → MulP B x x) (hTU : T → U)
    (hU : U → Canon x ∧ ∀ a0 a1 a2, val B x = a0 + B ^ ((x.length + 2) / 3) * a1
        + B ^ (2 * ((x.length + 2) / 3)) * a2 → a0 < B ^ ((x.length + 2) / 3) →
        a1 < B ^ ((x.length + 2) / 3) → evalSafe B a0 a1 a2 = true)
    (hF : clr = true ∨ ∀ a0 a1 a2, val B x = a0 + B ^ ((x.length + 2) / 3) * a1
        + B ^ (2 * ((x.length + 2) / 3)) * a2 → a0 < B ^ ((x.length + 2) / 3) →
        a1 < B ^ ((x.length + 2) / 3) → evalFresh B a0 a1 a2 = true)
    (hQ : ∀ a0 a1 a2, val B x = a0 + B ^ ((x.length + 2) / 3) * a1
        + B ^ (2 * ((x.length + 2) / 3)) * a2 → a0 < B ^ ((x.length + 2) / 3) →
        a1 < B ^ ((x.length + 2) / 3) → Q true a0 ∧ Q wclr (a0 + a1 + a2) ∧
        Q wclr (Nat.dist (a0 + a2) a1) ∧ Q wclr (Nat.dist (a0 + 4 * a2) (2 * a1)) ∧ Q true a2)
    (hsq : ∀ (a product work : List Nat) (c : Bool), Digs B a → Digs B product → Digs B work →
      a.length ≤ (x.length + 2) / 3 + 2 → 2 * a.length ≤ product.length →
      toom3WorkSize ((x.length + 2) / 3 + 2) ≤ work.length →
      (c = true → product.take (2 * a.length) = List.replicate (2 * a.length) 0) → Q c (val B a) →
      (U → Canon a) → (T → ∃ d, mulSafe B d (val B a) (val B a) = true) →
      Sp (fun p => p = .unwrap ∧ ¬ T) (square a product work)
        (MulPost B (2 * a.length) (val B a * val B a) product work)) :
    Sp (fun p => p = .unwrap ∧ ¬ T) (squareToom3Into D dbg square x result work)
      (MulPost B (2 * x.length) (val B x * val B x) result work) := by
  have hB := L.pos
  have hws := toom3WorkSize_eq x.length
  rw [if_pos hcut] at hws
  unfold squareToom3Into
  simp only []
  refine Sp.bind_eq (a := ()) (by simp [assertR]; omega) ?_
  refine Sp.bind_eq (a := ()) (by simp [assertR, hwork]) ?_
  rw [hws] at hwork
  clear hws
  generalize hbdef : (x.length + 2) / 3 = b at *
  generalize hwsdef : toom3WorkSize (b + 2) = ws at *
  clear hwsdef
  have hx3 : x.length ≤ 3 * b := by omega
  have hn3 : 6 * b ≤ 2 * x.length + 4 := by omega
  have hb40 : 40 ≤ b := by omega
  have hM := fun t (x0 x1 x2 y0 y1 y2 : Nat) => (hT t).toom (s := b) (x0 := x0) (x1 := x1)
    (x2 := x2) (y0 := y0) (y1 := y1) (y2 := y2) (by have := L.base; omega) hx hx hcut hcut (by omega)
  clear hbdef hcut hT
  rw [splitAtR_ok (by omega), ok_bind]
  simp only []
  rw [splitAtR_ok (by rw [List.length_drop]; omega), ok_bind]
  simp only []
  rw [splitAtR_ok (by omega), ok_bind]
  simp only []
  have hwl6 : (work.take (6 * b + 10)).length = 6 * b + 10 := by rw [List.length_take]; omega
  have hwd6 : Digs B (work.take (6 * b + 10)) := hw.take _
  have hwdd : Digs B (work.drop (6 * b + 10)) := hw.drop _
  have hwld : (work.drop (6 * b + 10)).length = work.length - (6 * b + 10) := by
    rw [List.length_drop]
  generalize hwk6 : work.take (6 * b + 10) = wk at *
  generalize work.drop (6 * b + 10) = w0 at *
  rw [splitAtR_ok (by omega), ok_bind]
  simp only []
  have hl1 : (wk.take (2 * b + 3)).length = 2 * b + 3 := by rw [List.length_take]; omega
  have hl1' : (wk.drop (2 * b + 3)).length = 4 * b + 7 := by rw [List.length_drop]; omega
  rw [splitAtR_ok (by omega), ok_bind]
  simp only []
  have hl2 : ((wk.drop (2 * b + 3)).take (2 * b + 3)).length = 2 * b + 3 := by
    rw [List.length_take]; omega
  have hl3 : ((wk.drop (2 * b + 3)).drop (2 * b + 3)).length = 2 * b + 4 := by
    rw [List.length_drop]; omega
  have pr1 : wclr = true → wk.take (2 * b + 3) = List.replicate (2 * b + 3) 0 := fun h => by
    rw [hwclr h, List.take_replicate]; congr 1; omega
  have pr2 : wclr = true →
      (wk.drop (2 * b + 3)).take (2 * b + 3) = List.replicate (2 * b + 3) 0 := fun h => by
    rw [hwclr h, List.drop_replicate, List.take_replicate]; congr 1; omega
  have pr3 : wclr = true →
      (wk.drop (2 * b + 3)).drop (2 * b + 3) = List.replicate (2 * b + 4) 0 := fun h => by
    rw [hwclr h, List.drop_replicate, List.drop_replicate]; congr 1; omega
  have dg1 : Digs B (wk.take (2 * b + 3)) := hwd6.take _
  have dg2 : Digs B ((wk.drop (2 * b + 3)).take (2 * b + 3)) := (hwd6.drop _).take _
  have dg3 : Digs B ((wk.drop (2 * b + 3)).drop (2 * b + 3)) := (hwd6.drop _).drop _
  generalize wk.take (2 * b + 3) = b1 at *
  generalize (wk.drop (2 * b + 3)).take (2 * b + 3) = b2 at *
  generalize (wk.drop (2 * b + 3)).drop (2 * b + 3) = b3 at *
  clear hwclr hl1' hwk6
  -- the buffers for the values
  have ql1 : (result.take (b + 1)).length = b + 1 := by rw [List.length_take]; omega
  have ql2 : ((result.drop (b + 1)).take (b + 1)).length = b + 1 := by
    rw [List.length_take, List.length_drop]; omega
  have ql3 : ((result.drop (b + 1)).drop (b + 1)).length = result.length - (2 * b + 2) := by
    rw [List.length_drop, List.length_drop]; omega
  have qd1 : Digs B (result.take (b + 1)) := hr.take _
  have qd2 : Digs B ((result.drop (b + 1)).take (b + 1)) := (hr.drop _).take _
  have qd3 : Digs B ((result.drop (b + 1)).drop (b + 1)) := (hr.drop _).drop _
  have qz : clr = true →
      ((result.drop (b + 1)).take (b + 1)).take (b + 1) = List.replicate (b + 1) 0 ∧
      ((result.drop (b + 1)).drop (b + 1)).take (b + 2) = List.replicate (b + 2) 0 := fun h => by
    have e := hclr h
    have e1 : (result.drop (b + 1)).take (b + 1) = List.replicate (b + 1) 0 := by
      have := congrArg (fun l => (l.drop (b + 1)).take (b + 1)) e
      simp only [List.drop_take, List.take_take, List.drop_replicate, List.take_replicate] at this
      rw [Nat.min_eq_left (by omega)] at this
      rw [this]
    have e2 : (result.drop (2 * b + 2)).take (b + 2) = List.replicate (b + 2) 0 := by
      have := congrArg (fun l => (l.drop (2 * b + 2)).take (b + 2)) e
      simp only [List.drop_take, List.take_take, List.drop_replicate, List.take_replicate] at this
      rw [Nat.min_eq_left (by omega)] at this
      rw [this]
    refine ⟨by rw [List.take_take, Nat.min_self]; exact e1, ?_⟩
    rw [List.drop_drop, show b + 1 + (b + 1) = 2 * b + 2 by omega]
    exact e2
  have qdrop : ((result.drop (b + 1)).drop (b + 1)).drop (2 * x.length - (2 * b + 2))
      = result.drop (2 * x.length) := by
    rw [List.drop_drop, List.drop_drop]; congr 1; omega
  generalize result.take (b + 1) = q1 at *
  generalize (result.drop (b + 1)).take (b + 1) = q2 at *
  generalize (result.drop (b + 1)).drop (b + 1) = q3 at *
  clear hclr
  refine Sp.bind ((toomEval_win (T := U) (clr := clr) L (b := b) hx hx3 qd1 qd2 qd3 (by omega)
    (by omega) (by omega) qz hF hU).weaken fun _ h => ⟨h.1, fun t => h.2 (hTU t)⟩) ?_
  rintro p ⟨p0, p1, p2, pm1, pm2, hp⟩
  replace hM := fun t => (hM t _ _ _ _ _ _ hp.v hp.v hp.b0 hp.b0 hp.b1 hp.b1).2.2.2.2
  replace hQ := hQ _ _ _ hp.v hp.b0 hp.b1
  rw [← hp.dist1, ← hp.dist2] at hM
  rw [← hp.dist1, ← hp.dist2] at hQ
  obtain ⟨hQ0, hQ1, hQm1, hQm2, hQ4⟩ := hQ
  have hp1l := hp.lenP1
  have hpm1l := hp.lenPm1
  have hpm2l := hp.lenPm2
  have hp1k := hp.p1len
  have hpm1k := hp.pm1len
  have hpm2k := hp.pm2len
  have hz : ∀ {c : Bool} {l : List Nat} {k j : Nat}, (c = true → l = List.replicate k 0) → j ≤ k →
      (c = true → l.take j = List.replicate j 0) := fun h hj hc => by
    rw [h hc, List.take_replicate, Nat.min_eq_left hj]
  -- r(1)
  rw [slice_take hp.p1.le, ok_bind]
  refine Sp.bind (hsq _ b1 _ wclr (hp.p1.digs.take _) dg1 hwdd
    (by rw [hp.p1.take_len]; omega) (by rw [hp.p1.take_len]; omega) (by omega)
    (by rw [hp.p1.take_len]; exact hz pr1 (by omega)) (by rw [hp.p1.take_val]; exact hQ1)
    hp.c1 (fun t => ?_)) ?_
  · obtain ⟨-, d, -, h, -⟩ := hM t
    exact ⟨d, by rw [hp.p1.take_val]; exact h⟩
  rintro ⟨r1, w1, lenR1⟩ m1
  have m1b : Pre B r1 lenR1 (val B (p.p1.take p.lenP1) * val B (p.p1.take p.lenP1)) :=
    ⟨m1.digs hB dg1, m1.lt_len, m1.rep.val_eq⟩
  have m1l := m1.len
  have m1w := m1.wlen
  have m1d : Digs B w1 := m1.wdigs
  have m1n := m1.le
  have m1c := m1.rep.canon
  rw [hp.p1.take_val] at m1b
  rw [hp.p1.take_len] at m1n
  simp only [] at m1b m1l m1w m1n m1c ⊢
  clear m1
  -- r(-1)
  rw [slice_take hp.pm1.le, ok_bind]
  refine Sp.bind (hsq _ b2 _ wclr (hp.pm1.digs.take _) dg2 m1d
    (by rw [hp.pm1.take_len]; omega) (by rw [hp.pm1.take_len]; omega) (by omega)
    (by rw [hp.pm1.take_len]; exact hz pr2 (by omega)) (by rw [hp.pm1.take_val]; exact hQm1)
    hp.cm1 (fun t => ?_)) ?_
  · obtain ⟨-, d, -, -, h, -⟩ := hM t
    exact ⟨d, by rw [hp.pm1.take_val]; exact h⟩
  rintro ⟨rm1, w2, lenRm1⟩ m2
  obtain ⟨rm1', fe1, fb1, fl1, fc1⟩ := m2.fill hB
  have m2w := m2.wlen
  have m2d : Digs B w2 := m2.wdigs
  rw [hp.pm1.take_val] at fb1
  simp only [] at fe1 fb1 fl1 fc1 m2w ⊢
  rw [fe1, ok_bind]
  simp only []
  clear m2 fe1
  -- r(-2)
  rw [slice_take hp.pm2.le, ok_bind]
  refine Sp.bind (hsq _ b3 _ wclr (hp.pm2.digs.take _) dg3 m2d
    (by rw [hp.pm2.take_len]; omega) (by rw [hp.pm2.take_len]; omega) (by omega)
    (by rw [hp.pm2.take_len]; exact hz pr3 (by omega)) (by rw [hp.pm2.take_val]; exact hQm2)
    hp.cm2 (fun t => ?_)) ?_
  · obtain ⟨-, d, -, -, -, h, -⟩ := hM t
    exact ⟨d, by rw [hp.pm2.take_val]; exact h⟩
  rintro ⟨rm2, w3, lenRm2⟩ m3
  obtain ⟨rm2', fe2, fb2, fl2, fc2⟩ := m3.fill hB
  have m3w := m3.wlen
  have m3d : Digs B w3 := m3.wdigs
  rw [hp.pm2.take_val] at fb2
  simp only [] at fe2 fb2 fl2 fc2 m3w ⊢
  rw [fe2, ok_bind]
  simp only []
  clear m3 fe2
  -- clear the result
  rw [onSlice_fill (by simp only [List.length_append]; omega), ok_bind]
  simp only []
  have hdrop : (p.p1 ++ p.pm1 ++ p.pm2).drop (2 * x.length) = result.drop (2 * x.length) := by
    rw [List.drop_append, List.drop_eq_nil_of_le (by rw [List.length_append]; omega),
      List.nil_append, ← qdrop, List.length_append, hp1k, hpm1k, ql1, ql2]
    obtain ⟨i, hi⟩ := Nat.exists_eq_add_of_le (show b + 2 ≤ 2 * x.length - (2 * b + 2) by omega)
    rw [show 2 * x.length - (b + 1 + (b + 1)) = b + 2 + i by omega, hi, ← List.drop_drop,
      hp.pm2drop, List.drop_drop]
  rw [hdrop]
  simp only [toomSquareInterp_eq]
  clear hdrop
  have hp0 := hp.p0
  have hp0l := hp.p0len
  have hpil := hp.pinflen
  have hpi := hp.pinfv
  have hpid := hp.pinf
  have hV : val B x * val B x = p0 * p0 + B ^ b * (p0 * p1 + p1 * p0)
      + B ^ (2 * b) * (p0 * p2 + p1 * p1 + p2 * p0) + B ^ (3 * b) * (p1 * p2 + p2 * p1)
      + B ^ (4 * b) * (p2 * p2) := by
    rw [hp.v, show 2 * b = b + b by ring, show 3 * b = b + b + b by ring,
      show 4 * b = b + b + b + b by ring]
    simp only [pow_add]
    ring
  have hbounds := toom_bounds L.base hp.b0 hp.b1 hp.b2 hp.b0 hp.b1 hp.b2
  have hpm1v := hp.pm1v
  have hpm2v := hp.pm2v
  have hVn : val B x * val B x < B ^ (2 * x.length) := by
    rw [two_mul, pow_add]; exact Nat.mul_lt_mul'' (val_lt hx) (val_lt hx)
  have hsv : ∀ (s : Bool) (m : Nat), sv false (m * m) = sv s m * sv s m := by
    intro s m
    rw [← sv_mul, Bool.xor_self]
  have hci := hp.cinf
  clear hp
  refine toom_end_win L (f0 := square p.p0) (f4 := square p.pinf) (b := b)
    (n := 2 * x.length) (k := 2 * b + 1) (wk := ws) (tl := result.drop (2 * x.length))
    (nd0 := 2 * p.p0.length) (nd4 := 2 * p.pinf.length)
    (c0 := p0 * p0) (c4 := p2 * p2) (work := work) (result := result) (hr.drop _)
    ?_ ?_ (by omega) m3d (by omega) m1b (fun h => by simp at h) fb1 fc1 fb2 ?_ ?_ ?_ hbounds (by omega)
    (by omega) (by omega) (by omega) hV hVn (by omega) (by omega) (by omega)
    (by rw [List.length_drop]; omega) rfl (by omega) (fun t => ⟨m1c, fc2, fun _ => (hM t).1 rfl⟩)
  · intro w hwd hwl
    have := hsq p.p0 (List.replicate (4 * b) 0) w true hp0.digs
      (digs_replicate hB) hwd (by omega) (by rw [List.length_replicate]; omega) hwl
      (fun _ => by rw [List.take_replicate]; congr 1; omega) (by rw [hp0.val_eq]; exact hQ0)
      (fun _ => hp0.canon) (fun t => by
        obtain ⟨-, d, h, -⟩ := hM t
        exact ⟨d, by rw [hp0.val_eq]; exact h⟩)
    rw [hp0.val_eq] at this
    exact this
  · intro w hwd hwl
    have := hsq p.pinf (List.replicate (2 * x.length - 4 * b) 0 ++ result.drop (2 * x.length)) w true
      hpid (by simp [digs_replicate hB, hr.drop]) hwd (by omega)
      (by rw [List.length_append, List.length_replicate]; omega) hwl
      (fun _ => by
        rw [List.take_append_of_le_length (by simp; omega), List.take_replicate]; congr 1; omega)
      (by rw [hpi]; exact hQ4) hci (fun t => by
        obtain ⟨-, d, -, -, -, -, h⟩ := hM t
        exact ⟨d, by rw [hpi]; exact h⟩)
    rw [hpi] at this
    exact this
  · ring
  · rw [hsv p.signPm1, hpm1v]; push_cast; ring
  · rw [hsv p.signPm2, hpm2v]; push_cast; ring

end Babs
