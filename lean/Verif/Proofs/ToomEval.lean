import Verif.Proofs.BufOps

/-!
# Helper lemmas: the evaluation step of Toom-Cook multiplication
-/

namespace Babs

variable {D : DigitOps} {B : Nat}

/-- The three parts of an operand. -/
theorem toom_split {x : List Nat} (hx : Digs B x) {b : Nat} (hb : x.length ≤ 3 * b) :
    ∃ l0 p0 l1 m1 pinf, dropLeadingZeros x (min b x.length) = .ok l0 ∧
      slice x 0 l0 = .ok p0 ∧
      slice x (min b x.length) x.length = .ok (x.drop (min b x.length)) ∧
      dropLeadingZeros (x.drop (min b x.length)) (min b (x.length - min b x.length)) = .ok l1 ∧
      slice x (min b x.length) (min b x.length + l1) = .ok m1 ∧
      slice x (min (2 * b) x.length) x.length = .ok pinf ∧
      p0.length = l0 ∧ Digs B p0 ∧ Canon p0 ∧ p0.length ≤ b ∧
      Digs B m1 ∧ Canon m1 ∧ m1.length ≤ b ∧
      Digs B pinf ∧ pinf.length = x.length - min (2 * b) x.length ∧ (Canon x → Canon pinf) ∧
      val B x = val B p0 + B ^ b * val B m1 + B ^ (2 * b) * val B pinf := by
  obtain ⟨l0, e1, e2, e3, e4⟩ := dropLeadingZeros_spec x (min b x.length) (by omega)
  have hl : (x.drop (min b x.length)).length = x.length - min b x.length := by simp
  obtain ⟨l1, f1, f2, f3, f4⟩ := dropLeadingZeros_spec (x.drop (min b x.length))
    (min b (x.length - min b x.length)) (by omega)
  refine ⟨l0, x.take l0, l1, (x.drop (min b x.length)).take l1, x.drop (min (2 * b) x.length),
    e1, slice_take (by omega), ?_, f1, ?_, ?_, by simp; omega, hx.take _, e4,
    by simp; omega, (hx.drop _).take _, f4, by simp; omega, hx.drop _, by simp, ?_, ?_⟩
  · rw [slice_ok (by omega) (le_refl _), List.take_length]
  · rw [slice_ok (by omega) (by omega), List.drop_take]; congr 2; omega
  · rw [slice_ok (by omega) (le_refl _), List.take_length]
  · intro hc
    by_cases hne : x.drop (min (2 * b) x.length) = []
    · rw [hne]; exact canon_nil
    · rw [← List.take_append_drop (min (2 * b) x.length) x, canon_append_of hne] at hc
      exact hc
  · have h1 := val_take_add_drop B x (min b x.length) (by omega)
    have h2 := val_take_add_drop B (x.drop (min b x.length)) (min b (x.length - min b x.length))
      (by omega)
    rw [List.drop_drop] at h2
    rw [f3] at h2
    rw [e3] at h1
    rw [val_append_zeros] at h1 h2
    rw [← h1, ← h2]
    by_cases c1 : x.length ≤ b
    · have d1 : (x.drop (min b x.length)) = [] := by simp; omega
      have d2 : (x.drop (min b x.length + min b (x.length - min b x.length))) = [] := by simp; omega
      have d3 : (x.drop (min (2 * b) x.length)) = [] := by simp; omega
      rw [d1, d2, d3]; simp
    · rw [Nat.min_eq_left (by omega : b ≤ x.length)]
      by_cases c2 : x.length ≤ 2 * b
      · have d2 : (x.drop (b + min b (x.length - b))) = [] := by simp; omega
        have d3 : (x.drop (min (2 * b) x.length)) = [] := by simp; omega
        rw [d2, d3]; simp
      · rw [Nat.min_eq_left (by omega : b ≤ x.length - b),
          Nat.min_eq_left (by omega : 2 * b ≤ x.length), two_mul, pow_add]
        ring

/-- What evaluation of an operand at 1, -1 and -2 gives.  `T` says that there must be no panic. -/
structure EvalPost (B : Nat) (T : Prop) (b : Nat) (x : List Nat) (k1 k2 k3 a0 a1 a2 m1 m2 : Nat)
    (e : ToomEval) : Prop where
  v : val B x = a0 + B ^ b * a1 + B ^ (2 * b) * a2
  b0 : a0 < B ^ b
  b1 : a1 < B ^ b
  b2 : a2 < B ^ b
  p0 : Rep B e.p0 a0
  p0len : e.p0.length ≤ b
  pinf : Digs B e.pinf
  pinfv : val B e.pinf = a2
  pinflen : e.pinf.length = x.length - min (2 * b) x.length
  p1 : Buf B e.p1 e.lenP1 (a0 + a1 + a2)
  p1len : e.p1.length = k1
  lenP1 : e.lenP1 ≤ b + 1
  pm1 : Buf B e.pm1 e.lenPm1 m1
  pm1v : sv e.signPm1 m1 = (a0 : ℤ) - a1 + a2
  pm1len : e.pm1.length = k2
  lenPm1 : e.lenPm1 ≤ b + 1
  pm2 : Buf B e.pm2 e.lenPm2 m2
  pm2v : sv e.signPm2 m2 = (a0 : ℤ) - 2 * a1 + 4 * a2
  pm2len : e.pm2.length = k3
  lenPm2 : e.lenPm2 ≤ b + 1
  cinf : T → Canon e.pinf
  c1 : T → Canon (e.p1.take e.lenP1)
  cm1 : T → Canon (e.pm1.take e.lenPm1)
  sm1 : T → (e.signPm1 = true ↔ a0 + a2 < a1)
  cm2 : T → Canon (e.pm2.take e.lenPm2)

theorem EvalPost.dist1 {T : Prop} {b : Nat} {x : List Nat} {k1 k2 k3 a0 a1 a2 m1 m2 : Nat}
    {e : ToomEval} (h : EvalPost B T b x k1 k2 k3 a0 a1 a2 m1 m2 e) :
    m1 = Nat.dist (a0 + a2) a1 := by
  have := h.pm1v
  unfold Nat.dist
  cases hs : e.signPm1 <;> rw [hs] at this <;> simp at this <;> omega

theorem EvalPost.dist2 {T : Prop} {b : Nat} {x : List Nat} {k1 k2 k3 a0 a1 a2 m1 m2 : Nat}
    {e : ToomEval} (h : EvalPost B T b x k1 k2 k3 a0 a1 a2 m1 m2 e) :
    m2 = Nat.dist (a0 + 4 * a2) (2 * a1) := by
  have := h.pm2v
  unfold Nat.dist
  cases hs : e.signPm2 <;> rw [hs] at this <;> simp at this <;> omega

theorem toomEval_spec {dbg : Bool} (L : Lawful D B) {T : Prop} {x : List Nat} {b k1 k2 k3 : Nat}
    (hx : Digs B x) (hb : x.length ≤ 3 * b) (h1 : b + 1 ≤ k1) (h2 : b + 1 ≤ k2) (h3 : b + 2 ≤ k3)
    (hT : T → Canon x ∧ ∀ a0 a1 a2, val B x = a0 + B ^ b * a1 + B ^ (2 * b) * a2 → a0 < B ^ b →
      a1 < B ^ b → evalSafe B a0 a1 a2 = true) :
    Sp (fun p => p = .unwrap ∧ ¬ T)
      (toomEval D dbg b x (List.replicate k1 0) (List.replicate k2 0) (List.replicate k3 0))
      (fun e => ∃ a0 a1 a2 m1 m2, EvalPost B T b x k1 k2 k3 a0 a1 a2 m1 m2 e) := by
  have hB := L.base
  obtain ⟨l0, p0, l1, m1, pinf, s1, s2, s3, s4, s5, s6, p0l, p0d, p0c, p0b, m1d, m1c, m1b, pid, pil,
    pic, hv⟩ := toom_split hx hb
  have ha0 : val B p0 < B ^ b :=
    lt_of_lt_of_le (val_lt p0d) (Nat.pow_le_pow_right L.pos p0b)
  have ha1 : val B m1 < B ^ b :=
    lt_of_lt_of_le (val_lt m1d) (Nat.pow_le_pow_right L.pos m1b)
  have pib : pinf.length ≤ b := by omega
  have ha2 : val B pinf < B ^ b :=
    lt_of_lt_of_le (val_lt pid) (Nat.pow_le_pow_right L.pos pib)
  have hp1 : 8 * B ^ b ≤ B ^ (b + 1) := by
    rw [pow_succ, mul_comm]; exact Nat.mul_le_mul_left _ (by omega)
  have hp2 : B ^ (b + 1) ≤ B ^ (b + 2) := Nat.pow_le_pow_right L.pos (by omega)
  unfold toomEval
  simp only []
  rw [s1, ok_bind, s2, ok_bind, s3, ok_bind, s4, ok_bind, s5, ok_bind, s6, ok_bind]
  clear s1 s2 s3 s4 s5 s6
  have hS : T → Canon pinf ∧ evalSafe B (val B p0) (val B m1) (val B pinf) = true := fun t =>
    ⟨pic (hT t).1, (hT t).2 _ _ _ hv ha0 ha1⟩
  clear hT
  -- p0 + pinf
  obtain ⟨q, n, e1, e2, e3, e4, e5⟩ := addInto_buf L (k := k2) (m := b + 1) p0d pid h2 (by omega)
    (by omega) (by omega)
  rw [e1, ok_bind]
  simp only [unwrapR, ok_bind]
  rw [slice_take e3.le, ok_bind]
  -- p(1)
  obtain ⟨q1, n1, f1, f2, f3, f4, f5⟩ := addInto_buf L (k := k1) (m := b + 1) e3.take_digs m1d h1
    (by rw [e3.take_len]; omega) (by omega) (by rw [e3.take_val]; omega)
  rw [e3.take_val] at f3
  rw [f1, ok_bind]
  simp only [ok_bind]
  -- p(-1)
  refine Sp.bind (subAssignBigAbsSign_spec (T := T) L e3 m1d (by omega)
    (fun t => ⟨e5 p0c (hS t).1, m1c⟩)) ?_
  rintro ⟨pm1, sg1, len1⟩ ⟨v1, g1, g2, g3, g4, g5⟩
  simp only [] at g1 g2 g3 g4 g5 ⊢
  have hd1 : v1 = Nat.dist (val B p0 + val B pinf) (val B m1) := by
    unfold Nat.dist
    cases sg1 <;> simp at g4 <;> omega
  have hc1 : T → Canon (pm1.take len1) := fun t => by
    have h := (hS t).2
    unfold evalSafe at h
    simp only [Bool.and_eq_true, Bool.not_eq_true'] at h
    exact (g5 t).2 h.1
  have hv1 : v1 < 2 * B ^ b := by
    cases sg1 <;> simp at g4 <;> omega
  have hlen1 : len1 ≤ b + 1 := by omega
  -- p(-1) + pinf
  refine Sp.bind (P := fun res => ∃ m, Buf B res.1 res.2.2 m ∧ res.1.length = k3 ∧
    res.2.2 ≤ b + 1 ∧ sv res.2.1 m = sv sg1 v1 + val B pinf ∧
    (T → Canon (res.1.take res.2.2) ∧
      (res.2.1 = false → near 1 B (2 * m) (val B p0) = false))) ?_ ?_
  · cases sg1 with
    | true =>
      rw [if_pos rfl, slice_take g1.le, ok_bind]
      refine ((subBigIntoAbsSign_spec L pid g1.take_digs (buf := List.replicate k3 0)
        (by rw [g1.take_len, List.length_replicate]; omega)).weaken
          (fun p hp => ⟨hp.1, fun t => hp.2 ⟨(hS t).1, hc1 t⟩⟩)).mono ?_
      rintro ⟨r, s, len⟩ hr
      have r0 := fun t => hr.canon (hS t).1 (hc1 t) 1
      rw [g1.take_val] at r0
      have r1 := hr.len
      have r2 := hr.le
      have r3 := hr.val_eq
      have r4 := hr.tail
      have r5 := hr.digs (digs_replicate L.pos)
      simp only [List.length_replicate] at r1 r2 r3 r4 r5 ⊢
      rw [List.drop_replicate] at r4
      obtain ⟨k, r6⟩ := r4
      rw [List.append_assoc, List.replicate_append_replicate] at r6
      rw [g1.take_len] at r2
      rw [g1.take_val] at r3
      have hlen : len ≤ r.length := by omega
      refine ⟨val B (r.take len), Buf.of_take r5 hlen rfl r6, r1, by omega, ?_, fun t => ?_⟩
      · cases s <;> simp at r3 ⊢ <;> linarith
      · have h := (hS t).2
        unfold evalSafe at h
        simp only [Bool.and_eq_true, Bool.not_eq_true', ← hd1, (g5 t).1.mp rfl, if_true,
          Bool.or_eq_true, decide_eq_true_eq] at h
        obtain ⟨-, h4, h5⟩ := h
        refine ⟨?_, ?_⟩
        · rcases r0 t h4 with h | h
          · simp only [] at h
            rw [show len = 0 by omega, List.take_zero]
            exact canon_nil
          · exact h
        · rintro rfl
          simp at r3
          rcases h5 with h | h
          · omega
          · rw [show val B (r.take len) = val B pinf - v1 by omega]; exact h
    | false =>
      rw [if_neg (by simp), slice_take g1.le, ok_bind]
      obtain ⟨r, len, t1, t2, t3, t4, t5⟩ := addInto_buf L (k := k3) (m := b + 1) g1.take_digs pid
        (by omega) (by rw [g1.take_len]; omega) (by omega) (by rw [g1.take_val]; omega)
      rw [t1, ok_bind]
      refine ⟨_, t3, t2, t4, ?_, fun t => ⟨t5 (hc1 t) (hS t).1, fun _ => ?_⟩⟩
      · simp [g1.take_val]
      · have h := (hS t).2
        have h0 : ¬ val B p0 + val B pinf < val B m1 := fun hh => by
          have := (g5 t).1.mpr hh
          cases this
        unfold evalSafe at h
        simp only [Bool.and_eq_true, Bool.not_eq_true', ← hd1, h0, if_false] at h
        rw [g1.take_val]
        exact h.2
  rintro ⟨pm2, sg2, len2⟩ ⟨v2, i1, i2, i3, i4, i5⟩
  simp only [] at i1 i2 i3 i4 i5 ⊢
  have hv2 : v2 < 3 * B ^ b := by
    rw [g4] at i4
    cases sg2 <;> simp at i4 <;> omega
  obtain ⟨r, c, r', n', j1, j2, j3, j4, j5, j6⟩ := i1.doublePush L (k := b + 1) (by omega) i3 (by omega)
  rw [j1, ok_bind]
  simp only []
  rw [j2, ok_bind]
  simp only []
  refine Sp.bind (P := fun res => ∃ m, Buf B res.1 res.2.2 m ∧ res.1.length = k3 ∧
    res.2.2 ≤ b + 1 ∧ sv res.2.1 m = 2 * sv sg2 v2 - val B p0 ∧
    (T → Canon (res.1.take res.2.2))) ?_ ?_
  · cases sg2 with
    | true =>
      rw [if_pos rfl]
      rw [← p0l]
      obtain ⟨buf1, c1, buf', n'', t1, t2, t3, t4, t5, t6⟩ := j4.addPush L (k := b + 1) p0d
        (by omega) j5 (by omega) (by omega)
      rw [t1, ok_bind]
      simp only []
      rw [t2, ok_bind]
      refine ⟨_, t4, by simp only []; omega, by simp only []; omega, ?_,
        fun t => t6 (j6 (i5 t).1) p0c⟩
      simp
      ring
    | false =>
      rw [if_neg (by simp)]
      refine (subAssignBigAbsSign_spec (T := T) L j4 p0d (by omega)
        (fun t => ⟨j6 (i5 t).1, p0c⟩)).mono ?_
      rintro ⟨r2, s2, n2⟩ ⟨v3, t1, t2, t3, t4, t5⟩
      simp only [] at t1 t2 t3 t4 t5 ⊢
      refine ⟨v3, t1, by omega, by omega, ?_, fun t => (t5 t).2 ((i5 t).2 rfl)⟩
      rw [t4]; simp
  rintro ⟨pm2', sg2', len2'⟩ ⟨v3, w1, w2, w3, w4, w5⟩
  simp only [] at w1 w2 w3 w4 w5 ⊢
  refine ⟨val B p0, val B m1, val B pinf, v1, v3, ⟨hv, ha0, ha1, ha2, ⟨p0d, p0c, rfl⟩, p0b, pid,
    rfl, pil, ?_, by simpa using f2, f4, g1, ?_, by simp; omega, hlen1, w1, ?_, by simpa using w2,
    w3, fun t => (hS t).1, fun t => f5 (e5 p0c (hS t).1) m1c, hc1, fun t => (g5 t).1, w5⟩⟩
  · rw [show val B p0 + val B m1 + val B pinf = val B p0 + val B pinf + val B m1 by ring]; exact f3
  · simp only []; rw [g4]; push_cast; ring
  · simp only []; rw [w4, i4, g4]; push_cast; ring

end Babs
