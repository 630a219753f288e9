import Verif.Proofs.ToomEvalExact
import Verif.Proofs.ToomInterpExact
import Verif.Proofs.Toom3

/-!
# Helper lemmas: exactly when Toom-Cook multiplication panics
-/

namespace Babs

variable {D : DigitOps} {B : Nat}

theorem EvalEx.pm1v {b : Nat} {x : List Nat} {k1 k2 k3 a0 a1 a2 : Nat} {e : ToomEval}
    (h : EvalEx B b x k1 k2 k3 a0 a1 a2 e) :
    sv e.signPm1 (Nat.dist (a0 + a2) a1) = (a0 : ℤ) - a1 + a2 := by
  rw [h.s1, dist_sv (by by_cases hc : a0 + a2 < a1 <;> simp [hc] <;> omega)]
  push_cast; ring

theorem EvalEx.pm2v {b : Nat} {x : List Nat} {k1 k2 k3 a0 a1 a2 : Nat} {e : ToomEval}
    (h : EvalEx B b x k1 k2 k3 a0 a1 a2 e) :
    sv e.signPm2 (Nat.dist (a0 + 4 * a2) (2 * a1)) = (a0 : ℤ) - 2 * a1 + 4 * a2 := by
  rw [h.s2, dist_sv (by by_cases hc : a0 + 4 * a2 < 2 * a1 <;> simp [hc] <;> omega)]
  push_cast; ring

/-- The three parts of a number. -/
theorem parts_exist (v P : Nat) (hP : 0 < P) : ∃ a0 a1 a2, v = a0 + P * a1 + P * P * a2 ∧ a0 < P ∧
    a1 < P ∧ v % P = a0 ∧ v / P % P = a1 ∧ v / P / P = a2 := by
  refine ⟨v % P, v / P % P, v / P / P, ?_, Nat.mod_lt _ hP, Nat.mod_lt _ hP, rfl, rfl, rfl⟩
  have h1 := Nat.mod_add_div v P
  have h2 := Nat.mod_add_div (v / P) P
  rw [mul_assoc, add_assoc, ← mul_add, h2, h1]

theorem part_high {x : List Nat} {b a0 a1 a2 : Nat} (hB : 0 < B) (hx : Digs B x)
    (hb : x.length ≤ 3 * b) (hv : val B x = a0 + B ^ b * a1 + B ^ (2 * b) * a2) : a2 < B ^ b := by
  have h1 := lt_of_lt_of_le (val_lt hx) (Nat.pow_le_pow_right hB hb)
  by_contra hcon
  have h2 : B ^ (2 * b) * B ^ b ≤ B ^ (2 * b) * a2 := Nat.mul_le_mul_left _ (by omega)
  rw [← pow_add, show 2 * b + b = 3 * b by ring] at h2
  omega

/-- The calls that multiplication makes, and exactly when they panic. -/
def MulExA (B d s w : Nat) (mul : MulFn) : Prop :=
  ∀ a b product work : List Nat, Digs B a → Digs B b → Digs B product → Digs B work →
    a.length ≤ s → b.length ≤ s →
    (a = [] ∨ b = [] ∨ a.length + b.length ≤ product.length) → w ≤ work.length →
    Ex (mulPanics B d a.length (val B a) b.length (val B b) = true) (mul a b product work)
      (MulPost B (a.length + b.length) (val B a * val B b) product work)

theorem mulPanics_toom {d k m j n s p0 p1 p2 q0 q1 q2 : Nat} (hk : 128 ≤ k) (hj : 128 ≤ j)
    (hs : (max k j + 2) / 3 = s) (hp0 : m % B ^ s = p0) (hp1 : m / B ^ s % B ^ s = p1)
    (hp2 : m / B ^ s / B ^ s = p2) (hq0 : n % B ^ s = q0) (hq1 : n / B ^ s % B ^ s = q1)
    (hq2 : n / B ^ s / B ^ s = q2) :
    (evalFails B p0 p1 (k - 2 * s) p2 = true ∨ evalFails B q0 q1 (j - 2 * s) q2 = true ∨
      mulPanics B d (digits1 B p0 p1 (k - 2 * s) p2) (p0 + p1 + p2)
        (digits1 B q0 q1 (j - 2 * s) q2) (q0 + q1 + q2) = true ∨
      mulPanics B d (digitsM1 B p0 p1 (k - 2 * s) p2) (Nat.dist (p0 + p2) p1)
        (digitsM1 B q0 q1 (j - 2 * s) q2) (Nat.dist (q0 + q2) q1) = true ∨
      mulPanics B d (digitsM2 B p0 p1 (k - 2 * s) p2) (Nat.dist (p0 + 4 * p2) (2 * p1))
        (digitsM2 B q0 q1 (j - 2 * s) q2) (Nat.dist (q0 + 4 * q2) (2 * q1)) = true ∨
      mulPanics B d (size B p0) p0 (size B q0) q0 = true ∨
      mulPanics B d (k - 2 * s) p2 (j - 2 * s) q2 = true ∨
      interpFails B (decide (p0 + p2 < p1) ^^ decide (q0 + q2 < q1))
        (decide (p0 + 4 * p2 < 2 * p1) ^^ decide (q0 + 4 * q2 < 2 * q1))
        (p0 * q0) ((p0 + p1 + p2) * (q0 + q1 + q2))
        (Nat.dist (p0 + p2) p1 * Nat.dist (q0 + q2) q1)
        (Nat.dist (p0 + 4 * p2) (2 * p1) * Nat.dist (q0 + 4 * q2) (2 * q1)) = true) ↔
    mulPanics B (d + 1) k m j n = true := by
  subst hs hp0 hp1 hp2 hq0 hq1 hq2
  conv_rhs => unfold mulPanics
  rw [if_pos ⟨hk, hj⟩]
  simp only [Bool.or_eq_true, or_assoc]

/-- The products `r0` and `r4`, interpolation and recomposition. -/
theorem toom_end_exact (L : Lawful D B) {K0 K4 : Prop} {f0 f4 : List Nat → List Nat → R (List Nat × List Nat × Nat)}
    {b n k len wk nd0 nd4 lenR1 lenRm1 lenRm2 c0 c1 c2 c3 c4 v1 w1 w2 V : Nat} {s1 s2 : Bool}
    {r1 rm1 rm2 newWork result work : List Nat}
    (hf0 : ∀ w, Digs B w → wk ≤ w.length →
      Ex K0 (f0 (List.replicate (min (4 * b) len) 0) w)
        (MulPost B nd0 c0 (List.replicate (min (4 * b) len) 0) w))
    (hf4 : ∀ w, Digs B w → wk ≤ w.length →
      Ex K4 (f4 (List.replicate (len - min (4 * b) len) 0) w)
        (MulPost B nd4 c4 (List.replicate (len - min (4 * b) len) 0) w))
    (hw : Digs B newWork) (hwk : wk ≤ newWork.length)
    (h1 : Pre B r1 lenR1 v1) (hc1 : Canon (r1.take lenR1)) (h1' : s1 = true → Buf B r1 lenR1 v1)
    (hm1 : Buf B rm1 lenRm1 w1) (hcm1 : Canon (rm1.take lenRm1)) (hm2 : Buf B rm2 lenRm2 w2)
    (hcm2 : Canon (rm2.take lenRm2))
    (e1 : v1 = c0 + c1 + c2 + c3 + c4) (e2 : sv s1 w1 = (c0 : ℤ) - c1 + c2 - c3 + c4)
    (e3 : sv s2 w2 = (c0 : ℤ) - 2 * c1 + 4 * c2 - 8 * c3 + 16 * c4)
    (hS : 2 * (c0 + c1 + c2 + c3 + c4) < B ^ k) (hk1 : k ≤ r1.length) (hk2 : k ≤ rm1.length)
    (hk3 : k ≤ rm2.length) (hl1 : lenR1 ≤ rm2.length)
    (hV : V = c0 + B ^ b * c1 + B ^ (2 * b) * c2 + B ^ (3 * b) * c3 + B ^ (4 * b) * c4)
    (hVn : V < B ^ n) (hn : n ≤ len) (hb : 3 * b ≤ n) (hk : c4 ≠ 0 → 2 * b + k ≤ n)
    (hb1 : 1 ≤ b) (h4 : 4 * b ≤ len ∨ c4 = 0)
    (hlen : result.length = len)
    (hwlen : r1.length + rm1.length + rm2.length + newWork.length = work.length) :
    Ex (K0 ∨ K4 ∨ interpFails B s1 s2 c0 v1 w1 w2 = true) (do
      let (r0, r4) ← splitAtR (List.replicate len 0) (min (4 * b) len)
      let (r0, newWork, lenR0) ← f0 r0 newWork
      let (r4, newWork, lenR4) ← f4 r4 newWork
      let (r1, lenR1, r2, lenR2, r3, lenR3) ← toomInterp D (← slice r0 0 lenR0) (← slice r4 0 lenR4)
        r1 lenR1 rm1 lenRm1 s1 rm2 lenRm2 s2
      let result ← toomRecompose D b (r0 ++ r4) r1 lenR1 r2 lenR2 r3 lenR3
      return (result, r1 ++ r2 ++ r3 ++ newWork, ← dropLeadingZeros result n))
      (MulPost B n V result work) := by
  have hB := L.pos
  have hsplit : splitAtR (List.replicate len 0) (min (4 * b) len)
      = .ok (List.replicate (min (4 * b) len) 0, List.replicate (len - min (4 * b) len) 0) := by
    rw [splitAtR_ok (by simp)]
    simp
  rw [hsplit, ok_bind]
  simp only []
  refine Ex.bind (hf0 _ hw hwk) ?_
  rintro ⟨r0, w0, lenR0⟩ m0
  have m0b := m0.buf hB
  have m0l := m0.len
  have m0w := m0.wlen
  have m0d : Digs B w0 := m0.wdigs
  have m0r := m0.rep
  simp only [List.length_replicate] at m0b m0l m0w m0r ⊢
  refine Ex.bind (hf4 _ m0d (by omega)) ?_
  rintro ⟨r4, w4, lenR4⟩ m4
  have m4b := m4.buf hB
  have m4l := m4.len
  have m4w := m4.wlen
  have m4d : Digs B w4 := m4.wdigs
  have m4r := m4.rep
  simp only [List.length_replicate] at m4b m4l m4w m4r ⊢
  rw [slice_take m0b.le, ok_bind, slice_take m4b.le, ok_bind]
  have hi := toomInterp_exact L (r0 := r0.take lenR0) (r4 := r4.take lenR4) (k := k) m0r m4r
    h1 hc1 h1' hm1 hcm1 hm2 hcm2 e1 e2 e3 hS hk1 hk2 hk3 hl1
  refine (Ex.bind (K2 := False) hi ?_).congr (by simp)
  rintro ⟨r1', l1, r2', l2, r3', l3⟩ hp
  have p1 := hp.r1
  have p2 := hp.l1
  have p3 := hp.n1
  have p4 := hp.r2
  have p5 := hp.l2
  have p6 := hp.n2
  have p7 := hp.c2
  have p8 := hp.r3
  have p9 := hp.l3
  have p10 := hp.n3
  clear hp hi
  simp only [] at p1 p2 p3 p4 p5 p6 p7 p8 p9 p10 ⊢
  have hrl : (r0 ++ r4).length = len := by rw [List.length_append]; omega
  have hrv : val B (r0 ++ r4) = c0 + B ^ (4 * b) * c4 := by
    rw [val_append, m0b.val_eq, m4b.val_eq, m0l]
    rcases h4 with h | h
    · rw [Nat.min_eq_left h]
    · rw [h]; simp
  have hrd : Digs B (r0 ++ r4) := by simp [m0b.digs, m4b.digs]
  refine Ex.then (Ex.of_tot (toomRecompose_spec L (b := b) (n := n) (k := k) (c0 := c0) (c4 := c4) hrd hrv
    (by omega) hb (by omega) p1 p3 p4 p6 p7 p8 p10 hk hb1)) ?_
  intro res ⟨q1, q2, q3⟩
  rw [← hV] at q3
  have hres : res.length = len := by omega
  have hbuf : Buf B res n V := Buf.of_lt hB q2 (by omega) q3 hVn
  obtain ⟨nd, d1, d2, d3, d4⟩ := dropLeadingZeros_spec res n (by omega)
  rw [d1, ok_bind]
  have hv2 : val B (res.take nd) = V := by
    have := hbuf.take_val
    rw [d3, val_append_zeros] at this
    exact this
  have hbuf2 : Buf B res nd V := by
    refine Buf.of_lt hB q2 (by omega) q3 ?_
    have := val_lt (q2.take nd)
    rw [hv2, List.length_take, Nat.min_eq_left (by omega)] at this
    exact this
  have hdrop : res.drop nd = List.replicate (res.length - nd) 0 := by
    conv_lhs => rw [hbuf2.zeros]
    rw [List.drop_left' hbuf2.take_len]
  refine ⟨not_false, ⟨q2.take nd, d4, hv2⟩, d2, by simp only []; omega, by simp only []; omega, ?_, ?_, ?_⟩
  · simp only []
    rw [hdrop]
    exact Tail.zeros (by simp; omega)
  · simp; omega
  · simp [p1.digs, p4.digs, p8.digs, m4d]

set_option maxHeartbeats 1000000 in
theorem mulToom3Into_exact {dbg : Bool} (L : Lawful D B) {d : Nat} {mul : MulFn}
    {x y result work : List Nat}
    (hx : Digs B x) (hy : Digs B y) (hw : Digs B work)
    (hx128 : 128 ≤ x.length) (hy128 : 128 ≤ y.length) (hlen : x.length + y.length ≤ result.length)
    (hwork : toom3WorkSize (max x.length y.length) ≤ work.length)
    (hmul : MulExA B d ((max x.length y.length + 2) / 3 + 2)
      (toom3WorkSize ((max x.length y.length + 2) / 3 + 2)) mul) :
    Ex (mulPanics B (d + 1) x.length (val B x) y.length (val B y) = true)
      (mulToom3Into D dbg mul x y result work)
      (MulPost B (x.length + y.length) (val B x * val B y) result work) := by
  have hB := L.pos
  have hcut : 128 ≤ max x.length y.length := by omega
  have hws := toom3WorkSize_eq (max x.length y.length)
  rw [if_pos hcut] at hws
  unfold mulToom3Into
  simp only []
  refine Ex.bind_eq (a := ()) (by simp [assertR]; omega) ?_
  refine Ex.bind_eq (a := ()) (by simp [assertR, hwork]) ?_
  rw [hws] at hwork
  clear hws
  generalize hbdef : (max x.length y.length + 2) / 3 = b at *
  generalize hwsdef : toom3WorkSize (b + 2) = ws at *
  clear hwsdef
  have hx3 : x.length ≤ 3 * b := by omega
  have hy3 : y.length ≤ 3 * b := by omega
  have hn3 : 3 * b + 3 ≤ x.length + y.length := by omega
  have hb40 : 40 ≤ b := by omega
  obtain ⟨p0, p1, p2, pv, pb0, pb1, pe0, pe1, pe2⟩ := parts_exist (val B x) (B ^ b) (Nat.pow_pos hB)
  obtain ⟨q0, q1, q2, qv, qb0, qb1, qe0, qe1, qe2⟩ := parts_exist (val B y) (B ^ b) (Nat.pow_pos hB)
  refine Ex.congr ?_ (mulPanics_toom (d := d) hx128 hy128 hbdef pe0 pe1 pe2 qe0 qe1 qe2)
  rw [← pow_add, ← two_mul] at pv qv
  clear pe0 pe1 pe2 qe0 qe1 qe2
  have pb2 : p2 < B ^ b := part_high hB hx (by omega) pv
  have qb2 : q2 < B ^ b := part_high hB hy (by omega) qv
  clear hbdef hcut
  have hfr : fillWith 0 result = List.replicate result.length 0 := rfl
  rw [hfr, splitAtR_zeros (by omega), ok_bind]
  simp only []
  rw [splitAtR_ok (by omega), ok_bind]
  simp only []
  have hfw : fillWith 0 (work.take (6 * b + 10)) = List.replicate (6 * b + 10) 0 := by
    simp only [fillWith, List.length_take]; congr 1; omega
  rw [hfw, splitAtR_zeros (by omega), ok_bind]
  simp only []
  rw [splitAtR_zeros (by omega), ok_bind]
  simp only []
  rw [splitAtR_zeros (by omega), ok_bind]
  simp only []
  rw [splitAtR_zeros (by omega), ok_bind]
  simp only []
  refine Ex.bind (toomEval_exact L (k1 := b + 1) (k2 := b + 1) (k3 := b + 2) hx hx3
    (le_refl _) (le_refl _) (le_refl _) pv pb0 pb1) ?_
  rintro p hp
  refine Ex.bind (toomEval_exact L (b := b) hy hy3 (by omega) (by omega) (by omega) qv qb0 qb1) ?_
  rintro q hq
  have hp1l := hp.lenP1
  have hq1l := hq.lenP1
  have hpm1l := hp.lenPm1
  have hqm1l := hq.lenPm1
  have hpm2l := hp.lenPm2
  have hqm2l := hq.lenPm2
  have hp1k := hp.p1len
  have hq1k := hq.p1len
  have hpm1k := hp.pm1len
  have hqm1k := hq.pm1len
  have hpm2k := hp.pm2len
  have hqm2k := hq.pm2len
  -- r(1)
  rw [slice_take hp.p1.le, ok_bind, slice_take hq.p1.le, ok_bind]
  refine Ex.bind ((hmul _ _ _ _ hp.p1.take_digs hq.p1.take_digs (digs_replicate hB) (hw.drop _)
    (by rw [hp.p1.take_len]; omega) (by rw [hq.p1.take_len]; omega)
    (Or.inr (Or.inr (by rw [hp.p1.take_len, hq.p1.take_len, List.length_replicate]; omega)))
    (by rw [List.length_drop]; omega)).congr
    (by rw [hp.p1.take_len, hp.p1.take_val, hq.p1.take_len, hq.p1.take_val, hp.n1, hq.n1])) ?_
  rintro ⟨r1, w1, lenR1⟩ m1
  have m1b := m1.buf hB
  have m1l := m1.len
  have m1w := m1.wlen
  have m1d : Digs B w1 := m1.wdigs
  have m1n := m1.le
  have m1c := m1.rep.canon
  rw [hp.p1.take_val, hq.p1.take_val] at m1b
  rw [hp.p1.take_len, hq.p1.take_len] at m1n
  simp only [List.length_replicate, List.length_drop] at m1b m1l m1w m1n m1c ⊢
  clear m1
  -- r(-1)
  rw [slice_take hp.pm1.le, ok_bind, slice_take hq.pm1.le, ok_bind]
  refine Ex.bind ((hmul _ _ (p.p1 ++ q.p1) _ hp.pm1.take_digs hq.pm1.take_digs
    (by simp [hp.p1.digs, hq.p1.digs]) m1d
    (by rw [hp.pm1.take_len]; omega) (by rw [hq.pm1.take_len]; omega)
    (Or.inr (Or.inr (by rw [hp.pm1.take_len, hq.pm1.take_len, List.length_append]; omega)))
    (by omega)).congr
    (by rw [hp.pm1.take_len, hp.pm1.take_val, hq.pm1.take_len, hq.pm1.take_val, hp.nm1, hq.nm1])) ?_
  rintro ⟨rm1, w2, lenRm1⟩ m2
  obtain ⟨rm1', fe1, fb1, fl1, fc1⟩ := m2.fill hB
  have m2w := m2.wlen
  have m2d : Digs B w2 := m2.wdigs
  rw [hp.pm1.take_val, hq.pm1.take_val] at fb1
  simp only [List.length_append] at fe1 fb1 fl1 fc1 m2w ⊢
  rw [fe1, ok_bind]
  simp only []
  clear m2 fe1
  -- r(-2)
  rw [slice_take hp.pm2.le, ok_bind, slice_take hq.pm2.le, ok_bind]
  refine Ex.bind ((hmul _ _ (p.pm1 ++ q.pm1) _ hp.pm2.take_digs hq.pm2.take_digs
    (by simp [hp.pm1.digs, hq.pm1.digs]) m2d
    (by rw [hp.pm2.take_len]; omega) (by rw [hq.pm2.take_len]; omega)
    (Or.inr (Or.inr (by rw [hp.pm2.take_len, hq.pm2.take_len, List.length_append]; omega)))
    (by omega)).congr
    (by rw [hp.pm2.take_len, hp.pm2.take_val, hq.pm2.take_len, hq.pm2.take_val, hp.nm2, hq.nm2])) ?_
  rintro ⟨rm2, w3, lenRm2⟩ m3
  obtain ⟨rm2', fe2, fb2, fl2, fc2⟩ := m3.fill hB
  have m3w := m3.wlen
  have m3d : Digs B w3 := m3.wdigs
  rw [hp.pm2.take_val, hq.pm2.take_val] at fb2
  simp only [List.length_append] at fe2 fb2 fl2 fc2 m3w ⊢
  rw [fe2, ok_bind]
  simp only []
  clear m3 fe2
  -- clear the result
  rw [onSlice_fill (by rw [List.length_append]; omega), ok_bind]
  simp only []
  have hzero : List.replicate (x.length + y.length) 0 ++ (p.pm2 ++ q.pm2).drop (x.length + y.length)
      = List.replicate result.length 0 := by
    have h1 : (q.pm2.drop (x.length + y.length - p.pm2.length))
        = List.replicate (result.length - (x.length + y.length)) 0 := by
      have hz := (hq.pm2.mono (k := x.length + y.length - p.pm2.length) (by omega) (by omega)).zeros
      rw [hz, List.drop_left' (by rw [List.length_take]; omega)]
      congr 1; omega
    rw [List.drop_append, h1, List.drop_eq_nil_of_le (by omega), List.nil_append,
      List.replicate_append_replicate]
    congr 1; omega
  rw [hzero]
  simp only [List.length_replicate]
  clear hzero
  have hp0 := hp.p0
  have hq0 := hq.p0
  have hp0l := hp.p0len
  have hq0l := hq.p0len
  have hpil := hp.pinflen
  have hqil := hq.pinflen
  have hpi := hp.pinfv
  have hqi := hq.pinfv
  have hpid := hp.pinf
  have hqid := hq.pinf
  have hV : val B x * val B y = p0 * q0 + B ^ b * (p0 * q1 + p1 * q0)
      + B ^ (2 * b) * (p0 * q2 + p1 * q1 + p2 * q0) + B ^ (3 * b) * (p1 * q2 + p2 * q1)
      + B ^ (4 * b) * (p2 * q2) := by
    rw [pv, qv, show 2 * b = b + b by ring, show 3 * b = b + b + b by ring,
      show 4 * b = b + b + b + b by ring]
    simp only [pow_add]
    ring
  have hbounds := toom_bounds L.base pb0 pb1 pb2 qb0 qb1 qb2
  have hpm1v := hp.pm1v
  have hqm1v := hq.pm1v
  have hpm2v := hp.pm2v
  have hqm2v := hq.pm2v
  have h4nil : p2 * q2 ≠ 0 → 2 * b < x.length ∧ 2 * b < y.length := by
    intro h
    constructor
    · by_contra hcon
      have : p.pinf = [] := List.eq_nil_of_length_eq_zero (by omega)
      rw [this] at hpi
      apply h; rw [← hpi]; simp
    · by_contra hcon
      have : q.pinf = [] := List.eq_nil_of_length_eq_zero (by omega)
      rw [this] at hqi
      apply h; rw [← hqi]; simp
  have hVn : val B x * val B y < B ^ (x.length + y.length) := by
    rw [pow_add]; exact Nat.mul_lt_mul'' (val_lt hx) (val_lt hy)
  have hwl : work.length = 6 * b + 10 + (work.drop (6 * b + 10)).length := by
    rw [List.length_drop]; omega
  have hpinf0 : p.pinf = [] ∨ q.pinf = [] ∨
      p.pinf.length + q.pinf.length = x.length + y.length - 4 * b := by
    rcases Nat.lt_or_ge (2 * b) x.length with h | h
    · rcases Nat.lt_or_ge (2 * b) y.length with h' | h'
      · right; right; omega
      · right; left; exact List.eq_nil_of_length_eq_zero (by omega)
    · left; exact List.eq_nil_of_length_eq_zero (by omega)
  have hpib : p.pinf.length ≤ b := by omega
  have hqib : q.pinf.length ≤ b := by omega
  have hs1p := hp.s1
  have hs1q := hq.s1
  have hs2p := hp.s2
  have hs2q := hq.s2
  have z0p := size_canon (by have := L.base; omega) hp0.digs hp0.canon
  have z0q := size_canon (by have := L.base; omega) hq0.digs hq0.canon
  rw [hp0.val_eq] at z0p
  rw [hq0.val_eq] at z0q
  clear hp hq
  refine Ex.congr (toom_end_exact L (f0 := mul p.p0 q.p0) (f4 := mul p.pinf q.pinf)
    (K0 := mulPanics B d (size B p0) p0 (size B q0) q0 = true)
    (K4 := mulPanics B d (x.length - 2 * b) p2 (y.length - 2 * b) q2 = true) (b := b)
    (n := x.length + y.length) (k := 2 * b + 1) (len := result.length) (wk := ws)
    (nd0 := p.p0.length + q.p0.length) (nd4 := p.pinf.length + q.pinf.length)
    (c0 := p0 * q0) (c1 := p0 * q1 + p1 * q0) (c2 := p0 * q2 + p1 * q1 + p2 * q0)
    (c3 := p1 * q2 + p2 * q1) (c4 := p2 * q2) (work := work) (result := result)
    ?_ ?_ m3d (by omega) m1b.pre m1c (fun _ => m1b) fb1 fc1 fb2 fc2 ?_ ?_ ?_ hbounds (by omega)
    (by omega) (by omega) (by omega) hV hVn hlen (by omega) (fun h => by have := h4nil h; omega)
    (by omega) ?_ rfl (by omega)) (by rw [hs1p, hs1q, hs2p, hs2q])
  · intro w hwd hwl
    have := hmul p.p0 q.p0 (List.replicate (min (4 * b) result.length) 0) w hp0.digs hq0.digs
      (digs_replicate hB) hwd (by omega) (by omega)
      (Or.inr (Or.inr (by rw [List.length_replicate]; omega))) hwl
    rw [hp0.val_eq, hq0.val_eq] at this
    rw [z0p, z0q]
    exact this
  · intro w hwd hwl
    have := hmul p.pinf q.pinf (List.replicate (result.length - min (4 * b) result.length) 0) w
      hpid hqid (digs_replicate hB) hwd (by omega) (by omega)
      (by
        rcases hpinf0 with h | h | h
        · exact Or.inl h
        · exact Or.inr (Or.inl h)
        · right; right; rw [List.length_replicate]; omega) hwl
    rw [hpi, hqi] at this
    rw [← hpil, ← hqil]
    exact this
  · ring
  · rw [sv_mul, hpm1v, hqm1v]; push_cast; ring
  · rw [sv_mul, hpm2v, hqm2v]; push_cast; ring
  · by_cases h : p2 * q2 = 0
    · exact Or.inr h
    · have := h4nil h
      left; omega


end Babs
