import Verif.Proofs.ToomEval
import Verif.Proofs.ToomInterp

/-!
# Helper lemmas: Toom-Cook multiplication and squaring
-/

namespace Babs

variable {D : DigitOps} {B : Nat}

/-- `buffer[len..].fill(0)` after a multiplication. -/
theorem MulPost.fill {nd v : Nat} {product work : List Nat} {res : List Nat × List Nat × Nat}
    (hB : 0 < B) (h : MulPost B nd v product work res) :
    ∃ buf, onSlice res.1 res.2.2 res.1.length (fun s => .ok (fillWith 0 s, ())) = .ok (buf, ()) ∧
      Buf B buf res.2.2 v ∧ buf.length = product.length ∧ Canon (buf.take res.2.2) := by
  have hle := h.lt_len
  have hlen := h.len
  have hl : (res.1.take res.2.2).length = res.2.2 := by rw [List.length_take]; omega
  have h1 := onSlice_append (p := res.1.take res.2.2) (s := res.1.drop res.2.2) (q := [])
    (a := res.2.2) (b := res.1.length)
    (f := fun s => (.ok (fillWith 0 s, ()) : R (List Nat × Unit))) hl (by simp; omega)
  simp only [List.append_nil, List.take_append_drop] at h1
  refine ⟨_, h1, ?_, ?_, ?_⟩
  · simp only [fillWith]
    exact Buf.of hB h.rep.digs h.rep.val_eq hl
  · simp [fillWith]; omega
  · simp only [fillWith]
    rw [List.take_left' hl]; exact h.rep.canon

/-- The products `r0` and `r4`, interpolation and recomposition. -/
theorem toom_end (L : Lawful D B) {T : Prop} {f0 f4 : List Nat → List Nat → R (List Nat × List Nat × Nat)}
    {b n k len wk nd0 nd4 lenR1 lenRm1 lenRm2 c0 c1 c2 c3 c4 v1 w1 w2 V : Nat} {s1 s2 : Bool}
    {r1 rm1 rm2 newWork result work : List Nat}
    (hf0 : ∀ w, Digs B w → wk ≤ w.length →
      Sp (fun p => p = .unwrap ∧ ¬ T) (f0 (List.replicate (min (4 * b) len) 0) w)
        (MulPost B nd0 c0 (List.replicate (min (4 * b) len) 0) w))
    (hf4 : ∀ w, Digs B w → wk ≤ w.length →
      Sp (fun p => p = .unwrap ∧ ¬ T) (f4 (List.replicate (len - min (4 * b) len) 0) w)
        (MulPost B nd4 c4 (List.replicate (len - min (4 * b) len) 0) w))
    (hw : Digs B newWork) (hwk : wk ≤ newWork.length)
    (h1 : Pre B r1 lenR1 v1) (h1' : s1 = true → Buf B r1 lenR1 v1)
    (hm1 : Buf B rm1 lenRm1 w1) (hcm1 : Canon (rm1.take lenRm1)) (hm2 : Buf B rm2 lenRm2 w2)
    (e1 : v1 = c0 + c1 + c2 + c3 + c4) (e2 : sv s1 w1 = (c0 : ℤ) - c1 + c2 - c3 + c4)
    (e3 : sv s2 w2 = (c0 : ℤ) - 2 * c1 + 4 * c2 - 8 * c3 + 16 * c4)
    (hS : 2 * (c0 + c1 + c2 + c3 + c4) < B ^ k) (hk1 : k ≤ r1.length) (hk2 : k ≤ rm1.length)
    (hk3 : k ≤ rm2.length) (hl1 : lenR1 ≤ rm2.length)
    (hV : V = c0 + B ^ b * c1 + B ^ (2 * b) * c2 + B ^ (3 * b) * c3 + B ^ (4 * b) * c4)
    (hVn : V < B ^ n) (hn : n ≤ len) (hb : 3 * b ≤ n) (hk : c4 ≠ 0 → 2 * b + k ≤ n)
    (hb1 : 1 ≤ b) (h4 : 4 * b ≤ len ∨ c4 = 0)
    (hlen : result.length = len)
    (hwlen : r1.length + rm1.length + rm2.length + newWork.length = work.length)
    (hT : T → Canon (r1.take lenR1) ∧ Canon (rm2.take lenRm2) ∧
      (s1 = false → near 1 B w1 c0 = false)) :
    Sp (fun p => p = .unwrap ∧ ¬ T) (do
      let (r0, r4) ← splitAtR (List.replicate len 0) (min (4 * b) len)
      let (r0, newWork, lenR0) ← f0 r0 newWork
      let (r4, newWork, lenR4) ← f4 r4 newWork
      let (r1, lenR1, r2, lenR2, r3, lenR3) ← toomInterp D (← slice r0 0 lenR0) (← slice r4 0 lenR4)
        r1 lenR1 rm1 lenRm1 s1 rm2 lenRm2 s2
      let result ← toomRecompose D b (r0 ++ r4) r1 lenR1 r2 lenR2 r3 lenR3
      return (result, r1 ++ r2 ++ r3 ++ newWork, ← dropLeadingZeros result n))
      (MulPost B n V result work) := by
  have hB := L.pos
  have hsplit : splitAtR (List.replicate len 0) (min (4 * b) len)
      = .ok (List.replicate (min (4 * b) len) 0, List.replicate (len - min (4 * b) len) 0) := by
    rw [splitAtR_ok (by simp)]
    simp
  rw [hsplit, ok_bind]
  simp only []
  refine Sp.bind (hf0 _ hw hwk) ?_
  rintro ⟨r0, w0, lenR0⟩ m0
  have m0b := m0.buf hB
  have m0l := m0.len
  have m0w := m0.wlen
  have m0d : Digs B w0 := m0.wdigs
  have m0r := m0.rep
  simp only [List.length_replicate] at m0b m0l m0w m0r ⊢
  refine Sp.bind (hf4 _ m0d (by omega)) ?_
  rintro ⟨r4, w4, lenR4⟩ m4
  have m4b := m4.buf hB
  have m4l := m4.len
  have m4w := m4.wlen
  have m4d : Digs B w4 := m4.wdigs
  have m4r := m4.rep
  simp only [List.length_replicate] at m4b m4l m4w m4r ⊢
  rw [slice_take m0b.le, ok_bind, slice_take m4b.le, ok_bind]
  have hi := toomInterp_spec L (r0 := r0.take lenR0) (r4 := r4.take lenR4) (k := k) m0r m4r
    h1 h1' hm1 hcm1 hm2 e1 e2 e3 hS hk1 hk2 hk3 hl1 hT
  refine Sp.bind hi ?_
  rintro ⟨r1', l1, r2', l2, r3', l3⟩ hp
  have p1 := hp.r1
  have p2 := hp.l1
  have p3 := hp.n1
  have p4 := hp.r2
  have p5 := hp.l2
  have p6 := hp.n2
  have p7 := hp.c2
  have p8 := hp.r3
  have p9 := hp.l3
  have p10 := hp.n3
  clear hp hi
  simp only [] at p1 p2 p3 p4 p5 p6 p7 p8 p9 p10 ⊢
  have hrl : (r0 ++ r4).length = len := by rw [List.length_append]; omega
  have hrv : val B (r0 ++ r4) = c0 + B ^ (4 * b) * c4 := by
    rw [val_append, m0b.val_eq, m4b.val_eq, m0l]
    rcases h4 with h | h
    · rw [Nat.min_eq_left h]
    · rw [h]; simp
  have hrd : Digs B (r0 ++ r4) := by simp [m0b.digs, m4b.digs]
  refine Sp.bind (toomRecompose_spec L (b := b) (n := n) (k := k) (c0 := c0) (c4 := c4) hrd hrv
    (by omega) hb (by omega) p1 p3 p4 p6 p7 p8 p10 hk hb1).sp ?_
  intro res ⟨q1, q2, q3⟩
  rw [← hV] at q3
  have hres : res.length = len := by omega
  have hbuf : Buf B res n V := Buf.of_lt hB q2 (by omega) q3 hVn
  obtain ⟨nd, d1, d2, d3, d4⟩ := dropLeadingZeros_spec res n (by omega)
  rw [d1, ok_bind]
  have hv2 : val B (res.take nd) = V := by
    have := hbuf.take_val
    rw [d3, val_append_zeros] at this
    exact this
  have hbuf2 : Buf B res nd V := by
    refine Buf.of_lt hB q2 (by omega) q3 ?_
    have := val_lt (q2.take nd)
    rw [hv2, List.length_take, Nat.min_eq_left (by omega)] at this
    exact this
  have hdrop : res.drop nd = List.replicate (res.length - nd) 0 := by
    conv_lhs => rw [hbuf2.zeros]
    rw [List.drop_left' hbuf2.take_len]
  refine ⟨⟨q2.take nd, d4, hv2⟩, d2, by simp only []; omega, by simp only []; omega, ?_, ?_, ?_⟩
  · simp only []
    rw [hdrop]
    exact Tail.zeros (by simp; omega)
  · simp; omega
  · simp [p1.digs, p4.digs, p8.digs, m4d]

theorem splitAtR_zeros {n k : Nat} (h : k ≤ n) :
    splitAtR (List.replicate n 0) k = .ok (List.replicate k 0, List.replicate (n - k) 0) := by
  rw [splitAtR_ok (by simpa using h)]
  simp [h]

/-- The coefficients of a product of polynomials are small. -/
theorem toom_bounds {b p0 p1 p2 q0 q1 q2 : Nat} (hB : 100 ≤ B) (hp0 : p0 < B ^ b) (hp1 : p1 < B ^ b)
    (hp2 : p2 < B ^ b) (hq0 : q0 < B ^ b) (hq1 : q1 < B ^ b) (hq2 : q2 < B ^ b) :
    2 * (p0 * q0 + (p0 * q1 + p1 * q0) + (p0 * q2 + p1 * q1 + p2 * q0) + (p1 * q2 + p2 * q1)
      + p2 * q2) < B ^ (2 * b + 1) := by
  have h1 : p0 * q0 + (p0 * q1 + p1 * q0) + (p0 * q2 + p1 * q1 + p2 * q0) + (p1 * q2 + p2 * q1)
      + p2 * q2 = (p0 + p1 + p2) * (q0 + q1 + q2) := by ring
  have h2 : (p0 + p1 + p2) * (q0 + q1 + q2) < (3 * B ^ b) * (3 * B ^ b) :=
    Nat.mul_lt_mul'' (by omega) (by omega)
  have h3 : (3 * B ^ b) * (3 * B ^ b) = 9 * B ^ (2 * b) := by rw [two_mul, pow_add]; ring
  have h4 : 18 * B ^ (2 * b) ≤ B ^ (2 * b + 1) := by
    rw [pow_succ, mul_comm]; exact Nat.mul_le_mul_left _ (by omega)
  omega

set_option maxHeartbeats 1000000 in
theorem mulToom3Into_spec {dbg : Bool} (L : Lawful D B) {T : Prop} {mul : MulFn} {x y result work : List Nat}
    (hx : Digs B x) (hy : Digs B y) (hw : Digs B work)
    (hx128 : 128 ≤ x.length) (hy128 : 128 ≤ y.length) (hlen : x.length + y.length ≤ result.length)
    (hwork : toom3WorkSize (max x.length y.length) ≤ work.length)
    (hT : T → MulP B x y)
    (hmul : MulOk B T ((max x.length y.length + 2) / 3 + 2) ((max x.length y.length + 2) / 3 + 2)
      (toom3WorkSize ((max x.length y.length + 2) / 3 + 2)) mul) :
    Sp (fun p => p = .unwrap ∧ ¬ T) (mulToom3Into D dbg mul x y result work)
      (MulPost B (x.length + y.length) (val B x * val B y) result work) := by
  have hB := L.pos
  have hcut : 128 ≤ max x.length y.length := by omega
  have hmul' : ∀ a c product work : List Nat, Digs B a → Digs B c → Digs B product → Digs B work →
      a.length ≤ (max x.length y.length + 2) / 3 + 2 →
      c.length ≤ (max x.length y.length + 2) / 3 + 2 →
      (a = [] ∨ c = [] ∨ a.length + c.length ≤ product.length) →
      toom3WorkSize ((max x.length y.length + 2) / 3 + 2) ≤ work.length →
      (T → Canon a ∧ Canon c ∧ ∃ d, mulSafe B d (val B a) (val B c) = true) →
      Sp (fun p => p = .unwrap ∧ ¬ T) (mul a c product work)
        (MulPost B (a.length + c.length) (val B a * val B c) product work) := by
    intro a c product work h1 h2 h3 h4 h5 h6 h7 h8 h9
    exact hmul a c product work h1 h2 h3 h4 h5 h6 (by omega) h7 h8 (fun t => Or.inr (h9 t))
  clear hmul
  have hws := toom3WorkSize_eq (max x.length y.length)
  rw [if_pos hcut] at hws
  unfold mulToom3Into
  simp only []
  refine Sp.bind_eq (a := ()) (by simp [assertR]; omega) ?_
  refine Sp.bind_eq (a := ()) (by simp [assertR, hwork]) ?_
  rw [hws] at hwork
  clear hws
  generalize hbdef : (max x.length y.length + 2) / 3 = b at *
  generalize hwsdef : toom3WorkSize (b + 2) = ws at *
  clear hwsdef
  have hx3 : x.length ≤ 3 * b := by omega
  have hy3 : y.length ≤ 3 * b := by omega
  have hn3 : 3 * b + 3 ≤ x.length + y.length := by omega
  have hb40 : 40 ≤ b := by omega
  have hE := fun t => (hT t).eval (by have := L.base; omega) hx hy hx128 hy128 hbdef
  have hM := fun t (x0 x1 x2 y0 y1 y2 : Nat) => (hT t).toom (x0 := x0) (x1 := x1) (x2 := x2)
    (y0 := y0) (y1 := y1) (y2 := y2) (by have := L.base; omega) hx hy hx128 hy128 hbdef
  clear hbdef hcut hT
  have hfr : fillWith 0 result = List.replicate result.length 0 := rfl
  rw [hfr, splitAtR_zeros (by omega), ok_bind]
  simp only []
  rw [splitAtR_ok (by omega), ok_bind]
  simp only []
  have hfw : fillWith 0 (work.take (6 * b + 10)) = List.replicate (6 * b + 10) 0 := by
    simp only [fillWith, List.length_take]; congr 1; omega
  rw [hfw, splitAtR_zeros (by omega), ok_bind]
  simp only []
  rw [splitAtR_zeros (by omega), ok_bind]
  simp only []
  rw [splitAtR_zeros (by omega), ok_bind]
  simp only []
  rw [splitAtR_zeros (by omega), ok_bind]
  simp only []
  refine Sp.bind (toomEval_spec (T := T) L (k1 := b + 1) (k2 := b + 1) (k3 := b + 2) hx hx3
    (le_refl _) (le_refl _) (le_refl _) (fun t => (hE t).1)) ?_
  rintro p ⟨p0, p1, p2, pm1, pm2, hp⟩
  refine Sp.bind (toomEval_spec (T := T) L (b := b) hy hy3 (by omega) (by omega) (by omega)
    (fun t => (hE t).2)) ?_
  rintro q ⟨q0, q1, q2, qm1, qm2, hq⟩
  replace hM := fun t => (hM t _ _ _ _ _ _ hp.v hq.v hp.b0 hq.b0 hp.b1 hq.b1).2.2.2.2
  rw [← hp.dist1, ← hq.dist1, ← hp.dist2, ← hq.dist2] at hM
  have hp1l := hp.lenP1
  have hq1l := hq.lenP1
  have hpm1l := hp.lenPm1
  have hqm1l := hq.lenPm1
  have hpm2l := hp.lenPm2
  have hqm2l := hq.lenPm2
  have hp1k := hp.p1len
  have hq1k := hq.p1len
  have hpm1k := hp.pm1len
  have hqm1k := hq.pm1len
  have hpm2k := hp.pm2len
  have hqm2k := hq.pm2len
  -- r(1)
  rw [slice_take hp.p1.le, ok_bind, slice_take hq.p1.le, ok_bind]
  refine Sp.bind (hmul' _ _ _ _ hp.p1.take_digs hq.p1.take_digs (digs_replicate hB) (hw.drop _)
    (by rw [hp.p1.take_len]; omega) (by rw [hq.p1.take_len]; omega)
    (Or.inr (Or.inr (by rw [hp.p1.take_len, hq.p1.take_len, List.length_replicate]; omega)))
    (by rw [List.length_drop]; omega) (fun t => ?_)) ?_
  · obtain ⟨-, d, -, h, -⟩ := hM t
    exact ⟨hp.c1 t, hq.c1 t, d, by rw [hp.p1.take_val, hq.p1.take_val]; exact h⟩
  rintro ⟨r1, w1, lenR1⟩ m1
  have m1b := m1.buf hB
  have m1l := m1.len
  have m1w := m1.wlen
  have m1d : Digs B w1 := m1.wdigs
  have m1n := m1.le
  have m1c := m1.rep.canon
  rw [hp.p1.take_val, hq.p1.take_val] at m1b
  rw [hp.p1.take_len, hq.p1.take_len] at m1n
  simp only [List.length_replicate, List.length_drop] at m1b m1l m1w m1n m1c ⊢
  clear m1
  -- r(-1)
  rw [slice_take hp.pm1.le, ok_bind, slice_take hq.pm1.le, ok_bind]
  refine Sp.bind (hmul' _ _ (p.p1 ++ q.p1) _ hp.pm1.take_digs hq.pm1.take_digs
    (by simp [hp.p1.digs, hq.p1.digs]) m1d
    (by rw [hp.pm1.take_len]; omega) (by rw [hq.pm1.take_len]; omega)
    (Or.inr (Or.inr (by rw [hp.pm1.take_len, hq.pm1.take_len, List.length_append]; omega)))
    (by omega) (fun t => ?_)) ?_
  · obtain ⟨-, d, -, -, h, -⟩ := hM t
    exact ⟨hp.cm1 t, hq.cm1 t, d, by rw [hp.pm1.take_val, hq.pm1.take_val]; exact h⟩
  rintro ⟨rm1, w2, lenRm1⟩ m2
  obtain ⟨rm1', fe1, fb1, fl1, fc1⟩ := m2.fill hB
  have m2w := m2.wlen
  have m2d : Digs B w2 := m2.wdigs
  rw [hp.pm1.take_val, hq.pm1.take_val] at fb1
  simp only [List.length_append] at fe1 fb1 fl1 fc1 m2w ⊢
  rw [fe1, ok_bind]
  simp only []
  clear m2 fe1
  -- r(-2)
  rw [slice_take hp.pm2.le, ok_bind, slice_take hq.pm2.le, ok_bind]
  refine Sp.bind (hmul' _ _ (p.pm1 ++ q.pm1) _ hp.pm2.take_digs hq.pm2.take_digs
    (by simp [hp.pm1.digs, hq.pm1.digs]) m2d
    (by rw [hp.pm2.take_len]; omega) (by rw [hq.pm2.take_len]; omega)
    (Or.inr (Or.inr (by rw [hp.pm2.take_len, hq.pm2.take_len, List.length_append]; omega)))
    (by omega) (fun t => ?_)) ?_
  · obtain ⟨-, d, -, -, -, h, -⟩ := hM t
    exact ⟨hp.cm2 t, hq.cm2 t, d, by rw [hp.pm2.take_val, hq.pm2.take_val]; exact h⟩
  rintro ⟨rm2, w3, lenRm2⟩ m3
  obtain ⟨rm2', fe2, fb2, fl2, fc2⟩ := m3.fill hB
  have m3w := m3.wlen
  have m3d : Digs B w3 := m3.wdigs
  rw [hp.pm2.take_val, hq.pm2.take_val] at fb2
  simp only [List.length_append] at fe2 fb2 fl2 fc2 m3w ⊢
  rw [fe2, ok_bind]
  simp only []
  clear m3 fe2
  -- clear the result
  rw [onSlice_fill (by rw [List.length_append]; omega), ok_bind]
  simp only []
  have hzero : List.replicate (x.length + y.length) 0 ++ (p.pm2 ++ q.pm2).drop (x.length + y.length)
      = List.replicate result.length 0 := by
    have h1 : (q.pm2.drop (x.length + y.length - p.pm2.length))
        = List.replicate (result.length - (x.length + y.length)) 0 := by
      have hz := (hq.pm2.mono (k := x.length + y.length - p.pm2.length) (by omega) (by omega)).zeros
      rw [hz, List.drop_left' (by rw [List.length_take]; omega)]
      congr 1; omega
    rw [List.drop_append, h1, List.drop_eq_nil_of_le (by omega), List.nil_append,
      List.replicate_append_replicate]
    congr 1; omega
  rw [hzero]
  simp only [List.length_replicate]
  clear hzero
  have hp0 := hp.p0
  have hq0 := hq.p0
  have hp0l := hp.p0len
  have hq0l := hq.p0len
  have hpil := hp.pinflen
  have hqil := hq.pinflen
  have hpi := hp.pinfv
  have hqi := hq.pinfv
  have hpid := hp.pinf
  have hqid := hq.pinf
  have hV : val B x * val B y = p0 * q0 + B ^ b * (p0 * q1 + p1 * q0)
      + B ^ (2 * b) * (p0 * q2 + p1 * q1 + p2 * q0) + B ^ (3 * b) * (p1 * q2 + p2 * q1)
      + B ^ (4 * b) * (p2 * q2) := by
    rw [hp.v, hq.v, show 2 * b = b + b by ring, show 3 * b = b + b + b by ring,
      show 4 * b = b + b + b + b by ring]
    simp only [pow_add]
    ring
  have hbounds := toom_bounds L.base hp.b0 hp.b1 hp.b2 hq.b0 hq.b1 hq.b2
  have hpm1v := hp.pm1v
  have hqm1v := hq.pm1v
  have hpm2v := hp.pm2v
  have hqm2v := hq.pm2v
  have h4nil : p2 * q2 ≠ 0 → 2 * b < x.length ∧ 2 * b < y.length := by
    intro h
    constructor
    · by_contra hcon
      have : p.pinf = [] := List.eq_nil_of_length_eq_zero (by omega)
      rw [this] at hpi
      apply h; rw [← hpi]; simp
    · by_contra hcon
      have : q.pinf = [] := List.eq_nil_of_length_eq_zero (by omega)
      rw [this] at hqi
      apply h; rw [← hqi]; simp
  have hVn : val B x * val B y < B ^ (x.length + y.length) := by
    rw [pow_add]; exact Nat.mul_lt_mul'' (val_lt hx) (val_lt hy)
  have hwl : work.length = 6 * b + 10 + (work.drop (6 * b + 10)).length := by
    rw [List.length_drop]; omega
  have hpinf0 : p.pinf = [] ∨ q.pinf = [] ∨
      p.pinf.length + q.pinf.length = x.length + y.length - 4 * b := by
    rcases Nat.lt_or_ge (2 * b) x.length with h | h
    · rcases Nat.lt_or_ge (2 * b) y.length with h' | h'
      · right; right; omega
      · right; left; exact List.eq_nil_of_length_eq_zero (by omega)
    · left; exact List.eq_nil_of_length_eq_zero (by omega)
  have hpib : p.pinf.length ≤ b := by omega
  have hqib : q.pinf.length ≤ b := by omega
  have hci : T → Canon p.pinf ∧ Canon q.pinf := fun t => ⟨hp.cinf t, hq.cinf t⟩
  have hnr : T → (p.signPm1 ^^ q.signPm1) = false → near 1 B (pm1 * qm1) (p0 * q0) = false := by
    intro t h
    refine (hM t).1 ?_
    have h1 := hp.sm1 t
    have h2 := hq.sm1 t
    have h3 : p.signPm1 = q.signPm1 := by
      cases hs : p.signPm1 <;> cases hs' : q.signPm1 <;> simp [hs, hs'] at h ⊢
    rw [h3] at h1
    simp only [decide_eq_decide]
    exact h1.symm.trans h2
  clear hp hq
  refine toom_end L (f0 := mul p.p0 q.p0) (f4 := mul p.pinf q.pinf) (b := b)
    (n := x.length + y.length) (k := 2 * b + 1) (len := result.length) (wk := ws)
    (nd0 := p.p0.length + q.p0.length) (nd4 := p.pinf.length + q.pinf.length)
    (c0 := p0 * q0) (c4 := p2 * q2) (work := work) (result := result)
    ?_ ?_ m3d (by omega) m1b.pre (fun _ => m1b) fb1 fc1 fb2 ?_ ?_ ?_ hbounds (by omega) (by omega)
    (by omega) (by omega) hV hVn hlen (by omega) (fun h => by have := h4nil h; omega) (by omega)
    ?_ rfl (by omega) (fun t => ⟨m1c, fc2, hnr t⟩)
  · intro w hwd hwl
    have := hmul' p.p0 q.p0 (List.replicate (min (4 * b) result.length) 0) w hp0.digs hq0.digs
      (digs_replicate hB) hwd (by omega) (by omega)
      (Or.inr (Or.inr (by rw [List.length_replicate]; omega))) hwl (fun t => by
        obtain ⟨-, d, h, -⟩ := hM t
        exact ⟨hp0.canon, hq0.canon, d, by rw [hp0.val_eq, hq0.val_eq]; exact h⟩)
    rw [hp0.val_eq, hq0.val_eq] at this
    exact this
  · intro w hwd hwl
    have := hmul' p.pinf q.pinf (List.replicate (result.length - min (4 * b) result.length) 0) w
      hpid hqid (digs_replicate hB) hwd (by omega) (by omega)
      (by
        rcases hpinf0 with h | h | h
        · exact Or.inl h
        · exact Or.inr (Or.inl h)
        · right; right; rw [List.length_replicate]; omega) hwl (fun t => by
        obtain ⟨-, d, -, -, -, -, h⟩ := hM t
        exact ⟨(hci t).1, (hci t).2, d, by rw [hpi, hqi]; exact h⟩)
    rw [hpi, hqi] at this
    exact this
  · ring
  · rw [sv_mul, hpm1v, hqm1v]; push_cast; ring
  · rw [sv_mul, hpm2v, hqm2v]; push_cast; ring
  · by_cases h : p2 * q2 = 0
    · exact Or.inr h
    · have := h4nil h
      left; omega

set_option maxHeartbeats 1000000 in
/-- Toom-Cook squaring, if the result buffer is clear.  `Pr` is what is known about the result
buffers of the recursive calls: nothing, or, if the work space is clear too, that they are clear. -/
theorem squareToom3Into_spec {dbg : Bool} (L : Lawful D B) {T : Prop} {square : SquareFn}
    {x work : List Nat} {len : Nat} {Pr : List Nat → Prop}
    (hx : Digs B x) (hw : Digs B work)
    (hcut : 128 ≤ x.length) (hlen : 2 * x.length ≤ len)
    (hwork : toom3WorkSize x.length ≤ work.length)
    (hT : T → MulP B x x)
    (hPr0 : ∀ k, Pr (List.replicate k 0))
    (hPr : (∀ l, Pr l) ∨
      work.take (6 * ((x.length + 2) / 3) + 10) = List.replicate (6 * ((x.length + 2) / 3) + 10) 0)
    (hsq : ∀ a product work : List Nat, Digs B a → Digs B product → Digs B work →
      a.length ≤ (x.length + 2) / 3 + 1 → 2 * a.length ≤ product.length →
      toom3WorkSize ((x.length + 2) / 3 + 2) ≤ work.length → Pr product →
      (T → Canon a ∧ ∃ d, mulSafe B d (val B a) (val B a) = true) →
      Sp (fun p => p = .unwrap ∧ ¬ T) (square a product work)
        (MulPost B (2 * a.length) (val B a * val B a) product work)) :
    Sp (fun p => p = .unwrap ∧ ¬ T) (squareToom3Into D dbg square x (List.replicate len 0) work)
      (MulPost B (2 * x.length) (val B x * val B x) (List.replicate len 0) work) := by
  have hB := L.pos
  have hws := toom3WorkSize_eq x.length
  rw [if_pos hcut] at hws
  unfold squareToom3Into
  simp only []
  refine Sp.bind_eq (a := ()) (by simp [assertR]; omega) ?_
  refine Sp.bind_eq (a := ()) (by simp [assertR, hwork]) ?_
  rw [hws] at hwork
  clear hws
  generalize hbdef : (x.length + 2) / 3 = b at *
  generalize hwsdef : toom3WorkSize (b + 2) = ws at *
  clear hwsdef
  have hx3 : x.length ≤ 3 * b := by omega
  have hn3 : 6 * b ≤ 2 * x.length + 4 := by omega
  have hb40 : 40 ≤ b := by omega
  have hE := fun t => (hT t).eval (s := b) (by have := L.base; omega) hx hx hcut hcut (by omega)
  have hM := fun t (x0 x1 x2 y0 y1 y2 : Nat) => (hT t).toom (s := b) (x0 := x0) (x1 := x1)
    (x2 := x2) (y0 := y0) (y1 := y1) (y2 := y2) (by have := L.base; omega) hx hx hcut hcut (by omega)
  clear hbdef hcut hT
  rw [splitAtR_zeros (by omega), ok_bind]
  simp only []
  rw [splitAtR_zeros (by omega), ok_bind]
  simp only []
  rw [splitAtR_ok (by omega), ok_bind]
  simp only []
  have hwl6 : (work.take (6 * b + 10)).length = 6 * b + 10 := by rw [List.length_take]; omega
  have hwd6 : Digs B (work.take (6 * b + 10)) := hw.take _
  have hwdd : Digs B (work.drop (6 * b + 10)) := hw.drop _
  have hwld : (work.drop (6 * b + 10)).length = work.length - (6 * b + 10) := by
    rw [List.length_drop]
  generalize hwk6 : work.take (6 * b + 10) = wk at *
  generalize work.drop (6 * b + 10) = w0 at *
  rw [splitAtR_ok (by omega), ok_bind]
  simp only []
  have hl1 : (wk.take (2 * b + 3)).length = 2 * b + 3 := by rw [List.length_take]; omega
  have hl1' : (wk.drop (2 * b + 3)).length = 4 * b + 7 := by rw [List.length_drop]; omega
  rw [splitAtR_ok (by omega), ok_bind]
  simp only []
  have hl2 : ((wk.drop (2 * b + 3)).take (2 * b + 3)).length = 2 * b + 3 := by
    rw [List.length_take]; omega
  have hl3 : ((wk.drop (2 * b + 3)).drop (2 * b + 3)).length = 2 * b + 4 := by
    rw [List.length_drop]; omega
  have pr1 : Pr (wk.take (2 * b + 3)) := by
    rcases hPr with h | h
    · exact h _
    · rw [h, List.take_replicate]; exact hPr0 _
  have pr2 : Pr ((wk.drop (2 * b + 3)).take (2 * b + 3)) := by
    rcases hPr with h | h
    · exact h _
    · rw [h, List.drop_replicate, List.take_replicate]; exact hPr0 _
  have pr3 : Pr ((wk.drop (2 * b + 3)).drop (2 * b + 3)) := by
    rcases hPr with h | h
    · exact h _
    · rw [h, List.drop_replicate, List.drop_replicate]; exact hPr0 _
  have dg1 : Digs B (wk.take (2 * b + 3)) := hwd6.take _
  have dg2 : Digs B ((wk.drop (2 * b + 3)).take (2 * b + 3)) := (hwd6.drop _).take _
  have dg3 : Digs B ((wk.drop (2 * b + 3)).drop (2 * b + 3)) := (hwd6.drop _).drop _
  generalize wk.take (2 * b + 3) = b1 at *
  generalize (wk.drop (2 * b + 3)).take (2 * b + 3) = b2 at *
  generalize (wk.drop (2 * b + 3)).drop (2 * b + 3) = b3 at *
  clear hPr hl1' hwk6
  refine Sp.bind (toomEval_spec (T := T) L (k1 := b + 1) (k2 := b + 1) (b := b) hx hx3 (le_refl _)
    (le_refl _) (by omega) (fun t => (hE t).1)) ?_
  rintro p ⟨p0, p1, p2, pm1, pm2, hp⟩
  replace hM := fun t => (hM t _ _ _ _ _ _ hp.v hp.v hp.b0 hp.b0 hp.b1 hp.b1).2.2.2.2
  rw [← hp.dist1, ← hp.dist2] at hM
  have hp1l := hp.lenP1
  have hpm1l := hp.lenPm1
  have hpm2l := hp.lenPm2
  have hp1k := hp.p1len
  have hpm1k := hp.pm1len
  have hpm2k := hp.pm2len
  -- r(1)
  rw [slice_take hp.p1.le, ok_bind]
  refine Sp.bind (hsq _ b1 _ hp.p1.take_digs dg1 hwdd
    (by rw [hp.p1.take_len]; omega) (by rw [hp.p1.take_len]; omega) (by omega) pr1
    (fun t => ?_)) ?_
  · obtain ⟨-, d, -, h, -⟩ := hM t
    exact ⟨hp.c1 t, d, by rw [hp.p1.take_val]; exact h⟩
  rintro ⟨r1, w1, lenR1⟩ m1
  have m1b : Pre B r1 lenR1 (val B (p.p1.take p.lenP1) * val B (p.p1.take p.lenP1)) :=
    ⟨m1.digs hB dg1, m1.lt_len, m1.rep.val_eq⟩
  have m1l := m1.len
  have m1w := m1.wlen
  have m1d : Digs B w1 := m1.wdigs
  have m1n := m1.le
  have m1c := m1.rep.canon
  rw [hp.p1.take_val] at m1b
  rw [hp.p1.take_len] at m1n
  simp only [] at m1b m1l m1w m1n m1c ⊢
  clear m1
  -- r(-1)
  rw [slice_take hp.pm1.le, ok_bind]
  refine Sp.bind (hsq _ b2 _ hp.pm1.take_digs dg2 m1d
    (by rw [hp.pm1.take_len]; omega) (by rw [hp.pm1.take_len]; omega) (by omega) pr2
    (fun t => ?_)) ?_
  · obtain ⟨-, d, -, -, h, -⟩ := hM t
    exact ⟨hp.cm1 t, d, by rw [hp.pm1.take_val]; exact h⟩
  rintro ⟨rm1, w2, lenRm1⟩ m2
  obtain ⟨rm1', fe1, fb1, fl1, fc1⟩ := m2.fill hB
  have m2w := m2.wlen
  have m2d : Digs B w2 := m2.wdigs
  rw [hp.pm1.take_val] at fb1
  simp only [] at fe1 fb1 fl1 fc1 m2w ⊢
  rw [fe1, ok_bind]
  simp only []
  clear m2 fe1
  -- r(-2)
  rw [slice_take hp.pm2.le, ok_bind]
  refine Sp.bind (hsq _ b3 _ hp.pm2.take_digs dg3 m2d
    (by rw [hp.pm2.take_len]; omega) (by rw [hp.pm2.take_len]; omega) (by omega) pr3
    (fun t => ?_)) ?_
  · obtain ⟨-, d, -, -, -, h, -⟩ := hM t
    exact ⟨hp.cm2 t, d, by rw [hp.pm2.take_val]; exact h⟩
  rintro ⟨rm2, w3, lenRm2⟩ m3
  obtain ⟨rm2', fe2, fb2, fl2, fc2⟩ := m3.fill hB
  have m3w := m3.wlen
  have m3d : Digs B w3 := m3.wdigs
  rw [hp.pm2.take_val] at fb2
  simp only [] at fe2 fb2 fl2 fc2 m3w ⊢
  rw [fe2, ok_bind]
  simp only []
  clear m3 fe2
  -- clear the result
  rw [onSlice_fill (by simp only [List.length_append]; omega), ok_bind]
  simp only []
  have hzero : List.replicate (2 * x.length) 0 ++ (p.p1 ++ p.pm1 ++ p.pm2).drop (2 * x.length)
      = List.replicate len 0 := by
    have h1 : (p.pm2.drop (2 * x.length - (p.p1 ++ p.pm1).length))
        = List.replicate (len - 2 * x.length) 0 := by
      rw [List.length_append]
      have hz := (hp.pm2.mono (k := 2 * x.length - (p.p1.length + p.pm1.length)) (by omega)
        (by omega)).zeros
      rw [hz, List.drop_left' (by rw [List.length_take]; omega)]
      congr 1; omega
    rw [List.drop_append, h1, List.drop_eq_nil_of_le (by rw [List.length_append]; omega),
      List.nil_append, List.replicate_append_replicate]
    congr 1; omega
  rw [hzero]
  simp only [List.length_replicate, toomSquareInterp_eq]
  clear hzero
  have hp0 := hp.p0
  have hp0l := hp.p0len
  have hpil := hp.pinflen
  have hpi := hp.pinfv
  have hpid := hp.pinf
  have hV : val B x * val B x = p0 * p0 + B ^ b * (p0 * p1 + p1 * p0)
      + B ^ (2 * b) * (p0 * p2 + p1 * p1 + p2 * p0) + B ^ (3 * b) * (p1 * p2 + p2 * p1)
      + B ^ (4 * b) * (p2 * p2) := by
    rw [hp.v, show 2 * b = b + b by ring, show 3 * b = b + b + b by ring,
      show 4 * b = b + b + b + b by ring]
    simp only [pow_add]
    ring
  have hbounds := toom_bounds L.base hp.b0 hp.b1 hp.b2 hp.b0 hp.b1 hp.b2
  have hpm1v := hp.pm1v
  have hpm2v := hp.pm2v
  have hVn : val B x * val B x < B ^ (2 * x.length) := by
    rw [two_mul, pow_add]; exact Nat.mul_lt_mul'' (val_lt hx) (val_lt hx)
  have hsv : ∀ (s : Bool) (m : Nat), sv false (m * m) = sv s m * sv s m := by
    intro s m
    rw [← sv_mul, Bool.xor_self]
  have hci := hp.cinf
  clear hp
  refine toom_end L (f0 := square p.p0) (f4 := square p.pinf) (b := b)
    (n := 2 * x.length) (k := 2 * b + 1) (len := len) (wk := ws)
    (nd0 := 2 * p.p0.length) (nd4 := 2 * p.pinf.length)
    (c0 := p0 * p0) (c4 := p2 * p2) (work := work) (result := List.replicate len 0)
    ?_ ?_ m3d (by omega) m1b (fun h => by simp at h) fb1 fc1 fb2 ?_ ?_ ?_ hbounds (by omega)
    (by omega) (by omega) (by omega) hV hVn hlen (by omega) (fun _ => by omega) (by omega)
    (Or.inl (by omega)) (by simp) (by omega) (fun t => ⟨m1c, fc2, fun _ => (hM t).1 rfl⟩)
  · intro w hwd hwl
    have := hsq p.p0 (List.replicate (min (4 * b) len) 0) w hp0.digs
      (digs_replicate hB) hwd (by omega) (by rw [List.length_replicate]; omega) hwl (hPr0 _) (fun t => by
        obtain ⟨-, d, h, -⟩ := hM t
        exact ⟨hp0.canon, d, by rw [hp0.val_eq]; exact h⟩)
    rw [hp0.val_eq] at this
    exact this
  · intro w hwd hwl
    have := hsq p.pinf (List.replicate (len - min (4 * b) len) 0) w
      hpid (digs_replicate hB) hwd (by omega) (by rw [List.length_replicate]; omega) hwl (hPr0 _) (fun t => by
        obtain ⟨-, d, -, -, -, -, h⟩ := hM t
        exact ⟨hci t, d, by rw [hpi]; exact h⟩)
    rw [hpi] at this
    exact this
  · ring
  · rw [hsv p.signPm1, hpm1v]; push_cast; ring
  · rw [hsv p.signPm2, hpm2v]; push_cast; ring

end Babs
