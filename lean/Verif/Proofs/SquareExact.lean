import Verif.Proofs.SquareSound
import Verif.Proofs.PowExact
import Verif.Proofs.ProductOk

/-!
# Helper lemmas: exactly when squares of any size panic, if they meet no stale digits
-/

namespace Babs

variable {D : DigitOps} {B : Nat}

/-- If the values at 1, -1 and -2 are in normal form, no subtraction in the evaluation fails and they are
returned without leading zeros. -/
theorem eval_sizes {dbg : Bool} (L : Lawful D B) {x : List Nat} {b a0 a1 a2 : Nat} (hx : Digs B x)
    (hc : Canon x) (hb : x.length ≤ 3 * b) (hb2 : 2 * b ≤ x.length)
    (hv : val B x = a0 + B ^ b * a1 + B ^ (2 * b) * a2) (h0 : a0 < B ^ b) (h1 : a1 < B ^ b)
    (hs : evalSafe B a0 a1 a2 = true) :
    evalFails B a0 a1 (x.length - 2 * b) a2 = false ∧
    digits1 B a0 a1 (x.length - 2 * b) a2 = size B (a0 + a1 + a2) ∧
    digitsM1 B a0 a1 (x.length - 2 * b) a2 = size B (Nat.dist (a0 + a2) a1) ∧
    digitsM2 B a0 a1 (x.length - 2 * b) a2 = size B (Nat.dist (a0 + 4 * a2) (2 * a1)) ∧
    x.length - 2 * b = size B a2 := by
  have hB := L.pos
  have hB2 : 2 ≤ B := by have := L.base; omega
  have huniq : ∀ c0 c1 c2, val B x = c0 + B ^ b * c1 + B ^ (2 * b) * c2 → c0 < B ^ b → c1 < B ^ b →
      c0 = a0 ∧ c1 = a1 ∧ c2 = a2 := fun c0 c1 c2 e e0 e1 => by
    refine parts_unique (P := B ^ b) ?_ e0 e1 h0 h1
    rw [← pow_add, ← two_mul, ← hv, e]
  have e1 := toomEval_exact (dbg := dbg) L (k1 := b + 1) (k2 := b + 1) (k3 := b + 2) hx hb (le_refl _)
    (le_refl _) (le_refl _) hv h0 h1
  have e2 := toomEval_win (dbg := dbg) (T := True) (clr := true) L (b := b)
    (q1 := List.replicate (b + 1) 0) (q2 := List.replicate (b + 1) 0) (q3 := List.replicate (b + 2) 0)
    hx hb (digs_replicate hB) (digs_replicate hB) (digs_replicate hB) (by simp) (by simp) (by simp)
    (fun _ => by simp) (Or.inl rfl) (fun _ => ⟨hc, fun c0 c1 c2 e e0 e1 => by
      obtain ⟨rfl, rfl, rfl⟩ := huniq c0 c1 c2 e e0 e1
      exact hs⟩)
  cases hr : toomEval D dbg b x (List.replicate (b + 1) 0) (List.replicate (b + 1) 0)
      (List.replicate (b + 2) 0) with
  | error p =>
    rw [hr] at e2
    exact absurd trivial e2.2
  | ok p =>
    rw [hr] at e1 e2
    obtain ⟨hf, he⟩ : ¬ _ ∧ EvalEx B b x (b + 1) (b + 1) (b + 2) a0 a1 a2 p := e1
    obtain ⟨c0, c1, c2, m1, m2, hp⟩ : ∃ c0 c1 c2 m1 m2, EvalWin B True b x _ _ _ c0 c1 c2 m1 m2 p := e2
    obtain ⟨rfl, rfl, rfl⟩ := huniq c0 c1 c2 hp.v hp.b0 hp.b1
    have n1 := size_canon hB2 (hp.p1.digs.take _) (hp.c1 trivial)
    have nm1 := size_canon hB2 (hp.pm1.digs.take _) (hp.cm1 trivial)
    have nm2 := size_canon hB2 (hp.pm2.digs.take _) (hp.cm2 trivial)
    have ni := size_canon hB2 hp.pinf (hp.cinf trivial)
    rw [hp.p1.take_val, hp.p1.take_len] at n1
    rw [hp.pm1.take_val, hp.pm1.take_len, hp.dist1] at nm1
    rw [hp.pm2.take_val, hp.pm2.take_len, hp.dist2] at nm2
    rw [hp.pinfv, hp.pinflen] at ni
    refine ⟨by simpa using hf, by rw [← he.n1, n1], by rw [← he.nm1, nm1], by rw [← he.nm2, nm2], ?_⟩
    rw [ni]
    omega

/-- The products `r0` and `r4`, interpolation and recomposition, if the result buffer is clear up to
`n` only. -/
theorem toom_end_winEx (L : Lawful D B) {K0 K4 : Prop}
    {f0 f4 : List Nat → List Nat → R (List Nat × List Nat × Nat)}
    {b n k wk nd0 nd4 lenR1 lenRm1 lenRm2 c0 c1 c2 c3 c4 v1 w1 w2 V : Nat} {s1 s2 : Bool}
    {r1 rm1 rm2 newWork result work tl : List Nat} (htl : Digs B tl)
    (hf0 : ∀ w, Digs B w → wk ≤ w.length →
      Ex K0 (f0 (List.replicate (4 * b) 0) w)
        (MulPost B nd0 c0 (List.replicate (4 * b) 0) w))
    (hf4 : ∀ w, Digs B w → wk ≤ w.length →
      Ex K4 (f4 (List.replicate (n - 4 * b) 0 ++ tl) w)
        (MulPost B nd4 c4 (List.replicate (n - 4 * b) 0 ++ tl) w))
    (hnd4 : nd4 ≤ n - 4 * b)
    (hw : Digs B newWork) (hwk : wk ≤ newWork.length)
    (h1 : Pre B r1 lenR1 v1) (hc1 : Canon (r1.take lenR1)) (h1' : s1 = true → Buf B r1 lenR1 v1)
    (hm1 : Buf B rm1 lenRm1 w1) (hcm1 : Canon (rm1.take lenRm1)) (hm2 : Buf B rm2 lenRm2 w2)
    (hcm2 : Canon (rm2.take lenRm2))
    (e1 : v1 = c0 + c1 + c2 + c3 + c4) (e2 : sv s1 w1 = (c0 : ℤ) - c1 + c2 - c3 + c4)
    (e3 : sv s2 w2 = (c0 : ℤ) - 2 * c1 + 4 * c2 - 8 * c3 + 16 * c4)
    (hS : 2 * (c0 + c1 + c2 + c3 + c4) < B ^ k) (hk1 : k ≤ r1.length) (hk2 : k ≤ rm1.length)
    (hk3 : k ≤ rm2.length) (hl1 : lenR1 ≤ rm2.length)
    (hV : V = c0 + B ^ b * c1 + B ^ (2 * b) * c2 + B ^ (3 * b) * c3 + B ^ (4 * b) * c4)
    (hVn : V < B ^ n) (hk : 2 * b + k ≤ n)
    (hb1 : 1 ≤ b) (h4 : 4 * b ≤ n)
    (hlen : result.length = n + tl.length) (hres : result.drop n = tl)
    (hwlen : r1.length + rm1.length + rm2.length + newWork.length = work.length) :
    Ex (K0 ∨ K4 ∨ interpFails B s1 s2 c0 v1 w1 w2 = true) (do
      let (r0, r4) ← splitAtR (List.replicate n 0 ++ tl)
        (min (4 * b) (List.replicate n 0 ++ tl).length)
      let (r0, newWork, lenR0) ← f0 r0 newWork
      let (r4, newWork, lenR4) ← f4 r4 newWork
      let (r1, lenR1, r2, lenR2, r3, lenR3) ← toomInterp D (← slice r0 0 lenR0) (← slice r4 0 lenR4)
        r1 lenR1 rm1 lenRm1 s1 rm2 lenRm2 s2
      let result ← toomRecompose D b (r0 ++ r4) r1 lenR1 r2 lenR2 r3 lenR3
      return (result, r1 ++ r2 ++ r3 ++ newWork, ← dropLeadingZeros result n))
      (MulPost B n V result work) := by
  have hB := L.pos
  have hsplit : splitAtR (List.replicate n 0 ++ tl) (min (4 * b) (List.replicate n 0 ++ tl).length)
      = .ok (List.replicate (4 * b) 0, List.replicate (n - 4 * b) 0 ++ tl) := by
    rw [Nat.min_eq_left (by simp; omega), splitAtR_ok (by simp; omega),
      List.take_append_of_le_length (by simpa using h4),
      List.drop_append_of_le_length (by simpa using h4), List.take_replicate, List.drop_replicate,
      Nat.min_eq_left h4]
  rw [hsplit, ok_bind]
  simp only []
  refine Ex.bind (hf0 _ hw hwk) ?_
  rintro ⟨r0, w0, lenR0⟩ m0
  have m0b := m0.buf hB
  have m0l := m0.len
  have m0w := m0.wlen
  have m0d : Digs B w0 := m0.wdigs
  have m0r := m0.rep
  simp only [List.length_replicate] at m0b m0l m0w m0r ⊢
  refine Ex.bind (hf4 _ m0d (by omega)) ?_
  rintro ⟨r4, w4, lenR4⟩ m4
  have m4l := m4.len
  have m4w := m4.wlen
  have m4d : Digs B w4 := m4.wdigs
  have m4r := m4.rep
  have m4g := m4.digs hB (by simp [digs_replicate hB, htl])
  have m4n := m4.le
  have m4ll := m4.lt_len
  have m4t := m4.tail
  simp only [List.length_append, List.length_replicate] at m4l m4w m4r m4g m4n m4ll m4t ⊢
  rw [slice_take m0b.le, ok_bind, slice_take m4ll, ok_bind]
  -- what is left behind the product `r4`
  have hsplit4 : ∃ t', Tail tl t' ∧ r4 = r4.take lenR4 ++ List.replicate (n - 4 * b - lenR4) 0 ++ t' := by
    rw [List.drop_append_of_le_length (by simp; omega), List.drop_replicate] at m4t
    have ha := m4t.take (n - 4 * b - lenR4)
    have hb := m4t.drop (n - 4 * b - lenR4)
    rw [List.take_left' (by simp)] at ha
    rw [List.drop_left' (by simp)] at hb
    refine ⟨_, hb, ?_⟩
    rw [List.append_assoc, ← ha.of_zeros, List.take_append_drop, List.take_append_drop]
  obtain ⟨t', ht', hr4⟩ := hsplit4
  have htl' := ht'.length
  have ht'd : Digs B t' := ht'.digs hB htl
  have hr4v : val B r4 = c4 + B ^ (n - 4 * b) * val B t' := by
    rw [hr4, val_append, val_append_zeros, m4r.val_eq, List.length_append, List.length_take,
      List.length_replicate]
    congr 3; omega
  have hi := toomInterp_exact L (r0 := r0.take lenR0) (r4 := r4.take lenR4) (k := k) m0r m4r
    h1 hc1 h1' hm1 hcm1 hm2 hcm2 e1 e2 e3 hS hk1 hk2 hk3 hl1
  refine (Ex.bind (K2 := False) hi ?_).congr (by simp)
  rintro ⟨r1', l1, r2', l2, r3', l3⟩ hp
  have p1 := hp.r1
  have p2 := hp.l1
  have p3 := hp.n1
  have p4 := hp.r2
  have p5 := hp.l2
  have p6 := hp.n2
  have p7 := hp.c2
  have p8 := hp.r3
  have p9 := hp.l3
  have p10 := hp.n3
  clear hp hi
  simp only [] at p1 p2 p3 p4 p5 p6 p7 p8 p9 p10 ⊢
  have hrl : (r0 ++ r4).length = n + tl.length := by rw [List.length_append]; omega
  have hrv : val B (r0 ++ r4) = c0 + B ^ (4 * b) * (c4 + B ^ (n - 4 * b) * val B t') := by
    rw [val_append, m0b.val_eq, hr4v, m0l]
  have hrd : Digs B (r0 ++ r4) := by simp [m0b.digs, m4g]
  have hpow : B ^ (4 * b) * B ^ (n - 4 * b) = B ^ n := by
    rw [← pow_add]; congr 1; omega
  have hVt : c0 + B ^ b * c1 + B ^ (2 * b) * c2 + B ^ (3 * b) * c3
      + B ^ (4 * b) * (c4 + B ^ (n - 4 * b) * val B t') = V + B ^ n * val B t' := by
    rw [hV, Nat.mul_add, ← Nat.mul_assoc, hpow]; ring
  have hVlt : V + B ^ n * val B t' < B ^ (n + tl.length) := by
    have h := val_lt ht'd
    rw [htl'] at h
    rw [pow_add]
    calc V + B ^ n * val B t' < B ^ n + B ^ n * val B t' := by omega
      _ = B ^ n * (val B t' + 1) := by ring
      _ ≤ B ^ n * B ^ tl.length := Nat.mul_le_mul_left _ (by omega)
  refine Ex.then (Ex.of_tot (toomRecompose_spec L (b := b) (n := n + tl.length) (k := k) (c0 := c0)
    (c4 := c4 + B ^ (n - 4 * b) * val B t') hrd hrv
    (by omega) (by omega) (by rw [hVt]; exact hVlt) p1 p3 p4 p6 (fun h => p7 (by omega)) p8 p10
    (fun _ => by omega) hb1)) ?_
  intro res ⟨q1, q2, q3⟩
  rw [hVt] at q3
  have hres' : res.length = n + tl.length := by omega
  -- the front of the result and the rest
  have hf1 := val_take_add_drop B res n (by omega)
  have hf2 := val_lt (q2.take n)
  rw [List.length_take, Nat.min_eq_left (by omega)] at hf2
  have hP : 0 < B ^ n := Nat.pow_pos hB
  have hff : val B (res.take n) = V ∧ val B (res.drop n) = val B t' := by
    rw [q3] at hf1
    have g1 : (val B (res.take n) + B ^ n * val B (res.drop n)) % B ^ n = val B (res.take n) := by
      rw [Nat.add_mul_mod_self_left, Nat.mod_eq_of_lt hf2]
    have g2 : (V + B ^ n * val B t') % B ^ n = V := by
      rw [Nat.add_mul_mod_self_left, Nat.mod_eq_of_lt hVn]
    have g3 : val B (res.take n) = V := by
      rw [← g1, ← g2]
      rw [hf1]
    refine ⟨g3, ?_⟩
    rw [g3] at hf1
    exact Nat.eq_of_mul_eq_mul_left hP (by omega)
  have hdropn : res.drop n = t' := val_inj (q2.drop n) ht'd
    (by rw [List.length_drop]; omega) hff.2
  obtain ⟨nd, d1, d2, d3, d4⟩ := dropLeadingZeros_spec res n (by omega)
  rw [d1, ok_bind]
  have hv2 : val B (res.take nd) = V := by
    have := hff.1
    rw [d3, val_append_zeros] at this
    exact this
  have hdrop : res.drop nd = List.replicate (n - nd) 0 ++ t' := by
    conv_lhs => rw [← List.take_append_drop n res, hdropn, d3]
    rw [List.append_assoc, List.drop_left' (by rw [List.length_take]; omega)]
  refine ⟨not_false, ⟨q2.take nd, d4, hv2⟩, d2, by simp only []; omega, by simp only []; omega, ?_, ?_, ?_⟩
  · simp only []
    rw [hdrop]
    exact Tail.front (by rw [hres]; exact ht') d2 (by omega)
  · simp; omega
  · simp [p1.digs, p4.digs, p8.digs, m4d]

set_option maxHeartbeats 1000000 in
/-- Toom-Cook squaring in buffers that need not be clear. `clr` and `wclr` say whether the buffer for
the result and the work space are clear, `Q c v` is what is needed of `v` for its square to be right
in a buffer that is clear if `c` holds. -/
theorem squareToom3Into_winEx {dbg : Bool} (L : Lawful D B) {d : Nat} {square : SquareFn}
    {x result work : List Nat} {clr wclr : Bool} {Q : Bool → Nat → Prop}
    (hx : Digs B x) (hr : Digs B result) (hw : Digs B work)
    (hcut : 128 ≤ x.length) (hlen : 2 * x.length ≤ result.length)
    (hwork : toom3WorkSize x.length ≤ work.length)
    (hclr : clr = true → result.take (2 * x.length) = List.replicate (2 * x.length) 0)
    (hwclr : wclr = true →
      work.take (6 * ((x.length + 2) / 3) + 10) = List.replicate (6 * ((x.length + 2) / 3) + 10) 0)
    (hU : Canon x ∧ ∀ a0 a1 a2, val B x = a0 + B ^ ((x.length + 2) / 3) * a1
        + B ^ (2 * ((x.length + 2) / 3)) * a2 → a0 < B ^ ((x.length + 2) / 3) →
        a1 < B ^ ((x.length + 2) / 3) → evalSafe B a0 a1 a2 = true)
    (hF : clr = true ∨ ∀ a0 a1 a2, val B x = a0 + B ^ ((x.length + 2) / 3) * a1
        + B ^ (2 * ((x.length + 2) / 3)) * a2 → a0 < B ^ ((x.length + 2) / 3) →
        a1 < B ^ ((x.length + 2) / 3) → evalFresh B a0 a1 a2 = true)
    (hQ : ∀ a0 a1 a2, val B x = a0 + B ^ ((x.length + 2) / 3) * a1
        + B ^ (2 * ((x.length + 2) / 3)) * a2 → a0 < B ^ ((x.length + 2) / 3) →
        a1 < B ^ ((x.length + 2) / 3) → Q true a0 ∧ Q wclr (a0 + a1 + a2) ∧
        Q wclr (Nat.dist (a0 + a2) a1) ∧ Q wclr (Nat.dist (a0 + 4 * a2) (2 * a1)) ∧ Q true a2)
    (hsq : ∀ (a product work : List Nat) (c : Bool), Digs B a → Digs B product → Digs B work →
      a.length ≤ (x.length + 2) / 3 + 2 → 2 * a.length ≤ product.length →
      toom3WorkSize ((x.length + 2) / 3 + 2) ≤ work.length →
      (c = true → product.take (2 * a.length) = List.replicate (2 * a.length) 0) → Q c (val B a) →
      Canon a → Ex (mulPanics B d a.length (val B a) a.length (val B a) = true) (square a product work)
        (MulPost B (2 * a.length) (val B a * val B a) product work)) :
    Ex (mulPanics B (d + 1) x.length (val B x) x.length (val B x) = true) (squareToom3Into D dbg square x result work)
      (MulPost B (2 * x.length) (val B x * val B x) result work) := by
  have hB := L.pos
  have hws := toom3WorkSize_eq x.length
  rw [if_pos hcut] at hws
  unfold squareToom3Into
  simp only []
  refine Ex.bind_eq (a := ()) (by simp [assertR]; omega) ?_
  refine Ex.bind_eq (a := ()) (by simp [assertR, hwork]) ?_
  rw [hws] at hwork
  clear hws
  generalize hbdef : (x.length + 2) / 3 = b at *
  generalize hwsdef : toom3WorkSize (b + 2) = ws at *
  clear hwsdef
  have hx3 : x.length ≤ 3 * b := by omega
  have hn3 : 6 * b ≤ 2 * x.length + 4 := by omega
  have hb40 : 40 ≤ b := by omega
  have hB2 : 2 ≤ B := by have := L.base; omega
  obtain ⟨p0, p1, p2, pv, pb0, pb1, pe0, pe1, pe2⟩ := parts_exist (val B x) (B ^ b) (Nat.pow_pos hB)
  refine Ex.congr ?_ ((mulPanics_toom_self (mulPanics_toom (d := d) hcut hcut (by rw [max_self]; exact hbdef)
    pe0 pe1 pe2 pe0 pe1 pe2)))
  rw [← pow_add, ← two_mul] at pv
  clear pe0 pe1 pe2
  obtain ⟨z0, z1, z2, z3, z4⟩ := eval_sizes (dbg := dbg) L hx hU.1 hx3 (by omega) pv pb0 pb1 (hU.2 _ _ _ pv pb0 pb1)
  rw [z0, z1, z2, z3, z4]
  clear z0 z1 z2 z3 z4
  clear hbdef hcut
  rw [splitAtR_ok (by omega), ok_bind]
  simp only []
  rw [splitAtR_ok (by rw [List.length_drop]; omega), ok_bind]
  simp only []
  rw [splitAtR_ok (by omega), ok_bind]
  simp only []
  have hwl6 : (work.take (6 * b + 10)).length = 6 * b + 10 := by rw [List.length_take]; omega
  have hwd6 : Digs B (work.take (6 * b + 10)) := hw.take _
  have hwdd : Digs B (work.drop (6 * b + 10)) := hw.drop _
  have hwld : (work.drop (6 * b + 10)).length = work.length - (6 * b + 10) := by
    rw [List.length_drop]
  generalize hwk6 : work.take (6 * b + 10) = wk at *
  generalize work.drop (6 * b + 10) = w0 at *
  rw [splitAtR_ok (by omega), ok_bind]
  simp only []
  have hl1 : (wk.take (2 * b + 3)).length = 2 * b + 3 := by rw [List.length_take]; omega
  have hl1' : (wk.drop (2 * b + 3)).length = 4 * b + 7 := by rw [List.length_drop]; omega
  rw [splitAtR_ok (by omega), ok_bind]
  simp only []
  have hl2 : ((wk.drop (2 * b + 3)).take (2 * b + 3)).length = 2 * b + 3 := by
    rw [List.length_take]; omega
  have hl3 : ((wk.drop (2 * b + 3)).drop (2 * b + 3)).length = 2 * b + 4 := by
    rw [List.length_drop]; omega
  have pr1 : wclr = true → wk.take (2 * b + 3) = List.replicate (2 * b + 3) 0 := fun h => by
    rw [hwclr h, List.take_replicate]; congr 1; omega
  have pr2 : wclr = true →
      (wk.drop (2 * b + 3)).take (2 * b + 3) = List.replicate (2 * b + 3) 0 := fun h => by
    rw [hwclr h, List.drop_replicate, List.take_replicate]; congr 1; omega
  have pr3 : wclr = true →
      (wk.drop (2 * b + 3)).drop (2 * b + 3) = List.replicate (2 * b + 4) 0 := fun h => by
    rw [hwclr h, List.drop_replicate, List.drop_replicate]; congr 1; omega
  have dg1 : Digs B (wk.take (2 * b + 3)) := hwd6.take _
  have dg2 : Digs B ((wk.drop (2 * b + 3)).take (2 * b + 3)) := (hwd6.drop _).take _
  have dg3 : Digs B ((wk.drop (2 * b + 3)).drop (2 * b + 3)) := (hwd6.drop _).drop _
  generalize wk.take (2 * b + 3) = b1 at *
  generalize (wk.drop (2 * b + 3)).take (2 * b + 3) = b2 at *
  generalize (wk.drop (2 * b + 3)).drop (2 * b + 3) = b3 at *
  clear hwclr hl1' hwk6
  -- the buffers for the values
  have ql1 : (result.take (b + 1)).length = b + 1 := by rw [List.length_take]; omega
  have ql2 : ((result.drop (b + 1)).take (b + 1)).length = b + 1 := by
    rw [List.length_take, List.length_drop]; omega
  have ql3 : ((result.drop (b + 1)).drop (b + 1)).length = result.length - (2 * b + 2) := by
    rw [List.length_drop, List.length_drop]; omega
  have qd1 : Digs B (result.take (b + 1)) := hr.take _
  have qd2 : Digs B ((result.drop (b + 1)).take (b + 1)) := (hr.drop _).take _
  have qd3 : Digs B ((result.drop (b + 1)).drop (b + 1)) := (hr.drop _).drop _
  have qz : clr = true →
      ((result.drop (b + 1)).take (b + 1)).take (b + 1) = List.replicate (b + 1) 0 ∧
      ((result.drop (b + 1)).drop (b + 1)).take (b + 2) = List.replicate (b + 2) 0 := fun h => by
    have e := hclr h
    have e1 : (result.drop (b + 1)).take (b + 1) = List.replicate (b + 1) 0 := by
      have := congrArg (fun l => (l.drop (b + 1)).take (b + 1)) e
      simp only [List.drop_take, List.take_take, List.drop_replicate, List.take_replicate] at this
      rw [Nat.min_eq_left (by omega)] at this
      rw [this]
    have e2 : (result.drop (2 * b + 2)).take (b + 2) = List.replicate (b + 2) 0 := by
      have := congrArg (fun l => (l.drop (2 * b + 2)).take (b + 2)) e
      simp only [List.drop_take, List.take_take, List.drop_replicate, List.take_replicate] at this
      rw [Nat.min_eq_left (by omega)] at this
      rw [this]
    refine ⟨by rw [List.take_take, Nat.min_self]; exact e1, ?_⟩
    rw [List.drop_drop, show b + 1 + (b + 1) = 2 * b + 2 by omega]
    exact e2
  have qdrop : ((result.drop (b + 1)).drop (b + 1)).drop (2 * x.length - (2 * b + 2))
      = result.drop (2 * x.length) := by
    rw [List.drop_drop, List.drop_drop]; congr 1; omega
  generalize result.take (b + 1) = q1 at *
  generalize (result.drop (b + 1)).take (b + 1) = q2 at *
  generalize (result.drop (b + 1)).drop (b + 1) = q3 at *
  clear hclr
  refine Ex.bind ((Ex.of_sp (toomEval_win (T := True) (clr := clr) L (b := b) hx hx3 qd1 qd2 qd3 (by omega)
    (by omega) (by omega) qz hF fun _ => hU)).congr (by simp)) ?_
  rintro p ⟨a0, a1, a2, pm1, pm2, hp⟩
  obtain ⟨rfl, rfl, rfl⟩ : a0 = p0 ∧ a1 = p1 ∧ a2 = p2 := by
    refine parts_unique (P := B ^ b) ?_ hp.b0 hp.b1 pb0 pb1
    rw [← pow_add, ← two_mul, ← pv, hp.v]
  replace hQ := hQ _ _ _ hp.v hp.b0 hp.b1
  rw [← hp.dist1, ← hp.dist2] at hQ
  rw [← hp.dist1, ← hp.dist2]
  have n1 := size_canon hB2 (hp.p1.digs.take _) (hp.c1 trivial)
  have nm1 := size_canon hB2 (hp.pm1.digs.take _) (hp.cm1 trivial)
  have nm2 := size_canon hB2 (hp.pm2.digs.take _) (hp.cm2 trivial)
  have ni := size_canon hB2 hp.pinf (hp.cinf trivial)
  have z0p := size_canon hB2 hp.p0.digs hp.p0.canon
  rw [hp.p1.take_val] at n1
  rw [hp.pm1.take_val] at nm1
  rw [hp.pm2.take_val] at nm2
  rw [hp.pinfv] at ni
  rw [hp.p0.val_eq] at z0p
  obtain ⟨hQ0, hQ1, hQm1, hQm2, hQ4⟩ := hQ
  have hp1l := hp.lenP1
  have hpm1l := hp.lenPm1
  have hpm2l := hp.lenPm2
  have hp1k := hp.p1len
  have hpm1k := hp.pm1len
  have hpm2k := hp.pm2len
  have hz : ∀ {c : Bool} {l : List Nat} {k j : Nat}, (c = true → l = List.replicate k 0) → j ≤ k →
      (c = true → l.take j = List.replicate j 0) := fun h hj hc => by
    rw [h hc, List.take_replicate, Nat.min_eq_left hj]
  -- r(1)
  rw [slice_take hp.p1.le, ok_bind]
  refine Ex.bind ((hsq _ b1 _ wclr (hp.p1.digs.take _) dg1 hwdd
    (by rw [hp.p1.take_len]; omega) (by rw [hp.p1.take_len]; omega) (by omega)
    (by rw [hp.p1.take_len]; exact hz pr1 (by omega)) (by rw [hp.p1.take_val]; exact hQ1)
    (hp.c1 trivial)).congr (by rw [hp.p1.take_val, n1])) ?_
  rintro ⟨r1, w1, lenR1⟩ m1
  have m1b : Pre B r1 lenR1 (val B (p.p1.take p.lenP1) * val B (p.p1.take p.lenP1)) :=
    ⟨m1.digs hB dg1, m1.lt_len, m1.rep.val_eq⟩
  have m1l := m1.len
  have m1w := m1.wlen
  have m1d : Digs B w1 := m1.wdigs
  have m1n := m1.le
  have m1c := m1.rep.canon
  rw [hp.p1.take_val] at m1b
  rw [hp.p1.take_len] at m1n
  simp only [] at m1b m1l m1w m1n m1c ⊢
  clear m1
  -- r(-1)
  rw [slice_take hp.pm1.le, ok_bind]
  refine Ex.bind ((hsq _ b2 _ wclr (hp.pm1.digs.take _) dg2 m1d
    (by rw [hp.pm1.take_len]; omega) (by rw [hp.pm1.take_len]; omega) (by omega)
    (by rw [hp.pm1.take_len]; exact hz pr2 (by omega)) (by rw [hp.pm1.take_val]; exact hQm1)
    (hp.cm1 trivial)).congr (by rw [hp.pm1.take_val, nm1])) ?_
  rintro ⟨rm1, w2, lenRm1⟩ m2
  obtain ⟨rm1', fe1, fb1, fl1, fc1⟩ := m2.fill hB
  have m2w := m2.wlen
  have m2d : Digs B w2 := m2.wdigs
  rw [hp.pm1.take_val] at fb1
  simp only [] at fe1 fb1 fl1 fc1 m2w ⊢
  rw [fe1, ok_bind]
  simp only []
  clear m2 fe1
  -- r(-2)
  rw [slice_take hp.pm2.le, ok_bind]
  refine Ex.bind ((hsq _ b3 _ wclr (hp.pm2.digs.take _) dg3 m2d
    (by rw [hp.pm2.take_len]; omega) (by rw [hp.pm2.take_len]; omega) (by omega)
    (by rw [hp.pm2.take_len]; exact hz pr3 (by omega)) (by rw [hp.pm2.take_val]; exact hQm2)
    (hp.cm2 trivial)).congr (by rw [hp.pm2.take_val, nm2])) ?_
  rintro ⟨rm2, w3, lenRm2⟩ m3
  obtain ⟨rm2', fe2, fb2, fl2, fc2⟩ := m3.fill hB
  have m3w := m3.wlen
  have m3d : Digs B w3 := m3.wdigs
  rw [hp.pm2.take_val] at fb2
  simp only [] at fe2 fb2 fl2 fc2 m3w ⊢
  rw [fe2, ok_bind]
  simp only []
  clear m3 fe2
  -- clear the result
  rw [onSlice_fill (by simp only [List.length_append]; omega), ok_bind]
  simp only []
  have hdrop : (p.p1 ++ p.pm1 ++ p.pm2).drop (2 * x.length) = result.drop (2 * x.length) := by
    rw [List.drop_append, List.drop_eq_nil_of_le (by rw [List.length_append]; omega),
      List.nil_append, ← qdrop, List.length_append, hp1k, hpm1k, ql1, ql2]
    obtain ⟨i, hi⟩ := Nat.exists_eq_add_of_le (show b + 2 ≤ 2 * x.length - (2 * b + 2) by omega)
    rw [show 2 * x.length - (b + 1 + (b + 1)) = b + 2 + i by omega, hi, ← List.drop_drop,
      hp.pm2drop, List.drop_drop]
  rw [hdrop]
  simp only [toomSquareInterp_eq]
  clear hdrop
  have hp0 := hp.p0
  have hp0l := hp.p0len
  have hpil := hp.pinflen
  have hpi := hp.pinfv
  have hpid := hp.pinf
  have hV : val B x * val B x = a0 * a0 + B ^ b * (a0 * a1 + a1 * a0)
      + B ^ (2 * b) * (a0 * a2 + a1 * a1 + a2 * a0) + B ^ (3 * b) * (a1 * a2 + a2 * a1)
      + B ^ (4 * b) * (a2 * a2) := by
    rw [hp.v, show 2 * b = b + b by ring, show 3 * b = b + b + b by ring,
      show 4 * b = b + b + b + b by ring]
    simp only [pow_add]
    ring
  have hbounds := toom_bounds L.base hp.b0 hp.b1 hp.b2 hp.b0 hp.b1 hp.b2
  have hpm1v := hp.pm1v
  have hpm2v := hp.pm2v
  have hVn : val B x * val B x < B ^ (2 * x.length) := by
    rw [two_mul, pow_add]; exact Nat.mul_lt_mul'' (val_lt hx) (val_lt hx)
  have hsv : ∀ (s : Bool) (m : Nat), sv false (m * m) = sv s m * sv s m := by
    intro s m
    rw [← sv_mul, Bool.xor_self]
  have hci := hp.cinf trivial
  clear hp
  refine toom_end_winEx L (s1 := false) (s2 := false)
    (K0 := mulPanics B d (size B a0) a0 (size B a0) a0 = true)
    (K4 := mulPanics B d (size B a2) a2 (size B a2) a2 = true) (f0 := square p.p0) (f4 := square p.pinf) (b := b)
    (n := 2 * x.length) (k := 2 * b + 1) (wk := ws) (tl := result.drop (2 * x.length))
    (nd0 := 2 * p.p0.length) (nd4 := 2 * p.pinf.length)
    (c0 := a0 * a0) (c4 := a2 * a2) (work := work) (result := result) (hr.drop _)
    ?_ ?_ (by omega) m3d (by omega) m1b m1c (fun h => by simp at h) fb1 fc1 fb2 fc2 ?_ ?_ ?_ hbounds (by omega)
    (by omega) (by omega) (by omega) hV hVn (by omega) (by omega) (by omega)
    (by rw [List.length_drop]; omega) rfl (by omega)
  · intro w hwd hwl
    have := hsq p.p0 (List.replicate (4 * b) 0) w true hp0.digs
      (digs_replicate hB) hwd (by omega) (by rw [List.length_replicate]; omega) hwl
      (fun _ => by rw [List.take_replicate]; congr 1; omega) (by rw [hp0.val_eq]; exact hQ0)
      hp0.canon
    rw [hp0.val_eq] at this
    rw [z0p]
    exact this
  · intro w hwd hwl
    have := hsq p.pinf (List.replicate (2 * x.length - 4 * b) 0 ++ result.drop (2 * x.length)) w true
      hpid (by simp [digs_replicate hB, hr.drop]) hwd (by omega)
      (by rw [List.length_append, List.length_replicate]; omega) hwl
      (fun _ => by
        rw [List.take_append_of_le_length (by simp; omega), List.take_replicate]; congr 1; omega)
      (by rw [hpi]; exact hQ4) hci
    rw [hpi] at this
    rw [ni]
    exact this
  · ring
  · rw [hsv p.signPm1, hpm1v]; push_cast; ring
  · rw [hsv p.signPm2, hpm2v]; push_cast; ring

/-- Squaring in buffers that need not be clear. -/
theorem squareIntoWithWork_sound_exact {dbg : Bool} (L : Lawful D B) (fuel : Nat) :
    ∀ {x product work : List Nat} {clr : Bool} {d e : Nat}, Digs B x → Digs B product →
    Digs B work → x.length < fuel → x.length ≤ e → 2 * x.length ≤ product.length →
    toom3WorkSize x.length ≤ work.length →
    (clr = true → product.take (2 * x.length) = List.replicate (2 * x.length) 0) →
    Canon x → squareSound B d clr false (val B x) = true →
    Ex (mulPanics B e x.length (val B x) x.length (val B x) = true)
      (squareIntoWithWork D dbg fuel x product work)
      (MulPost B (2 * x.length) (val B x * val B x) product work) := by
  have hB2 : 2 ≤ B := by have := L.base; omega
  induction fuel with
  | zero => intros; omega
  | succ fuel ih =>
    intro x product work clr d e hx hp hw hf hd hlen hwk hclr hc hF
    by_cases h128 : x.length < 128
    · rw [mulPanics_small (by omega)]
      exact squareIntoWithWork_exact L (fuel + 1) e hx hp hw hf hd h128 hlen
        (fun _ => le_trans (karatsuba_le_toom3 _) hwk)
    · obtain ⟨d', he⟩ := squareSound_toom hB2 hx hc (by omega) hF
      cases e with
      | zero => omega
      | succ e =>
      unfold squareIntoWithWork
      rw [if_neg (by rintro rfl; simp at h128)]
      simp only []
      refine Ex.bind_eq (a := ()) (by simp [assertR, hlen]) ?_
      rw [if_pos (by unfold toom3Cutoff; omega)]
      refine squareToom3Into_winEx (clr := clr) (wclr := false)
        (Q := fun c v => squareSound B d' c false v = true) L hx hp hw
        (by omega) hlen hwk hclr (by simp)
        ⟨hc, fun a0 a1 a2 h1 h2 h3 => (he a0 a1 a2 h1 h2 h3).1⟩ ?_ ?_ ?_
      · by_cases hcl : clr = true
        · exact Or.inl hcl
        · exact Or.inr fun a0 a1 a2 h1 h2 h3 => ((he a0 a1 a2 h1 h2 h3).2.1).resolve_left hcl
      · exact fun a0 a1 a2 h1 h2 h3 => (he a0 a1 a2 h1 h2 h3).2.2
      · intro a pr wk c ha hpr hwkd hal hl hwl hcl hq hac
        exact ih ha hpr hwkd (by omega) (by omega) hl (le_trans (toom3WorkSize_mono hal) hwl) hcl hac hq

theorem squareInto_sound_exact {dbg : Bool} (L : Lawful D B) {x : List Nat} {len d e : Nat}
    (hx : Digs B x) (hlen : 2 * x.length ≤ len) (hc : Canon x) (h128 : 128 ≤ x.length) (hd : x.length ≤ e)
    (hF : squareSound B d true true (val B x) = true) :
    Ex (mulPanics B e x.length (val B x) x.length (val B x) = true)
      (squareInto D dbg x (List.replicate len 0))
      (ProdPost B (val B x * val B x) (List.replicate len 0)) := by
  have hB := L.pos
  have hB2 : 2 ≤ B := by have := L.base; omega
  obtain ⟨d', he⟩ := squareSound_toom hB2 hx hc (by omega) hF
  cases e with
  | zero => omega
  | succ e =>
  unfold squareInto
  rw [if_neg (by rintro rfl; simp at h128)]
  simp only []
  refine Ex.bind_eq (a := ()) (by simp [assertR, hlen]) ?_
  rw [if_pos (by unfold toom3Cutoff; omega)]
  refine (Ex.bind (K2 := False) (squareToom3Into_winEx (clr := true) (wclr := true)
    (Q := fun c v => squareSound B d' c false v = true) L hx (digs_replicate hB) (digs_replicate hB)
    (by omega) (by simpa using hlen) (by rw [List.length_replicate]) ?_ ?_
    ⟨hc, fun a0 a1 a2 h1 h2 h3 => (he a0 a1 a2 h1 h2 h3).1⟩
    (Or.inl rfl) ?_ ?_) ?_).congr (by rw [or_false])
  · intro _
    rw [List.take_replicate, Nat.min_eq_left hlen]
  · intro _
    have := toom3WorkSize_eq x.length
    rw [if_pos (by omega)] at this
    rw [List.take_replicate]
    congr 1; omega
  · exact fun a0 a1 a2 h1 h2 h3 => (he a0 a1 a2 h1 h2 h3).2.2
  · intro a pr wk c ha hpr hwkd hal hl hwl hcl hq hac
    exact squareIntoWithWork_sound_exact L _ ha hpr hwkd (by unfold mulFuel; omega) (by omega) hl
      (le_trans (toom3WorkSize_mono hal) hwl) hcl hac hq
  · rintro ⟨r, w, n⟩ h
    exact ⟨not_false, h.prod⟩

/-- The square of a number of any size, if it meets no stale digits. -/
theorem square_sound_exact {dbg : Bool} (L : Lawful D B) {x : List Nat} {m d : Nat}
    (hx : Rep B x m) (hF : squareSound B d true true m = true) :
    Ex (productPanics B m m = true) (square D dbg x) (Rep B · (m * m)) := by
  have hB := L.base
  have ls := size_canon (by omega) hx.digs hx.canon
  rw [hx.val_eq] at ls
  by_cases h128 : x.length < 128
  · refine square_exact_rep L hx ?_
    rw [← hx.val_eq]
    exact lt_of_lt_of_le (val_lt hx.digs) (Nat.pow_le_pow_right L.pos (by omega))
  · have h0 : x ≠ [] := by rintro rfl; simp at h128
    have key := squareInto_sound_exact (dbg := dbg) (len := 2 * x.length) (e := x.length) L hx.digs (le_refl _) hx.canon
      (by omega) (le_refl _) (by rw [hx.val_eq]; exact hF)
    unfold productPanics
    rw [Nat.max_self, ls, ← hx.val_eq]
    unfold square
    rw [if_neg h0]
    refine (Ex.bind (K2 := False) key ?_).congr (by rw [or_false])
    rintro ⟨r, n⟩ h
    exact ⟨not_false, h.rep⟩

/-! ## Squares that meet no stale digits -/

theorem squareClean_exact {dbg : Bool} (L : Lawful D B) {x : List Nat} {m : Nat} (hx : Rep B x m)
    (h : squareClean B m) :
    Ex (productPanics B m m = true) (square D dbg x) (Rep B · (m * m)) := by
  have hB := L.base
  rcases h with h | ⟨d, h⟩
  · exact square_exact_rep L hx
      (lt_of_lt_of_le (lt_pow_size m (by omega)) (Nat.pow_le_pow_right (by omega) h))
  · exact square_sound_exact L hx h

/-- A square that meets no bad difference and no stale digits. -/
theorem squareSound_of_safe {d : Nat} : ∀ {x : Nat} {c w : Bool}, mulSafe B d x x = true →
    squareFresh B d c w x = true → squareSound B d c w x = true := by
  induction d with
  | zero => intro x c w h; simp [mulSafe] at h
  | succ d ih =>
    intro x c w h1 h2
    unfold squareFresh at h2
    unfold squareSound
    by_cases h : size B x < 128
    · rw [if_pos h]
    · rw [if_neg h] at h2 ⊢
      unfold mulSafe at h1
      rw [if_neg (by omega), if_pos (by omega), max_self] at h1
      simp only [Bool.and_eq_true] at h1 h2 ⊢
      obtain ⟨⟨⟨⟨⟨⟨⟨a0, -⟩, -⟩, a1⟩, a2⟩, a3⟩, a4⟩, a5⟩ := h1
      obtain ⟨⟨⟨⟨⟨b0, b1⟩, b2⟩, b3⟩, b4⟩, b5⟩ := h2
      exact ⟨⟨⟨⟨⟨⟨a0, b0⟩, ih a1 b1⟩, ih a2 b2⟩, ih a3 b3⟩, ih a4 b4⟩, ih a5 b5⟩

theorem squareClean_of_safe {d x : Nat} (h : squareSafe B d x = true) : squareClean B x := by
  unfold squareSafe at h
  rw [Bool.and_eq_true] at h
  exact Or.inr ⟨d, squareSound_of_safe h.1 h.2⟩

theorem powClean_of_fresh {d m e : Nat} (h1 : powSafe B d m e) (h2 : powFresh B d m e) : powClean B m e :=
  fun i hi => Or.inr ⟨d, squareSound_of_safe (h1 i hi).1 (h2 i hi)⟩

/-- The squares of the powers of at most 2262 digits. -/
theorem powClean_of_lt {m e : Nat} (hB : 2 ≤ B) (h : m ^ e < B ^ 2262) : powClean B m e := by
  intro i hi
  refine Or.inl (size_le hB ?_)
  rcases Nat.eq_zero_or_pos m with rfl | hm
  · rw [zero_pow (by positivity)]
    exact Nat.pow_pos (by omega)
  · refine lt_1131_of_sq ?_ h
    rw [← pow_add]
    exact Nat.pow_le_pow_right hm (by rw [pow_succ] at hi; omega)

theorem pow_safe_steps (L : Lawful D B) {d m e : Nat} (h : powSafe B d m e) : ¬ ∃ i, powStepPanics B m e i := by
  have hp : ∀ {x y}, mulSafe B d x y = true → ¬ productPanics B x y = true := fun h => by
    have := productOk_of_mulSafe L h
    simpa [productOk] using this
  rintro ⟨i, hi, h1 | h1⟩
  · exact hp (h i hi).1 h1
  · exact hp ((h i hi).2 h1.1) h1.2

theorem pow_clean_exact {dbg : Bool} (L : Lawful D B) {x : List Nat} {m e : Nat} (hx : Rep B x m)
    (h : powClean B m e) :
    Ex (∃ i, powStepPanics B m e i) (pow D dbg x e) (Rep B · (m ^ e)) :=
  pow_exact_all L hx fun i _ hi hy => squareClean_exact L hy (h i hi)

theorem shlDec_clean_exact {dbg : Bool} (L : Lawful D B) {mh : Nat} {x : List Nat} {m n : Nat}
    (hx : Rep B x m) (hn : ¬ n ≤ 4 * mh) (h : powClean B 2 n) :
    Ex ((∃ i, powStepPanics B 2 n i) ∨ productPanics B m (2 ^ n) = true) (shlDec D dbg mh x n)
      (Rep B · (m * 2 ^ n)) :=
  shlDec_exact L hx hn fun i _ hi hy => squareClean_exact L hy (h i hi)

end Babs
