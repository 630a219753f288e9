import Verif.Proofs.ToomExact
import Verif.Proofs.MulBig

/-!
# Helper lemmas: exactly when products of any size and squares panic
-/

namespace Babs

variable {D : DigitOps} {B : Nat}

theorem mulPanics_small {d k m j n : Nat} (h : ¬ (128 ≤ k ∧ 128 ≤ j)) :
    mulPanics B d k m j n = karaPanics B d k m j n := by
  cases d with
  | zero => rfl
  | succ d => conv_lhs => unfold mulPanics
              exact if_neg h

theorem mulPanics_short {d k m j n : Nat} (h : k < 20 ∨ j < 20) : mulPanics B d k m j n = false := by
  rw [mulPanics_small (by omega)]
  cases d with
  | zero => rfl
  | succ d => exact if_pos h

theorem mulBigIntoWithWork_exact_all {dbg : Bool} (L : Lawful D B) (fuel : Nat) :
    ∀ {x y product work : List Nat} (d : Nat), Digs B x → Digs B y → Digs B product → Digs B work →
    max x.length y.length < fuel → max x.length y.length ≤ d →
    (x = [] ∨ y = [] ∨ x.length + y.length ≤ product.length) →
    WorkOk x.length y.length work.length →
    Ex (mulPanics B d x.length (val B x) y.length (val B y) = true)
      (mulBigIntoWithWork D dbg fuel x y product work)
      (MulPost B (x.length + y.length) (val B x * val B y) product work) := by
  induction fuel with
  | zero => intros; omega
  | succ fuel ih =>
    intro x y product work d hx hy hp hw hf hd hlen hwk
    by_cases h1 : 128 ≤ x.length ∧ 128 ≤ y.length
    · have h0 : ¬ (x = [] ∨ y = []) := by rintro (rfl | rfl) <;> simp at h1
      unfold mulBigIntoWithWork
      rw [if_neg h0]
      have hlen : x.length + y.length ≤ product.length := by
        rcases hlen with h | h | h
        · exact absurd (Or.inl h) h0
        · exact absurd (Or.inr h) h0
        · exact h
      simp only []
      refine Ex.bind_eq (a := ()) (by simp [assertR, hlen]) ?_
      rw [if_pos (by unfold toom3Cutoff; omega)]
      cases d with
      | zero => omega
      | succ d =>
        refine mulToom3Into_exact L hx hy hw h1.1 h1.2 hlen (hwk.1 h1) ?_
        intro a c pr wk ha hc hpr hwkd hal hcl hl hwl
        exact ih d ha hc hpr hwkd (by omega) (by omega) hl (workOk_toom hal hcl hwl)
    · rw [mulPanics_small h1]
      exact mulBigIntoWithWork_exact L _ d hx hy hp hw hf hd (by omega) hlen hwk.2

theorem mulBig_exact_all {dbg : Bool} (L : Lawful D B) {x y : List Nat} (d : Nat)
    (hx : Digs B x) (hy : Digs B y) (hd : max x.length y.length ≤ d) :
    Ex (mulPanics B d x.length (val B x) y.length (val B y) = true) (mulBig D dbg x y)
      (Rep B · (val B x * val B y)) := by
  have hB := L.pos
  by_cases h1 : 128 ≤ x.length ∧ 128 ≤ y.length
  · have h0 : ¬ (x = [] ∨ y = []) := by rintro (rfl | rfl) <;> simp at h1
    unfold mulBig
    rw [if_neg h0]
    unfold mulBigInto
    rw [if_neg h0]
    simp only [List.length_replicate, le_refl, decide_true, assertR, if_true, ok_bind]
    rw [if_pos (by unfold toom3Cutoff; omega)]
    cases d with
    | zero => omega
    | succ d =>
      have key := mulToom3Into_exact (dbg := dbg) (d := d)
        (result := List.replicate (x.length + y.length) 0)
        (mul := mulBigIntoWithWork D dbg (mulFuel (max x.length y.length))) L hx hy
        (digs_replicate (n := toom3WorkSize (max x.length y.length)) hB) h1.1 h1.2
        (by simp) (by simp) (by
          intro a c pr wk ha hc hpr hwkd hal hcl hl hwl
          exact mulBigIntoWithWork_exact_all L _ d ha hc hpr hwkd (by unfold mulFuel; omega)
            (by omega) hl (workOk_toom hal hcl hwl))
      refine Ex.congr (K := (mulPanics B (d + 1) x.length (val B x) y.length (val B y) = true) ∨ False)
        ?_ (by simp)
      rw [bind_assoc]
      refine Ex.bind key ?_
      rintro ⟨r, w, n⟩ h
      exact ⟨not_false, h.prod.rep⟩
  · rw [mulPanics_small h1]
    exact mulBig_exact L d hx hy (by omega) hd

/-! ## The order of the factors -/

theorem interpFails_comm (a1 b1 a2 b2 : Bool) (p0 q0 p1 q1 pm qm pt qt : Nat) :
    interpFails B (a1 ^^ b1) (a2 ^^ b2) (p0 * q0) (p1 * q1) (pm * qm) (pt * qt)
      = interpFails B (b1 ^^ a1) (b2 ^^ a2) (q0 * p0) (q1 * p1) (qm * pm) (qt * pt) := by
  rw [Bool.xor_comm a1, Bool.xor_comm a2, mul_comm p0, mul_comm p1, mul_comm pm, mul_comm pt]

theorem mulPanics_comm (d : Nat) : ∀ k m j n, mulPanics B d k m j n = mulPanics B d j n k m := by
  induction d with
  | zero => intros; rfl
  | succ d ih =>
    intro k m j n
    by_cases h : 128 ≤ k ∧ 128 ≤ j
    · apply Bool.eq_iff_iff.mpr
      rw [← mulPanics_toom h.1 h.2 rfl rfl rfl rfl rfl rfl rfl,
        ← mulPanics_toom h.2 h.1 rfl rfl rfl rfl rfl rfl rfl, max_comm j k, interpFails_comm,
        ih (digits1 _ _ _ _ _), ih (digitsM1 _ _ _ _ _), ih (digitsM2 _ _ _ _ _), ih (size _ _),
        ih (k - _)]
      exact or_left_comm
    · rw [mulPanics_small h, mulPanics_small (mt And.symm h), karaPanics_comm]

/-! ## Squares -/

theorem mulPanics_toom_self {a b c e f g : Prop} {s1 s2 : Bool} {r0 r1 rm1 rm2 : Nat} {K : Prop}
    (h : (a ∨ a ∨ b ∨ c ∨ e ∨ f ∨ g ∨ interpFails B (s1 ^^ s1) (s2 ^^ s2) r0 r1 rm1 rm2 = true) ↔ K) :
    (a ∨ b ∨ c ∨ e ∨ f ∨ g ∨ interpFails B false false r0 r1 rm1 rm2 = true) ↔ K := by
  rw [← h, Bool.xor_self, Bool.xor_self]
  tauto

set_option maxHeartbeats 1000000 in
/-- Toom-Cook squaring, if the result buffer is clear.  `Pr` is what is known about the result
buffers of the recursive calls: nothing, or, if the work space is clear too, that they are clear. -/
theorem squareToom3Into_exact {dbg : Bool} (L : Lawful D B) {d : Nat} {square : SquareFn}
    {x work : List Nat} {len : Nat} {Pr : List Nat → Prop}
    (hx : Digs B x) (hw : Digs B work)
    (hcut : 128 ≤ x.length) (hlen : 2 * x.length ≤ len)
    (hwork : toom3WorkSize x.length ≤ work.length)
    (hPr0 : ∀ k, Pr (List.replicate k 0))
    (hPr : (∀ l, Pr l) ∨
      work.take (6 * ((x.length + 2) / 3) + 10) = List.replicate (6 * ((x.length + 2) / 3) + 10) 0)
    (hsq : ∀ a product work : List Nat, Digs B a → Digs B product → Digs B work →
      a.length ≤ (x.length + 2) / 3 + 1 → 2 * a.length ≤ product.length →
      toom3WorkSize ((x.length + 2) / 3 + 2) ≤ work.length → Pr product →
      Ex (mulPanics B d a.length (val B a) a.length (val B a) = true) (square a product work)
        (MulPost B (2 * a.length) (val B a * val B a) product work)) :
    Ex (mulPanics B (d + 1) x.length (val B x) x.length (val B x) = true)
      (squareToom3Into D dbg square x (List.replicate len 0) work)
      (MulPost B (2 * x.length) (val B x * val B x) (List.replicate len 0) work) := by
  have hB := L.pos
  have hws := toom3WorkSize_eq x.length
  rw [if_pos hcut] at hws
  unfold squareToom3Into
  simp only []
  refine Ex.bind_eq (a := ()) (by simp [assertR]; omega) ?_
  refine Ex.bind_eq (a := ()) (by simp [assertR, hwork]) ?_
  rw [hws] at hwork
  clear hws
  generalize hbdef : (x.length + 2) / 3 = b at *
  generalize hwsdef : toom3WorkSize (b + 2) = ws at *
  clear hwsdef
  have hx3 : x.length ≤ 3 * b := by omega
  have hn3 : 6 * b ≤ 2 * x.length + 4 := by omega
  have hb40 : 40 ≤ b := by omega
  obtain ⟨p0, p1, p2, pv, pb0, pb1, pe0, pe1, pe2⟩ := parts_exist (val B x) (B ^ b) (Nat.pow_pos hB)
  refine Ex.congr ?_ ((mulPanics_toom_self (mulPanics_toom (d := d) hcut hcut (by rw [max_self]; exact hbdef)
    pe0 pe1 pe2 pe0 pe1 pe2)))
  rw [← pow_add, ← two_mul] at pv
  clear pe0 pe1 pe2
  have pb2 : p2 < B ^ b := part_high hB hx (by omega) pv
  clear hbdef hcut
  rw [splitAtR_zeros (by omega), ok_bind]
  simp only []
  rw [splitAtR_zeros (by omega), ok_bind]
  simp only []
  rw [splitAtR_ok (by omega), ok_bind]
  simp only []
  have hwl6 : (work.take (6 * b + 10)).length = 6 * b + 10 := by rw [List.length_take]; omega
  have hwd6 : Digs B (work.take (6 * b + 10)) := hw.take _
  have hwdd : Digs B (work.drop (6 * b + 10)) := hw.drop _
  have hwld : (work.drop (6 * b + 10)).length = work.length - (6 * b + 10) := by
    rw [List.length_drop]
  generalize hwk6 : work.take (6 * b + 10) = wk at *
  generalize work.drop (6 * b + 10) = w0 at *
  rw [splitAtR_ok (by omega), ok_bind]
  simp only []
  have hl1 : (wk.take (2 * b + 3)).length = 2 * b + 3 := by rw [List.length_take]; omega
  have hl1' : (wk.drop (2 * b + 3)).length = 4 * b + 7 := by rw [List.length_drop]; omega
  rw [splitAtR_ok (by omega), ok_bind]
  simp only []
  have hl2 : ((wk.drop (2 * b + 3)).take (2 * b + 3)).length = 2 * b + 3 := by
    rw [List.length_take]; omega
  have hl3 : ((wk.drop (2 * b + 3)).drop (2 * b + 3)).length = 2 * b + 4 := by
    rw [List.length_drop]; omega
  have pr1 : Pr (wk.take (2 * b + 3)) := by
    rcases hPr with h | h
    · exact h _
    · rw [h, List.take_replicate]; exact hPr0 _
  have pr2 : Pr ((wk.drop (2 * b + 3)).take (2 * b + 3)) := by
    rcases hPr with h | h
    · exact h _
    · rw [h, List.drop_replicate, List.take_replicate]; exact hPr0 _
  have pr3 : Pr ((wk.drop (2 * b + 3)).drop (2 * b + 3)) := by
    rcases hPr with h | h
    · exact h _
    · rw [h, List.drop_replicate, List.drop_replicate]; exact hPr0 _
  have dg1 : Digs B (wk.take (2 * b + 3)) := hwd6.take _
  have dg2 : Digs B ((wk.drop (2 * b + 3)).take (2 * b + 3)) := (hwd6.drop _).take _
  have dg3 : Digs B ((wk.drop (2 * b + 3)).drop (2 * b + 3)) := (hwd6.drop _).drop _
  generalize wk.take (2 * b + 3) = b1 at *
  generalize (wk.drop (2 * b + 3)).take (2 * b + 3) = b2 at *
  generalize (wk.drop (2 * b + 3)).drop (2 * b + 3) = b3 at *
  clear hPr hl1' hwk6
  refine Ex.bind (toomEval_exact L (k1 := b + 1) (k2 := b + 1) (b := b) hx hx3 (le_refl _)
    (le_refl _) (by omega) pv pb0 pb1) ?_
  rintro p hp
  have hp1l := hp.lenP1
  have hpm1l := hp.lenPm1
  have hpm2l := hp.lenPm2
  have hp1k := hp.p1len
  have hpm1k := hp.pm1len
  have hpm2k := hp.pm2len
  -- r(1)
  rw [slice_take hp.p1.le, ok_bind]
  refine Ex.bind ((hsq _ b1 _ hp.p1.take_digs dg1 hwdd
    (by rw [hp.p1.take_len]; omega) (by rw [hp.p1.take_len]; omega) (by omega) pr1).congr
    (by rw [hp.p1.take_len, hp.p1.take_val, hp.n1])) ?_
  rintro ⟨r1, w1, lenR1⟩ m1
  have m1b : Pre B r1 lenR1 (val B (p.p1.take p.lenP1) * val B (p.p1.take p.lenP1)) :=
    ⟨m1.digs hB dg1, m1.lt_len, m1.rep.val_eq⟩
  have m1l := m1.len
  have m1w := m1.wlen
  have m1d : Digs B w1 := m1.wdigs
  have m1n := m1.le
  have m1c := m1.rep.canon
  rw [hp.p1.take_val] at m1b
  rw [hp.p1.take_len] at m1n
  simp only [] at m1b m1l m1w m1n m1c ⊢
  clear m1
  -- r(-1)
  rw [slice_take hp.pm1.le, ok_bind]
  refine Ex.bind ((hsq _ b2 _ hp.pm1.take_digs dg2 m1d
    (by rw [hp.pm1.take_len]; omega) (by rw [hp.pm1.take_len]; omega) (by omega) pr2).congr
    (by rw [hp.pm1.take_len, hp.pm1.take_val, hp.nm1])) ?_
  rintro ⟨rm1, w2, lenRm1⟩ m2
  obtain ⟨rm1', fe1, fb1, fl1, fc1⟩ := m2.fill hB
  have m2w := m2.wlen
  have m2d : Digs B w2 := m2.wdigs
  rw [hp.pm1.take_val] at fb1
  simp only [] at fe1 fb1 fl1 fc1 m2w ⊢
  rw [fe1, ok_bind]
  simp only []
  clear m2 fe1
  -- r(-2)
  rw [slice_take hp.pm2.le, ok_bind]
  refine Ex.bind ((hsq _ b3 _ hp.pm2.take_digs dg3 m2d
    (by rw [hp.pm2.take_len]; omega) (by rw [hp.pm2.take_len]; omega) (by omega) pr3).congr
    (by rw [hp.pm2.take_len, hp.pm2.take_val, hp.nm2])) ?_
  rintro ⟨rm2, w3, lenRm2⟩ m3
  obtain ⟨rm2', fe2, fb2, fl2, fc2⟩ := m3.fill hB
  have m3w := m3.wlen
  have m3d : Digs B w3 := m3.wdigs
  rw [hp.pm2.take_val] at fb2
  simp only [] at fe2 fb2 fl2 fc2 m3w ⊢
  rw [fe2, ok_bind]
  simp only []
  clear m3 fe2
  -- clear the result
  rw [onSlice_fill (by simp only [List.length_append]; omega), ok_bind]
  simp only []
  have hzero : List.replicate (2 * x.length) 0 ++ (p.p1 ++ p.pm1 ++ p.pm2).drop (2 * x.length)
      = List.replicate len 0 := by
    have h1 : (p.pm2.drop (2 * x.length - (p.p1 ++ p.pm1).length))
        = List.replicate (len - 2 * x.length) 0 := by
      rw [List.length_append]
      have hz := (hp.pm2.mono (k := 2 * x.length - (p.p1.length + p.pm1.length)) (by omega)
        (by omega)).zeros
      rw [hz, List.drop_left' (by rw [List.length_take]; omega)]
      congr 1; omega
    rw [List.drop_append, h1, List.drop_eq_nil_of_le (by rw [List.length_append]; omega),
      List.nil_append, List.replicate_append_replicate]
    congr 1; omega
  rw [hzero]
  simp only [List.length_replicate, toomSquareInterp_eq]
  clear hzero
  have hp0 := hp.p0
  have hp0l := hp.p0len
  have hpil := hp.pinflen
  have hpi := hp.pinfv
  have hpid := hp.pinf
  have hV : val B x * val B x = p0 * p0 + B ^ b * (p0 * p1 + p1 * p0)
      + B ^ (2 * b) * (p0 * p2 + p1 * p1 + p2 * p0) + B ^ (3 * b) * (p1 * p2 + p2 * p1)
      + B ^ (4 * b) * (p2 * p2) := by
    rw [pv, show 2 * b = b + b by ring, show 3 * b = b + b + b by ring,
      show 4 * b = b + b + b + b by ring]
    simp only [pow_add]
    ring
  have hbounds := toom_bounds L.base pb0 pb1 pb2 pb0 pb1 pb2
  have hpm1v := hp.pm1v
  have hpm2v := hp.pm2v
  have hVn : val B x * val B x < B ^ (2 * x.length) := by
    rw [two_mul, pow_add]; exact Nat.mul_lt_mul'' (val_lt hx) (val_lt hx)
  have hsv : ∀ (s : Bool) (m : Nat), sv false (m * m) = sv s m * sv s m := by
    intro s m
    rw [← sv_mul, Bool.xor_self]
  have z0p := size_canon (by have := L.base; omega) hp0.digs hp0.canon
  rw [hp0.val_eq] at z0p
  clear hp
  refine toom_end_exact L (K0 := mulPanics B d (size B p0) p0 (size B p0) p0 = true)
    (K4 := mulPanics B d (x.length - 2 * b) p2 (x.length - 2 * b) p2 = true) (s1 := false) (s2 := false)
    (f0 := square p.p0) (f4 := square p.pinf) (b := b)
    (n := 2 * x.length) (k := 2 * b + 1) (len := len) (wk := ws)
    (nd0 := 2 * p.p0.length) (nd4 := 2 * p.pinf.length)
    (c0 := p0 * p0) (c4 := p2 * p2) (work := work) (result := List.replicate len 0)
    ?_ ?_ m3d (by omega) m1b m1c (fun h => by simp at h) fb1 fc1 fb2 fc2 ?_ ?_ ?_ hbounds (by omega)
    (by omega) (by omega) (by omega) hV hVn hlen (by omega) (fun _ => by omega) (by omega)
    (Or.inl (by omega)) (by simp) (by omega)
  · intro w hwd hwl
    have := hsq p.p0 (List.replicate (min (4 * b) len) 0) w hp0.digs
      (digs_replicate hB) hwd (by omega) (by rw [List.length_replicate]; omega) hwl (hPr0 _)
    rw [hp0.val_eq] at this
    rw [z0p]
    exact this
  · intro w hwd hwl
    have := hsq p.pinf (List.replicate (len - min (4 * b) len) 0) w
      hpid (digs_replicate hB) hwd (by omega) (by rw [List.length_replicate]; omega) hwl (hPr0 _)
    rw [hpi] at this
    rw [← hpil]
    exact this
  · ring
  · rw [hsv p.signPm1, hpm1v]; push_cast; ring
  · rw [hsv p.signPm2, hpm2v]; push_cast; ring


/-- Squaring with one level of Toom-Cook, if the result buffer is clear. -/
theorem squareIntoWithWork_exact_mid {dbg : Bool} (L : Lawful D B) {d fuel len : Nat} {x work : List Nat}
    (hx : Digs B x) (hw : Digs B work) (hf : x.length < fuel) (hd : x.length ≤ d)
    (h378 : x.length ≤ 378) (hlen : 2 * x.length ≤ len) (hwk : toom3WorkSize x.length ≤ work.length) :
    Ex (mulPanics B d x.length (val B x) x.length (val B x) = true)
      (squareIntoWithWork D dbg fuel x (List.replicate len 0) work)
      (MulPost B (2 * x.length) (val B x * val B x) (List.replicate len 0) work) := by
  by_cases h128 : x.length < 128
  · rw [mulPanics_small (by omega)]
    exact squareIntoWithWork_exact L fuel d hx (digs_replicate L.pos) hw hf hd h128
      (by simpa using hlen) (fun _ => le_trans (karatsuba_le_toom3 _) hwk)
  · cases fuel with
    | zero => omega
    | succ fuel =>
      cases d with
      | zero => omega
      | succ d =>
        unfold squareIntoWithWork
        rw [if_neg (by rintro rfl; simp at h128)]
        simp only []
        refine Ex.bind_eq (a := ()) (by simp [assertR, hlen]) ?_
        rw [if_pos (by unfold toom3Cutoff; omega)]
        refine squareToom3Into_exact (Pr := fun _ => True) L hx hw (by omega) hlen hwk
          (fun _ => trivial) (Or.inl fun _ => trivial) ?_
        intro a pr wk ha hpr hwkd hal hl hwl _
        rw [mulPanics_small (by omega)]
        exact squareIntoWithWork_exact L fuel d ha hpr hwkd (by omega) (by omega) (by omega) hl
          (fun _ => le_trans (le_trans (karatsuba_le_toom3 _) (toom3WorkSize_mono (by omega))) hwl)

theorem square_exact_mid {dbg : Bool} (L : Lawful D B) {x : List Nat} (d : Nat)
    (hx : Digs B x) (h1131 : x.length ≤ 1131) (hd : x.length ≤ d) :
    Ex (mulPanics B d x.length (val B x) x.length (val B x) = true) (square D dbg x)
      (Rep B · (val B x * val B x)) := by
  have hB := L.pos
  by_cases h1 : x.length < 128
  · rw [mulPanics_small (by omega)]
    exact square_exact L d hx h1 hd
  have h0 : x ≠ [] := by rintro rfl; simp at h1
  unfold square
  rw [if_neg h0]
  unfold squareInto
  rw [if_neg h0]
  simp only [List.length_replicate, le_refl, decide_true, assertR, if_true, ok_bind]
  rw [if_pos (by unfold toom3Cutoff; omega)]
  cases d with
  | zero => omega
  | succ d =>
    have key := squareToom3Into_exact (dbg := dbg) (d := d) (len := 2 * x.length)
      (Pr := fun l => l = List.replicate l.length 0)
      (square := squareIntoWithWork D dbg (mulFuel x.length)) L hx
      (digs_replicate (n := toom3WorkSize x.length) hB) (by omega) (le_refl _) (by simp)
      (fun k => by simp) (Or.inr (by
        have := toom3WorkSize_eq x.length
        rw [if_pos (by omega)] at this
        rw [List.take_replicate]
        congr 1; omega)) (by
        intro a pr wk ha hpr hwkd hal hl hwl hpz
        rw [hpz]
        exact squareIntoWithWork_exact_mid L ha hwkd (by unfold mulFuel; omega) (by omega) (by omega)
          (by omega) (le_trans (toom3WorkSize_mono (by omega)) hwl))
    refine Ex.congr (K := (mulPanics B (d + 1) x.length (val B x) x.length (val B x) = true) ∨ False)
      ?_ (by simp)
    rw [bind_assoc]
    refine Ex.bind key ?_
    rintro ⟨r, w, n⟩ h
    exact ⟨not_false, h.prod.rep⟩

end Babs
