import Verif.Proofs.DivErr

/-!
# Helper lemmas: what happens at a tie

If the leading digits of a partial remainder and of the scaled divisor are equal, the estimate of the
quotient digit does not fit a digit.  For the binary types it is cut off, and becomes 0 or 1 although
the right digit is at least 2.  Later digits cannot make up for it, so that the quotient is too small.
-/

namespace Babs

variable {D : DigitOps} {B : Nat} {dbg : Bool}

/-- The quotient of `div_carry` is cut off to a digit. -/
structure WrapLaw (D : DigitOps) (B : Nat) : Prop where
  base : 8 ≤ B
  divLt : ∀ a f c v, D.divCarry a f c = .ok v → v.1 < B
  decLt : ∀ q v, D.dec q = .ok v → v.1 < B
  tie : ∀ a f, a < B → f < B → B ≤ 2 * f → ∃ r, D.divCarry a f f = .ok (a / f, r)

theorem bin_wrapLaw (w : Width) (dbg : Bool) :
    WrapLaw ((DType.bin w).ops dbg) (DType.bin w).radix := by
  have hw : 8 ≤ w.bits := by cases w <;> simp [Width.bits]
  have hr : (DType.bin w).radix = 2 ^ w.bits := rfl
  have ho : (DType.bin w).ops dbg = binOps dbg w.bits := rfl
  rw [hr, ho]
  generalize w.bits = k at hw
  have hB : 2 ^ 8 ≤ 2 ^ k := Nat.pow_le_pow_right (by omega) hw
  have hBB : 2 ^ (2 * k) = 2 ^ k * 2 ^ k := by rw [two_mul, pow_add]
  refine ⟨by omega, ?_, ?_, ?_⟩
  · intro a f c v h
    simp only [binOps, Bin.divCarry] at h
    cases h1 : shlW dbg (2 * k) c k with
    | error p => rw [h1, error_bind] at h; simp at h
    | ok s =>
      rw [h1, ok_bind] at h
      cases h2 : divW (s ||| a) f with
      | error p => rw [h2, error_bind] at h; simp at h
      | ok q =>
        rw [h2, ok_bind] at h
        cases h3 : remW (s ||| a) f with
        | error p => rw [h3, error_bind] at h; simp at h
        | ok r =>
          rw [h3, ok_bind, pure_eq_ok, Except.ok.injEq] at h
          subst h
          exact Nat.mod_lt _ (by positivity)
  · intro q v h
    simp only [binOps, Bin.dec, overflowingSub, Except.ok.injEq] at h
    subst h
    exact Nat.mod_lt _ (by positivity)
  · intro a f ha hf hB2
    have h1 : f * 2 ^ k < 2 ^ (2 * k) := by
      rw [hBB]; exact Nat.mul_lt_mul_of_pos_right hf (by positivity)
    refine ⟨castW k ((f * 2 ^ k + a) % f), ?_⟩
    simp only [binOps, Bin.divCarry]
    rw [shlW_ok (by omega) h1, ok_bind, divW_ok (by omega), ok_bind, remW_ok (by omega), ok_bind,
      pure_eq_ok, mul_or_eq_add ha, Nat.mul_add_div (by omega)]
    have h2 : a / f < 2 ^ k := lt_of_le_of_lt (Nat.div_le_self _ _) ha
    congr 2
    unfold castW
    rw [Nat.add_mod_left, Nat.mod_eq_of_lt h2]

theorem Sp.of_ok {α : Type} {x : R α} {Q : α → Prop} (h : ∀ v, x = .ok v → Q v) :
    Sp (fun _ => True) x Q := by
  cases x with
  | error p => trivial
  | ok v => exact h v rfl

theorem setR_any {l : List Nat} {i v : Nat} :
    Sp (fun _ => True) (setR l i v) (fun r => r = l.set i v) := by
  unfold setR
  split
  · exact Sp.ok rfl
  · trivial

/-! ## Schoolbook division -/

theorem longStep_any (W : WrapLaw D B) (den num quot qden : List Nat) (msd iq : Nat) :
    Sp (fun _ => True) (longStep D dbg den msd iq num quot qden)
      (fun r => ∃ q, q < B ∧ r.2.1 = quot.set iq q) := by
  unfold longStep
  simp only []
  refine Sp.bind sp_true fun _ _ => ?_
  refine Sp.bind sp_true fun _ _ => ?_
  refine Sp.bind (Sp.of_ok fun v h => W.divLt _ _ _ v h) ?_
  rintro ⟨q, _⟩ hq
  refine Sp.bind (P := fun r => r.2.2 < B) ?_ ?_
  · split
    · exact Sp.pure hq
    · refine Sp.bind sp_true fun _ _ => ?_
      refine Sp.bind (P := fun r => r.1 < B) ?_ ?_
      · refine Sp.bind sp_true fun _ _ => ?_
        split
        · refine Sp.bind (Sp.of_ok fun v h => W.decLt _ v h) ?_
          rintro ⟨q1, _⟩ hq1
          refine Sp.bind sp_true fun _ _ => ?_
          refine Sp.bind sp_true fun _ _ => ?_
          split
          · refine Sp.bind (Sp.of_ok fun v h => W.decLt _ v h) ?_
            rintro ⟨q2, _⟩ hq2
            refine Sp.bind sp_true fun _ _ => ?_
            exact Sp.pure hq2
          · exact Sp.pure hq1
        · exact Sp.pure hq
      · rintro ⟨q1, _⟩ hq1
        refine Sp.bind sp_true fun _ _ => ?_
        exact Sp.pure hq1
  · rintro ⟨n1, d1, q1⟩ hq1
    refine Sp.bind setR_any ?_
    rintro _ rfl
    exact Sp.pure ⟨q1, hq1, rfl⟩

theorem longLoop_any (W : WrapLaw D B) (den : List Nat) (msd iq : Nat) :
    ∀ (num ql qh qden : List Nat), ql.length = iq →
    Sp (fun _ => True) (longLoop D dbg den msd iq num (ql ++ qh) qden)
      (fun r => ∃ ql', r.2.1 = ql' ++ qh ∧ ql'.length = iq ∧ Digs B ql') := by
  induction iq with
  | zero =>
    intro num ql qh qden h
    exact Sp.ok ⟨ql, rfl, h, by rw [List.eq_nil_of_length_eq_zero h]; exact digs_nil B⟩
  | succ iq ih =>
    intro num ql qh qden h
    obtain ⟨ql, x, rfl⟩ : ∃ ql' x, ql = ql' ++ [x] :=
      ⟨ql.dropLast, ql.getLast (by intro h'; simp [h'] at h),
        (List.dropLast_concat_getLast _).symm⟩
    have hql : ql.length = iq := by simpa using h
    rw [longLoop]
    refine Sp.bind (longStep_any W _ _ _ _ _ _) ?_
    rintro ⟨n1, q1, d1⟩ ⟨q, hq, h1⟩
    simp only at h1 ⊢
    have hset : ((ql ++ [x]) ++ qh).set iq q = ql ++ (q :: qh) := by
      rw [List.append_assoc, List.set_append_right _ _ (by omega), hql]
      simp
    rw [h1, hset]
    refine (ih n1 ql (q :: qh) d1 hql).mono ?_
    rintro ⟨n2, q2, d2⟩ ⟨ql', h2, h3, h4⟩
    exact ⟨ql' ++ [q], by simpa using h2, by simp [h3], by simp [h4, hq]⟩

/-- At a tie, the digit is 0 or 1. -/
theorem longStep_tie (L : Lawful D B) (W : WrapLaw D B) {lo u hi v quot qden : List Nat}
    {a f iq : Nat} (hu : Digs B (u ++ [a, f])) (hv : Digs B (v ++ [f]))
    (huv : u.length = v.length) (hlo : lo.length = iq) (hB : B ≤ 2 * f)
    (hqd : qden.length = v.length + 2) :
    Sp (fun _ => True) (longStep D dbg (v ++ [f]) f iq (lo ++ (u ++ [a, f]) ++ hi) quot qden)
      (fun r => ∃ q, q ≤ 1 ∧ r.2.1 = quot.set iq q) := by
  have hB0 := L.pos
  have hdu := hu
  have hdv := hv
  simp only [digs_append, digs_cons, digs_nil, and_true] at hu hv
  have hnden : (v ++ [f]).length = v.length + 1 := by simp
  unfold longStep
  simp only [hnden]
  have hg1 : getR (lo ++ (u ++ [a, f]) ++ hi) (iq + (v.length + 1) - 1) = .ok a := by
    rw [getR_ok (by simp; omega)]
    congr 1
    simp [hlo, huv]
  have hg2 : getR (lo ++ (u ++ [a, f]) ++ hi) (iq + (v.length + 1)) = .ok f := by
    rw [getR_ok (by simp; omega)]
    congr 1
    simp [hlo, huv]
  obtain ⟨r, hdc⟩ := W.tie a f hu.2.1 hv.2 hB
  rw [hg1, ok_bind, hg2, ok_bind, hdc, ok_bind]
  simp only []
  have haf : a / f ≤ 1 := by
    have : a / f < 2 := by rw [Nat.div_lt_iff_lt_mul (by omega)]; omega
    omega
  refine Sp.bind (P := fun r => r.2.2 ≤ 1) ?_ ?_
  · split
    · exact Sp.pure haf
    · rename_i h0
      have h1 : a / f = 1 := by
        generalize a / f = q at h0 haf
        omega
      rw [h1]
      obtain ⟨r0, t0, e1, e2, e3, e4, e5⟩ := mulDigitInto_q (dbg := dbg) L
        (q := 1) (Or.inl (by have := W.base; omega)) (v ++ [f]) qden hdv (by simp [hqd])
      rw [e1, ok_bind]
      have hsl : slice (lo ++ (u ++ [a, f]) ++ hi) iq (iq + (v.length + 1) + 1) = .ok (u ++ [a, f]) :=
        slice_append hlo (by simp [huv]; omega)
      rw [hsl, ok_bind]
      have hwtop : u ++ [a, f] = (u ++ [a]) ++ [f] := by simp
      have hlu : (u ++ [a]).length = v.length + 1 := by simp [huv]
      have hdu1 : Digs B (u ++ [a]) := by simp [hu.1, hu.2.1]
      have hge : ltBig (u ++ [a, f]) (r0 ++ [t0]) = false := by
        rw [hwtop, ltBig_dec (ltBig_top (a := f) (b := t0) hdu1 e3 (by rw [e2, hnden, hlu]))]
        simp only [decide_eq_false_iff_not, not_lt, hlu]
        rw [hnden] at e5
        rw [e5]
        have h2 := val_lt hdv
        rw [hnden] at h2
        have h3 : B ^ (v.length + 1) * 1 ≤ B ^ (v.length + 1) * f :=
          Nat.mul_le_mul_left _ (by omega)
        omega
      rw [hge]
      simp only [Bool.false_eq_true, if_false, pure_bind]
      refine Sp.bind sp_true fun _ _ => ?_
      exact Sp.pure (le_refl 1)
  · rintro ⟨n1, d1, q1⟩ hq1
    refine Sp.bind setR_any ?_
    rintro _ rfl
    exact Sp.pure ⟨q1, hq1, rfl⟩

set_option maxHeartbeats 1000000 in
/-- If there is a tie somewhere, the quotient is too small. -/
theorem longLoop_tie (L : Lawful D B) (W : WrapLaw D B) {v : List Nat} {f : Nat}
    (hv : Digs B (v ++ [f])) (hB : B ≤ 2 * f) (iq : Nat) :
    ∀ (lo w hi ql qh qden : List Nat), lo.length = iq → w.length = v.length + 1 → Digs B lo →
      Digs B w → ql.length = iq → qden.length = v.length + 2 → val B w < val B (v ++ [f]) →
      (∃ i, i < iq ∧ f * B ^ v.length
        ≤ ((val B lo + B ^ iq * val B w) / B ^ (i + 1)) % val B (v ++ [f])) →
    Sp (fun _ => True) (longLoop D dbg (v ++ [f]) f iq (lo ++ w ++ hi) (ql ++ qh) qden)
      (fun r => ∃ ql', r.2.1 = ql' ++ qh ∧ ql'.length = iq ∧ Digs B ql' ∧
        val B ql' < (val B lo + B ^ iq * val B w) / val B (v ++ [f])) := by
  have hB0 := L.pos
  induction iq with
  | zero => rintro lo w hi ql qh qden - - - - - - - ⟨i, hi, -⟩; omega
  | succ iq ih =>
    intro lo w hi ql qh qden h1 h2 h3 h4 h5 h6 h7 h8
    obtain ⟨lo, d, rfl⟩ : ∃ lo' d, lo = lo' ++ [d] :=
      ⟨lo.dropLast, lo.getLast (by intro h; simp [h] at h1),
        (List.dropLast_concat_getLast _).symm⟩
    obtain ⟨ql, x, rfl⟩ : ∃ ql' x, ql = ql' ++ [x] :=
      ⟨ql.dropLast, ql.getLast (by intro h; simp [h] at h5),
        (List.dropLast_concat_getLast _).symm⟩
    obtain ⟨u0, c, rfl⟩ : ∃ u c, w = u ++ [c] :=
      ⟨w.dropLast, w.getLast (by intro h; simp [h] at h2),
        (List.dropLast_concat_getLast _).symm⟩
    have hlo : lo.length = iq := by simpa using h1
    have hql : ql.length = iq := by simpa using h5
    have hu0 : u0.length = v.length := by simpa using h2
    simp only [digs_append, digs_cons, digs_nil, and_true] at h3 h4
    -- the window
    obtain ⟨u, a, hua⟩ : ∃ u a, d :: u0 = u ++ [a] :=
      ⟨(d :: u0).dropLast, (d :: u0).getLast (by simp), (List.dropLast_concat_getLast _).symm⟩
    have hul : u.length = v.length := by
      have := congrArg List.length hua
      simp at this; omega
    have hwin : [d] ++ (u0 ++ [c]) = u ++ [a, c] := by
      have : u ++ [a, c] = (u ++ [a]) ++ [c] := by simp
      rw [this, ← hua]; simp
    have hdw : Digs B (u ++ [a, c]) := by rw [← hwin]; simp [h3.2, h4.1, h4.2]
    have hvwin : val B (u ++ [a, c]) = d + B * val B (u0 ++ [c]) := by rw [← hwin]; simp
    have hd := h3.2
    have hlt : val B (u ++ [a, c]) < val B (v ++ [f]) * B := by
      rw [hvwin]
      have : B * (val B (u0 ++ [c]) + 1) ≤ B * val B (v ++ [f]) := Nat.mul_le_mul_left _ h7
      have h9 : B * (val B (u0 ++ [c]) + 1) = B * val B (u0 ++ [c]) + B := by ring
      have h10 : val B (v ++ [f]) * B = B * val B (v ++ [f]) := Nat.mul_comm _ _
      omega
    have hY : 0 < val B (v ++ [f]) := by omega
    have hX : val B (lo ++ [d]) + B ^ (iq + 1) * val B (u0 ++ [c])
        = val B lo + B ^ iq * val B (u ++ [a, c]) := by
      rw [hvwin, val_snoc, hlo]; ring
    have hvlo := val_lt h3.1
    rw [hlo] at hvlo
    have harg : (lo ++ [d]) ++ (u0 ++ [c]) ++ hi = lo ++ (u ++ [a, c]) ++ hi := by
      rw [← hwin]; simp
    have hset : ∀ q, ((ql ++ [x]) ++ qh).set iq q = ql ++ (q :: qh) := by
      intro q
      rw [List.append_assoc, List.set_append_right _ _ (by omega), hql]
      simp
    rw [longLoop, harg]
    by_cases hcf : c < f
    · -- no tie here
      obtain ⟨w1, qden1, e1, e2, e3, e4, e5, e6⟩ := longStep_spec (dbg := dbg) L (lo := lo) (hi := hi)
        (quot := (ql ++ [x]) ++ qh) (iq := iq) hdw hv hul hlo hB (by simp; omega) h6 hlt (Or.inl hcf)
      obtain ⟨w2, z, rfl⟩ : ∃ w' z, w1 = w' ++ [z] :=
        ⟨w1.dropLast, w1.getLast (by intro h; simp [h] at e2),
          (List.dropLast_concat_getLast _).symm⟩
      have hw2 : w2.length = v.length + 1 := by simpa using e2
      simp only [digs_append, digs_cons, digs_nil, and_true] at e3
      have hmlt : val B (u ++ [a, c]) % val B (v ++ [f]) < val B (v ++ [f]) := Nat.mod_lt _ hY
      have hYlt := val_lt hv
      have hz : z = 0 := by
        rw [val_snoc, hw2] at e4
        simp only [List.length_append, List.length_singleton] at hYlt
        by_contra h
        have : B ^ (v.length + 1) * 1 ≤ B ^ (v.length + 1) * z := Nat.mul_le_mul_left _ (by omega)
        omega
      subst hz
      have hvw2 : val B w2 = val B (u ++ [a, c]) % val B (v ++ [f]) := by
        rw [← e4, val_snoc]; simp
      have hdl := val_lt (b := B) (ds := lo ++ [d]) (by simp [h3.1, h3.2])
      rw [h1] at hdl
      have hnot : ¬ f * B ^ v.length
          ≤ (val B (lo ++ [d]) + B ^ (iq + 1) * val B (u0 ++ [c])) / B ^ (iq + 1) % val B (v ++ [f]) := by
        rw [Nat.add_comm (val B (lo ++ [d])), Nat.mul_add_div (pow_pos hB0 _),
          Nat.div_eq_of_lt hdl, Nat.add_zero, Nat.mod_eq_of_lt h7, val_snoc, hu0]
        have h9 := val_lt h4.1
        rw [hu0] at h9
        have h10 : B ^ v.length * (c + 1) ≤ B ^ v.length * f := Nat.mul_le_mul_left _ hcf
        have h11 : B ^ v.length * (c + 1) = B ^ v.length * c + B ^ v.length := by ring
        have h12 : f * B ^ v.length = B ^ v.length * f := Nat.mul_comm _ _
        omega
      rw [e1, ok_bind]
      simp only []
      generalize hN : val B (u ++ [a, c]) = N at *
      generalize hYv : val B (v ++ [f]) = Y at *
      have hNq := Nat.mod_add_div N Y
      have hXX : val B lo + B ^ iq * N = (val B lo + B ^ iq * val B w2) + B ^ iq * (N / Y) * Y := by
        rw [hvw2]
        conv_lhs => rw [← hNq]
        ring
      have hq : N / Y < B := by
        rw [Nat.div_lt_iff_lt_mul hY]; rw [Nat.mul_comm]; exact hlt
      have hnum : lo ++ (w2 ++ [0]) ++ hi = lo ++ w2 ++ (0 :: hi) := by simp
      rw [hset, hnum]
      refine (ih lo w2 (0 :: hi) ql (N / Y :: qh) qden1 hlo hw2 h3.1 e3.1 hql e5 (by omega) ?_).mono ?_
      · obtain ⟨i, hi, h⟩ := h8
        have hi2 : i < iq := by
          by_contra hc
          have : i = iq := by omega
          subst this
          exact hnot h
        refine ⟨i, hi2, ?_⟩
        rw [hX, hXX] at h
        obtain ⟨j, rfl⟩ : ∃ j, iq = (i + 1) + j := ⟨iq - (i + 1), by omega⟩
        have e : B ^ (i + 1 + j) * (N / Y) * Y = B ^ (i + 1) * (B ^ j * (N / Y) * Y) := by
          rw [pow_add]; ring
        rw [e, Nat.add_mul_div_left _ _ (pow_pos hB0 _), Nat.add_mul_mod_self_right] at h
        exact h
      · rintro ⟨n2, q2, d2⟩ ⟨ql', f1, f2, f3, f4⟩
        refine ⟨ql' ++ [N / Y], by simpa using f1, by simp [f2], by simp [f3, hq], ?_⟩
        rw [hX, hXX, Nat.add_mul_div_right _ _ hY, val_snoc, f2]
        omega
    · -- a tie
      have hceq : c = f := by
        by_contra h
        have h9 : B ^ v.length * (f + 1) ≤ B ^ v.length * c := Nat.mul_le_mul_left _ (by omega)
        have h10 : B ^ v.length * (f + 1) = B ^ v.length * f + B ^ v.length := by ring
        have h11 := val_lt (b := B) (ds := v) (by rw [digs_append] at hv; exact hv.1)
        rw [val_snoc, val_snoc, hu0] at h7
        omega
      subst hceq
      refine Sp.bind (longStep_tie L W hdw hv hul hlo hB h6) ?_
      rintro ⟨n1, q1, d1⟩ ⟨q, hq, e1⟩
      simp only at e1 ⊢
      rw [e1, hset]
      refine (longLoop_any W _ _ _ _ ql (q :: qh) _ hql).mono ?_
      rintro ⟨n2, q2, d2⟩ ⟨ql', f1, f2, f3⟩
      have hb := W.base
      refine ⟨ql' ++ [q], by simpa using f1, by simp [f2], by simp [f3]; omega, ?_⟩
      -- the right digit is at least 2
      have h2Y : 2 * val B (v ++ [c]) ≤ val B (u ++ [a, c]) := by
        have h9 : val B (u ++ [a, c]) = B ^ v.length * (a + B * c) + val B u := by
          rw [val_append, hul]; simp; ring
        have h10 := val_lt (b := B) (ds := v) (by rw [digs_append] at hv; exact hv.1)
        have h11 : 2 * (c + 1) ≤ a + B * c := by
          have : 8 * c ≤ B * c := Nat.mul_le_mul_right _ hb
          omega
        have h12 : B ^ v.length * (2 * (c + 1)) ≤ B ^ v.length * (a + B * c) :=
          Nat.mul_le_mul_left _ h11
        have h13 : B ^ v.length * (2 * (c + 1)) = 2 * (B ^ v.length * c + B ^ v.length) := by ring
        rw [h9, val_snoc]
        omega
      have h9 := val_lt f3
      rw [f2] at h9
      rw [hX, val_snoc, f2]
      have h10 : B ^ iq * q ≤ B ^ iq * 1 := Nat.mul_le_mul_left _ hq
      rw [Nat.mul_one] at h10
      have h11 : B ^ iq * 2 * val B (v ++ [c]) ≤ val B lo + B ^ iq * val B (u ++ [a, c]) := by
        have := Nat.mul_le_mul_left (B ^ iq) h2Y
        have e : B ^ iq * (2 * val B (v ++ [c])) = B ^ iq * 2 * val B (v ++ [c]) := by ring
        omega
      have h12 := (Nat.le_div_iff_mul_le hY).mpr h11
      omega

/-- What is known of the quotient after a tie: its digits do not have the right value. -/
def QuotNe (B q : Nat) (r : List Nat × List Nat × List Nat × Nat × Nat) : Prop :=
  val B (r.2.1.take r.2.2.2.1) ≠ q

set_option maxHeartbeats 1000000 in
/-- After a tie the quotient is too small. -/
theorem divBigLongScaled_tie_lt (L : Lawful D B) (W : WrapLaw D B) {num v quot work : List Nat}
    {c f : Nat} (hn : Digs B num) (hv : Digs B (v ++ [f])) (hlen : v.length + 1 ≤ num.length)
    (hB : B ≤ 2 * f) (hcf : c < f) (hq : num.length - (v.length + 1) ≤ quot.length)
    (hw : v.length + 2 ≤ work.length)
    (ht : ∃ i, i < num.length - (v.length + 1) ∧ f * B ^ v.length
      ≤ ((val B num + B ^ num.length * c) / B ^ (i + 1)) % val B (v ++ [f])) :
    Sp (fun _ => True) (divBigLongScaled D dbg num c (v ++ [f]) quot work)
      (fun r => ∃ qd j, r.2.1 = qd ++ quot.drop j ∧ val B (r.2.1.take r.2.2.2.1) = val B qd ∧
        val B qd < (val B num + B ^ num.length * c) / val B (v ++ [f])) := by
  have hB0 := L.pos
  have hnden : (v ++ [f]).length = v.length + 1 := by simp
  have hf : f < B := hv f (by simp)
  unfold divBigLongScaled
  have hg : getR (v ++ [f]) ((v ++ [f]).length - 1) = .ok f := by
    rw [getR_ok (by simp)]; simp
  simp only []
  rw [hg, ok_bind]
  refine Sp.bind sp_true fun _ _ => ?_
  refine Sp.bind sp_true fun _ _ => ?_
  rw [splitAtR_ok (by rw [hnden]; omega), ok_bind]
  simp only []
  obtain ⟨lo, ua, hlo, hsplit⟩ : ∃ lo ua, lo.length = num.length - (v.length + 1) ∧ num = lo ++ ua :=
    ⟨num.take _, num.drop _, by simp, (List.take_append_drop (num.length - (v.length + 1)) num).symm⟩
  have hual : ua.length = v.length + 1 := by
    have := congrArg List.length hsplit
    simp at this; omega
  obtain ⟨u, a, rfl⟩ : ∃ u a, ua = u ++ [a] :=
    ⟨ua.dropLast, ua.getLast (by intro h; simp [h] at hual), (List.dropLast_concat_getLast _).symm⟩
  have hul : u.length = v.length := by simpa using hual
  have hdig := hn
  rw [hsplit, digs_append] at hdig
  have hfirst := longFirst_spec (dbg := dbg) L (lo := lo) (quot := quot)
    (qden := work.take (v.length + 1 + 1)) hdig.2 hv hul hB (by simp; omega) hcf
  have hX : val B num + B ^ num.length * c
      = val B lo + B ^ lo.length * (val B (u ++ [a]) + B ^ (v.length + 1) * c) := by
    have : num.length = lo.length + (v.length + 1) := by omega
    rw [this, pow_add]
    rw [hsplit, val_append]; ring
  have hk : num.length - (v.length + 1) = lo.length := by omega
  rw [hX] at ht ⊢
  rw [hnden, hk]
  rw [hk] at ht hq
  conv => arg 2; arg 1; rw [hsplit]
  refine Sp.bind (hfirst.weaken fun _ _ => trivial) ?_
  rintro ⟨num1, quot1, qden1, nq1⟩ ⟨w1, h1, h2, h3, h4, h5, h7, h6⟩
  simp only at h1 h5 h6 h7 ⊢
  subst h1
  generalize hN : val B (u ++ [a]) + B ^ (v.length + 1) * c = N at *
  have hY : 0 < val B (v ++ [f]) := by
    rw [val_snoc]
    have : 0 < B ^ v.length * f := Nat.mul_pos (pow_pos hB0 _) (by omega)
    omega
  have hw1 : val B w1 < val B (v ++ [f]) := by rw [h4]; exact Nat.mod_lt _ hY
  have hXX : val B lo + B ^ lo.length * N
      = (val B lo + B ^ lo.length * val B w1) + B ^ lo.length * (N / val B (v ++ [f])) * val B (v ++ [f]) := by
    rw [h4]
    conv_lhs => rw [← Nat.mod_add_div N (val B (v ++ [f]))]
    ring
  have ht1 : ∃ i, i < lo.length ∧ f * B ^ v.length
      ≤ ((val B lo + B ^ lo.length * val B w1) / B ^ (i + 1)) % val B (v ++ [f]) := by
    obtain ⟨i, hi, h⟩ := ht
    refine ⟨i, hi, ?_⟩
    rw [hXX] at h
    obtain ⟨j, hj⟩ : ∃ j, lo.length = (i + 1) + j := ⟨lo.length - (i + 1), by omega⟩
    have e : B ^ lo.length * (N / val B (v ++ [f])) * val B (v ++ [f])
        = B ^ (i + 1) * (B ^ j * (N / val B (v ++ [f])) * val B (v ++ [f])) := by
      rw [hj, pow_add]; ring
    rw [e, Nat.add_mul_div_left _ _ (pow_pos hB0 _), Nat.add_mul_mod_self_right] at h
    exact h
  have hql1 : quot1.length = quot.length := by
    rcases h6 with ⟨h, -⟩ | ⟨-, h, -⟩
    · rw [h]
    · rw [h]; simp
  have hloop := longLoop_tie (dbg := dbg) L W hv hB
    lo.length lo w1 [] (quot1.take lo.length) (quot1.drop lo.length) qden1 rfl h2 hdig.1 h3
    (by simp; omega) h5 hw1 ht1
  rw [List.take_append_drop, List.append_nil] at hloop
  refine Sp.bind hloop ?_
  rintro ⟨num2, quot2, qden2⟩ ⟨ql', f1, f2, f3, f4⟩
  simp only at f1 ⊢
  -- the quotient
  have hq' : ∃ qd, ql' ++ quot1.drop lo.length = qd ++ quot.drop nq1 ∧ qd.length = nq1 ∧
      val B qd < (val B lo + B ^ lo.length * N) / val B (v ++ [f]) := by
    rcases h6 with ⟨g1, g2, g3, -⟩ | ⟨g1, g2, g3⟩
    · refine ⟨ql', by rw [g1, g2], by rw [f2, g2], ?_⟩
      rw [hXX, g3]; simpa using f4
    · refine ⟨ql' ++ [N / val B (v ++ [f])], ?_, by simp [f2, g3], ?_⟩
      · rw [g2, g3, List.append_assoc]
        congr 1
        have : lo.length < (quot.set lo.length (N / val B (v ++ [f]))).length := by simpa using g1
        rw [List.drop_eq_getElem_cons this, List.drop_set_of_lt (by omega)]
        simp
      · rw [val_snoc, f2, hXX, Nat.add_mul_div_right _ _ hY]
        omega
  obtain ⟨qd, q1, q2, q3⟩ := hq'
  rw [f1, q1]
  obtain ⟨nd, d1, d2, d3, d4⟩ := dropLeadingZeros_spec (qd ++ quot.drop nq1) nq1 (by simp; omega)
  rw [d1, ok_bind]
  refine Sp.bind sp_true fun _ _ => ?_
  rw [List.take_left' q2] at d3
  refine Sp.pure ⟨qd, nq1, rfl, ?_, q3⟩
  conv_rhs => rw [d3, val_append]
  simp

theorem divBigLongScaled_tie (L : Lawful D B) (W : WrapLaw D B) {num v quot work : List Nat}
    {c f : Nat} (hn : Digs B num) (hv : Digs B (v ++ [f])) (hlen : v.length + 1 ≤ num.length)
    (hB : B ≤ 2 * f) (hcf : c < f) (hq : num.length - (v.length + 1) ≤ quot.length)
    (hw : v.length + 2 ≤ work.length)
    (ht : ∃ i, i < num.length - (v.length + 1) ∧ f * B ^ v.length
      ≤ ((val B num + B ^ num.length * c) / B ^ (i + 1)) % val B (v ++ [f])) :
    Sp (fun _ => True) (divBigLongScaled D dbg num c (v ++ [f]) quot work)
      (QuotNe B ((val B num + B ^ num.length * c) / val B (v ++ [f]))) := by
  refine (divBigLongScaled_tie_lt L W hn hv hlen hB hcf hq hw ht).mono ?_
  rintro r ⟨qd, j, -, h1, h2⟩
  unfold QuotNe
  omega

theorem divBigLong_tie (L : Lawful D B) (W : WrapLaw D B) {num den quot work : List Nat}
    (hn : Digs B num) (hv : Digs B den) (cv : Canon den) (h2 : 2 < den.length)
    (hlen : den.length ≤ num.length) (hq : num.length - den.length < quot.length)
    (hw : den.length + 1 ≤ work.length)
    (hfit : ∀ s d, den.getLast? = some d → d * 2 ^ s < B → B ≤ d * 2 ^ (s + 1) →
      val B den * 2 ^ s < B ^ den.length)
    (ht : ∃ s d, den.getLast? = some d ∧ d * 2 ^ s < B ∧ B ≤ d * 2 ^ (s + 1) ∧
      ∃ i, i < num.length - den.length ∧ val B den * 2 ^ s / B ^ (den.length - 1)
        ≤ (val B num * 2 ^ s / B ^ (i + 1)) % (val B den * 2 ^ s) / B ^ (den.length - 1)) :
    Sp (fun _ => True) (divBigLong D dbg num den quot work)
      (QuotNe B (val B num / val B den)) := by
  have hB0 := L.pos
  obtain ⟨v, d, rfl⟩ : ∃ v d, den = v ++ [d] :=
    ⟨den.dropLast, den.getLast (by intro h; simp [h] at h2), (List.dropLast_concat_getLast _).symm⟩
  have hnden : (v ++ [d]).length = v.length + 1 := by simp
  have hd0 : 0 < d := by
    have := canon_snoc.mp cv
    omega
  have hd : d < B := hv d (by simp)
  have hlast : (v ++ [d]).getLast? = some d := by simp
  obtain ⟨s, d', hl', hs2, hs3, i, hi, ht⟩ := ht
  have : d' = d := by rw [hlast] at hl'; simpa using hl'.symm
  subst this
  have hfit := hfit s d' hlast hs2 hs3
  rw [hnden] at hlen hq hw h2 hi ht hfit
  obtain ⟨s', hs1', hs2', hs3'⟩ := L.maxShift d' hd0 hd
  have hss : s' = s := by
    rcases Nat.lt_trichotomy s s' with h | h | h
    · have h4 : 2 ^ (s + 1) ≤ 2 ^ s' := Nat.pow_le_pow_right (by omega) h
      have h5 := Nat.mul_le_mul_left d' h4
      omega
    · exact h.symm
    · have h4 : 2 ^ (s' + 1) ≤ 2 ^ s := Nat.pow_le_pow_right (by omega) h
      have h5 := Nat.mul_le_mul_left d' h4
      omega
  subst hss
  obtain ⟨v', f, e1, e2, e3, e4, e5, e6, e7⟩ := scaled_den L hv hs2 hs3 hfit
  have hpow : 0 < 2 ^ s' := pow_pos (by omega) _
  have h4 : val B (v ++ [d']) * 2 ^ s' / B ^ v.length = f := by
    rw [← e4, val_snoc, e2, Nat.add_comm, Nat.mul_add_div (pow_pos hB0 _),
      Nat.div_eq_of_lt, Nat.add_zero]
    have := val_lt (b := B) (ds := v') (by rw [digs_append] at e3; exact e3.1)
    rwa [e2] at this
  rw [Nat.add_sub_cancel, h4, Nat.le_div_iff_mul_le (pow_pos hB0 _)] at ht
  unfold divBigLong
  simp only [hnden]
  refine Sp.bind sp_true fun _ _ => ?_
  refine Sp.bind sp_true fun _ _ => ?_
  refine Sp.bind sp_true fun _ _ => ?_
  refine Sp.bind sp_true fun _ _ => ?_
  refine Sp.bind sp_true fun _ _ => ?_
  have hg : getR (v ++ [d']) (v.length + 1 - 1) = .ok d' := by
    rw [getR_ok (by simp)]; simp
  rw [hg, ok_bind, hs1', ok_bind]
  by_cases hs0 : s' = 0
  · subst hs0
    rw [if_pos rfl]
    simp only [pow_zero, Nat.mul_one] at ht e4 hs2 hs3 h4
    have hfd : f = d' := by
      rw [← h4, val_snoc, Nat.add_comm, Nat.mul_add_div (pow_pos hB0 _), Nat.div_eq_of_lt,
        Nat.add_zero]
      exact val_lt (by rw [digs_append] at hv; exact hv.1)
    rw [hfd] at ht
    have := divBigLongScaled_tie (dbg := dbg) L W (num := num) (v := v) (quot := quot) (work := work)
      (c := 0) (f := d') hn hv hlen (by omega) hd0 (by omega) (by omega)
      ⟨i, hi, by simpa using ht⟩
    simpa using this
  · rw [if_neg hs0, e1, ok_bind]
    simp only []
    obtain ⟨num1, c, n1, n2, n3, n4, n5⟩ := shlWithin_spec L num s' 0 hn e7 hpow
    rw [n1, ok_bind]
    simp only []
    rw [Nat.add_zero] at n5
    have hsc := divBigLongScaled_tie (dbg := dbg) L W (num := num1) (v := v') (quot := quot)
      (work := work) (c := c) (f := f) n3 e3 (by omega) e5 (by omega) (by rw [n2, e2]; omega) (by omega)
      ⟨i, by rw [n2, e2]; exact hi, by rw [n2, n5, e4, e2]; exact ht⟩
    rw [n2, n5, e4, Nat.mul_div_mul_right _ _ hpow] at hsc
    refine Sp.bind hsc ?_
    rintro ⟨num2, quot2, work2, nq2, nr2⟩ h
    refine Sp.bind sp_true ?_
    rintro ⟨a, b, c⟩ -
    exact Sp.pure h

/-! ## Division by a pair of digits -/

theorem divPairStep_any (W : WrapLaw D B) (yl f g : Nat) (rem : Nat × Nat) :
    Sp (fun _ => True) (divPairStep D yl f g rem) (fun r => r.1 < B) := by
  obtain ⟨a, c⟩ := rem
  unfold divPairStep
  simp only []
  refine Sp.bind (Sp.of_ok fun v h => W.divLt _ _ _ v h) ?_
  rintro ⟨q, _⟩ hq
  refine Sp.bind sp_true ?_
  rintro ⟨d1, c1⟩ -
  refine Sp.bind sp_true ?_
  rintro ⟨d2, d3⟩ -
  refine Sp.bind (P := fun r => r.1 < B) ?_ ?_
  · simp only []
    split
    · refine Sp.bind (Sp.of_ok fun v h => W.decLt _ v h) ?_
      rintro ⟨q1, _⟩ hq1
      refine Sp.bind sp_true ?_
      rintro ⟨_, _⟩ -
      refine Sp.bind sp_true ?_
      rintro ⟨_, _⟩ -
      split
      all_goals
        refine Sp.bind sp_true ?_
        rintro ⟨_, _⟩ -
        simp only []
        split
        · refine Sp.bind (Sp.of_ok fun v h => W.decLt _ v h) ?_
          rintro ⟨q2, _⟩ hq2
          refine Sp.bind sp_true ?_
          rintro ⟨_, _⟩ -
          refine Sp.bind sp_true ?_
          rintro ⟨_, _⟩ -
          exact Sp.pure hq2
        · exact Sp.pure hq1
    · exact Sp.pure hq
  · rintro ⟨q1, _, _⟩ hq1
    refine Sp.bind sp_true ?_
    rintro ⟨_, _⟩ -
    refine Sp.bind sp_true ?_
    rintro ⟨_, _⟩ -
    exact Sp.pure hq1

/-- At a tie, the digit is 0 or 1. -/
theorem divPairStep_tie (L : Lawful D B) (W : WrapLaw D B) {yl f g a : Nat} (hyl : yl < B)
    (hf : f < B) (hg : g < B) (ha : a < B) (hB : B ≤ 2 * f) :
    Sp (fun _ => True) (divPairStep D yl f g (a, f)) (fun r => r.1 ≤ 1) := by
  have hB0 := L.pos
  have hb := W.base
  obtain ⟨rm, hdc⟩ := W.tie a f ha hf hB
  have haf : a / f ≤ 1 := by
    have : a / f < 2 := by rw [Nat.div_lt_iff_lt_mul (by omega)]; omega
    omega
  unfold divPairStep
  simp only []
  rw [hdc, ok_bind]
  generalize a / f = q at haf
  have hqok : QOk D B q := Or.inl (by omega)
  obtain ⟨p1, k1, m1, m2, m3, m4⟩ := mulCarry_q L hyl hqok (Or.inr rfl : 0 < q ∨ 0 = 0)
  obtain ⟨p2, p3, n1, n2, n3, n4⟩ := mulCarry_q L hf hqok m3
  have hprod : p1 + B * p2 + B ^ 2 * p3 = q * (yl + B * f) := by
    have h2 : B * (f * q + k1) = B * (p2 + B * p3) := by rw [n4]
    have h3 : p1 + B * p2 + B ^ 2 * p3 = p1 + B * (p2 + B * p3) := by ring
    rw [h3, ← h2]
    have h4 : p1 + B * (f * q + k1) = (p1 + B * k1) + B * (f * q) := by ring
    rw [h4, m4]; ring
  simp only []
  rw [m1, ok_bind]
  simp only []
  rw [n1, ok_bind]
  simp only []
  have hle : q * (yl + B * f) ≤ g + B * a + B ^ 2 * f := by
    have h1 : q * (yl + B * f) ≤ 1 * (yl + B * f) := Nat.mul_le_mul_right _ haf
    have h2 : B * (f + 1) ≤ B * (B * f) := by
      apply Nat.mul_le_mul_left
      have : 8 * f ≤ B * f := Nat.mul_le_mul_right _ hb
      omega
    have h3 : B * (f + 1) = B * f + B := by ring
    have h4 : B * (B * f) = B ^ 2 * f := by ring
    omega
  rw [arrayGt_spec m2 n2 hg ha, hprod, if_neg (by simpa using hle)]
  simp only [pure_bind]
  refine Sp.bind sp_true ?_
  rintro ⟨_, _⟩ -
  refine Sp.bind sp_true ?_
  rintro ⟨_, _⟩ -
  exact Sp.pure haf

theorem divPairFold_tie (L : Lawful D B) (W : WrapLaw D B) {yl f : Nat} (hyl : yl < B) (hf : f < B)
    (hB : B ≤ 2 * f) (l : List Nat) (a c : Nat) (hl : Digs B l) (ha : a < B) (hc : c < B)
    (hlt : a + B * c < yl + B * f)
    (ht : ∃ i, i < l.length ∧
      f * B ≤ (val B l + B ^ l.length * (a + B * c)) / B ^ (i + 1) % (yl + B * f)) :
    Sp (fun _ => True) (foldDigitsRev (divPairStep D yl f) l (a, c))
      (fun r => r.1.length = l.length ∧
        val B r.1 < (val B l + B ^ l.length * (a + B * c)) / (yl + B * f)) := by
  have hB0 := L.pos
  have hY0 : 0 < yl + B * f := by omega
  induction l with
  | nil => obtain ⟨i, hi, -⟩ := ht; simp at hi
  | cons g l ih =>
    rw [digs_cons] at hl
    have hX : val B (g :: l) + B ^ (g :: l).length * (a + B * c)
        = g + B * (val B l + B ^ l.length * (a + B * c)) := by
      simp only [val_cons, List.length_cons]; ring
    rw [hX] at ht ⊢
    generalize hX1 : val B l + B ^ l.length * (a + B * c) = X1 at *
    have hXX : g + B * X1 = (g + B * (X1 % (yl + B * f))) + B * (X1 / (yl + B * f)) * (yl + B * f) := by
      conv_lhs => rw [← Nat.mod_add_div X1 (yl + B * f)]
      ring
    have hdig : (g + B * X1) / (yl + B * f)
        = (g + B * (X1 % (yl + B * f))) / (yl + B * f) + B * (X1 / (yl + B * f)) := by
      conv_lhs => rw [hXX, Nat.add_mul_div_right _ _ hY0]
    rw [foldDigitsRev]
    by_cases htl : ∃ i, i < l.length ∧ f * B ≤ X1 / B ^ (i + 1) % (yl + B * f)
    · refine Sp.bind (ih hl.2 htl) ?_
      rintro ⟨r, rem⟩ ⟨h1, h2⟩
      simp only at h1 h2 ⊢
      refine Sp.bind (divPairStep_any W _ _ _ _) ?_
      rintro ⟨q, rem'⟩ hq
      simp only at hq ⊢
      refine Sp.pure ⟨by simp [h1], ?_⟩
      rw [val_cons, hdig]
      have : B * (val B r + 1) ≤ B * (X1 / (yl + B * f)) := Nat.mul_le_mul_left _ h2
      have h3 : B * (val B r + 1) = B * val B r + B := by ring
      generalize (g + B * (X1 % (yl + B * f))) / (yl + B * f) = z
      omega
    · push Not at htl
      obtain ⟨r, a1, c1, e1, e2, e3, e4, e5, e6, e7⟩ := divPairFold_spec L hyl hf hB l a c hl.2 ha hc hlt
        (by rw [hX1]; exact Or.inr (fun i hi => by rw [pow_one]; exact htl i hi))
      rw [hX1] at e6 e7
      rw [e1, ok_bind]
      simp only []
      have htie : f * B ≤ a1 + B * c1 := by
        obtain ⟨i, hi, h⟩ := ht
        cases i with
        | zero =>
          rw [pow_one, Nat.add_mul_div_left _ _ hB0, Nat.div_eq_of_lt hl.1, Nat.zero_add] at h
          rw [e7]; exact h
        | succ i =>
          exfalso
          have := htl i (by simpa using hi)
          rw [pow_succ B (i + 1), Nat.mul_comm (B ^ (i + 1)), ← Nat.div_div_eq_div_mul,
            Nat.add_mul_div_left _ _ hB0, Nat.div_eq_of_lt hl.1, Nat.zero_add] at h
          omega
      have hmod := Nat.mod_lt X1 hY0
      have hc1 : c1 = f := by
        have h1 : ¬ c1 < f := by
          intro h
          have h2 : B * (c1 + 1) ≤ B * f := Nat.mul_le_mul_left _ h
          have h3 : B * (c1 + 1) = B * c1 + B := by ring
          have h4 : f * B = B * f := Nat.mul_comm _ _
          omega
        have h2 : ¬ f < c1 := by
          intro h
          have h2 : B * (f + 1) ≤ B * c1 := Nat.mul_le_mul_left _ h
          have h3 : B * (f + 1) = B * f + B := by ring
          omega
        omega
      subst hc1
      refine Sp.bind (divPairStep_tie L W hyl hf hl.1 e4 hB) ?_
      rintro ⟨q, rem'⟩ hq
      simp only at hq ⊢
      refine Sp.pure ⟨by simp [e2], ?_⟩
      rw [val_cons, hdig, e6]
      have h2 : 2 ≤ (g + B * (X1 % (yl + B * c1))) / (yl + B * c1) := by
        rw [Nat.le_div_iff_mul_le hY0, ← e7]
        have h3 : B * (2 * (c1 + 1)) ≤ B * (a1 + B * c1) := by
          apply Nat.mul_le_mul_left
          have : 8 * c1 ≤ B * c1 := Nat.mul_le_mul_right _ W.base
          omega
        have h4 : B * (2 * (c1 + 1)) = 2 * (B * c1 + B) := by ring
        omega
      omega

/-- `div_assign_digit_pair` with a tie. -/
theorem divAssignDigitPair_tie (L : Lawful D B) (W : WrapLaw D B) (l : List Nat) {yl yh : Nat}
    (hl : Digs B l) (hn : 2 ≤ l.length) (hyl : yl < B) (hyh : yh < B) (h0 : 0 < yh)
    (hfit : ∀ s d, [yl, yh].getLast? = some d → d * 2 ^ s < B → B ≤ d * 2 ^ (s + 1) →
      val B [yl, yh] * 2 ^ s < B ^ [yl, yh].length)
    (ht : ∃ s d, [yl, yh].getLast? = some d ∧ d * 2 ^ s < B ∧ B ≤ d * 2 ^ (s + 1) ∧
      ∃ i, i < l.length - [yl, yh].length ∧ val B [yl, yh] * 2 ^ s / B ^ ([yl, yh].length - 1)
        ≤ (val B l * 2 ^ s / B ^ (i + 1)) % (val B [yl, yh] * 2 ^ s) / B ^ ([yl, yh].length - 1)) :
    Sp (fun _ => True) (divAssignDigitPair D l yl yh)
      (fun r => ∃ nd a c, r.2 = .ok (nd, a, c) ∧ nd ≤ r.1.length ∧
        val B (r.1.take nd) ≠ val B l / (yl + B * yh)) := by
  have hB0 := L.pos
  have hden : Digs B ([yl] ++ [yh]) := by simp [hyl, hyh]
  have hvden : val B [yl, yh] = yl + B * yh := by simp
  obtain ⟨s, hs1, hs2, hs3⟩ := L.maxShift yh h0 hyh
  have hfit := hfit s yh (by simp) hs2 hs3
  obtain ⟨s', d', hl', hs2', hs3', i, hi, ht⟩ := ht
  have : d' = yh := by simpa using hl'.symm
  subst this
  have hss : s' = s := by
    rcases Nat.lt_trichotomy s s' with h | h | h
    · have h4 : 2 ^ (s + 1) ≤ 2 ^ s' := Nat.pow_le_pow_right (by omega) h
      have h5 := Nat.mul_le_mul_left d' h4
      omega
    · exact h.symm
    · have h4 : 2 ^ (s' + 1) ≤ 2 ^ s := Nat.pow_le_pow_right (by omega) h
      have h5 := Nat.mul_le_mul_left d' h4
      omega
  subst hss
  obtain ⟨v', f, e1, e2, e3, e4, e5, e6, e7⟩ := scaled_den L (v := [yl]) hden hs2 hs3
    (by simpa using hfit)
  obtain ⟨zl, rfl⟩ : ∃ zl, v' = [zl] := List.length_eq_one_iff.mp (by simpa using e2)
  have hzl : zl < B := e3 zl (by simp)
  have hf : f < B := e3 f (by simp)
  have e4' : zl + B * f = (yl + B * d') * 2 ^ s' := by
    have := e4
    simpa using this
  have hpow : 0 < 2 ^ s' := pow_pos (by omega) _
  -- the scaling
  have hscale : ∃ l1 top, (if 0 < s' then (do
          let (denLow, carry) ← D.shlCarry yl s' 0
          let (denHigh, _) ← D.shlCarry d' s' carry
          let (nr, remHigh) ← shlWithin D l s' 0
          return (nr, denLow, denHigh, remHigh))
        else return (l, yl, d', 0)) = (.ok (l1, zl, f, top) : R (List Nat × Nat × Nat × Nat)) ∧
      l1.length = l.length ∧ Digs B l1 ∧ top < 2 ^ s' ∧
      val B l1 + B ^ l.length * top = val B l * 2 ^ s' := by
    by_cases hs : 0 < s'
    · obtain ⟨l1, top, n1, n2, n3, n4, n5⟩ := shlWithin_spec L l s' 0 hl e7 hpow
      refine ⟨l1, top, ?_, n2, n3, n4, by simpa using n5⟩
      have hw := e1
      unfold shlWithin at hw
      rw [if_neg (by omega)] at hw
      simp only [List.singleton_append, foldDigits] at hw
      rw [L.shlCarry yl s' 0 hyl hs e7 hpow] at hw
      rw [if_pos hs, L.shlCarry yl s' 0 hyl hs e7 hpow, ok_bind]
      simp only [ok_bind] at hw ⊢
      have hc : (yl * 2 ^ s' + 0) / B < 2 ^ s' := by
        rw [Nat.div_lt_iff_lt_mul hB0, Nat.add_zero, Nat.mul_comm]
        exact Nat.mul_lt_mul_of_pos_left hyl hpow
      rw [L.shlCarry d' s' _ hyh hs e7 hc] at hw ⊢
      simp only [ok_bind, n1, pure_eq_ok, Except.ok.injEq, Prod.mk.injEq, List.cons.injEq, and_true] at hw ⊢
      exact ⟨trivial, hw.1⟩
    · have hs0 : s' = 0 := by omega
      subst hs0
      have hw := e1
      unfold shlWithin at hw
      simp at hw
      refine ⟨l, 0, ?_, rfl, hl, by simp, by simp⟩
      simp [hw.1, hw.2]
  obtain ⟨l1, top, n1, n2, n3, n4, n5⟩ := hscale
  obtain ⟨lo, a0, rfl⟩ : ∃ lo a0, l1 = lo ++ [a0] :=
    ⟨l1.dropLast, l1.getLast (by intro h; simp [h] at n2; omega),
      (List.dropLast_concat_getLast _).symm⟩
  have hlo : lo.length = l.length - 1 := by simp at n2; omega
  have hdlo : Digs B lo := by rw [digs_append] at n3; exact n3.1
  have ha0 : a0 < B := n3 a0 (by simp)
  have htopf : top < f := by omega
  have hR0 : a0 + B * top < zl + B * f := by
    have h1 : B * (top + 1) ≤ B * f := Nat.mul_le_mul_left _ htopf
    have h2 : B * (top + 1) = B * top + B := by ring
    omega
  have hX : val B lo + B ^ lo.length * (a0 + B * top) = val B l * 2 ^ s' := by
    rw [← n5, val_snoc]
    have : l.length = lo.length + 1 := by omega
    rw [this]; ring
  have htie : ∃ i, i < lo.length ∧ f * B ≤ (val B l * 2 ^ s') / B ^ (i + 1) % (zl + B * f) := by
    refine ⟨i, by simp at hi; omega, ?_⟩
    rw [hvden, ← e4'] at ht
    have h4 : (zl + B * f) / B ^ ([yl, d'].length - 1) = f := by
      simp only [List.length_cons, List.length_nil, Nat.add_sub_cancel, Nat.zero_add, pow_one]
      rw [Nat.add_mul_div_left _ _ hB0, Nat.div_eq_of_lt hzl, Nat.zero_add]
    rw [h4, Nat.le_div_iff_mul_le (pow_pos hB0 _)] at ht
    simpa using ht
  have hfold := divPairFold_tie L W hzl hf e5 lo a0 top hdlo ha0 (by omega) hR0 (by rw [hX]; exact htie)
  rw [hX, e4', Nat.mul_div_mul_right _ _ hpow] at hfold
  unfold divAssignDigitPair
  rw [if_neg (by omega)]
  obtain ⟨x, y, t, rfl⟩ : ∃ x y t, l = x :: y :: t := by
    match l, hn with
    | x :: y :: t, _ => exact ⟨x, y, t, rfl⟩
  simp only []
  rw [hs1, ok_bind, n1, ok_bind]
  simp only []
  have hgl : getR (lo ++ [a0]) ((x :: y :: t).length - 1) = .ok a0 := by
    rw [getR_ok (by simp at hlo ⊢; omega)]
    simp only [← hlo]
    simp
  rw [hgl, ok_bind, setR_ok (by simp at hlo ⊢; omega), ok_bind]
  have hset : (lo ++ [a0]).set ((x :: y :: t).length - 1) 0 = lo ++ [0] := by
    rw [← hlo, List.set_append_right _ _ (le_refl _)]; simp
  rw [hset]
  have hos := onSlice_append (p := []) (s := lo) (q := [0]) (a := 0)
    (b := (x :: y :: t).length - 1) (f := fun s => foldDigitsRev (divPairStep D zl f) s (a0, top))
    rfl (by omega)
  rw [List.nil_append] at hos
  rw [hos, bind_assoc]
  refine Sp.bind hfold ?_
  rintro ⟨r, rem⟩ ⟨h1, h2⟩
  simp only [pure_bind, List.nil_append] at h1 h2 ⊢
  refine Sp.bind sp_true ?_
  rintro ⟨ra, rc⟩ -
  simp only []
  have hrl : (r ++ [0]).length = (x :: y :: t).length := by simp at hlo ⊢; omega
  obtain ⟨nd, d1, d2, d3, d4⟩ := dropLeadingZeros_spec (r ++ [0]) (x :: y :: t).length (by omega)
  rw [d1, ok_bind]
  refine Sp.pure ⟨nd, ra, rc, rfl, by simp only []; omega, ?_⟩
  rw [← hrl, List.take_length] at d3
  have h3 : val B ((r ++ [0]).take nd) = val B r := by
    have h4 : val B (r ++ [0]) = val B r := by rw [val_snoc]; simp
    rw [← h4]
    conv_rhs => rw [d3, val_append]
    simp
  simp only []
  omega

/-! ## The whole -/

/-- The scaled division of `X`, a number of `nnum` digits, by `den` has a tie. -/
def HasTie (B X nnum : Nat) (den : List Nat) : Prop :=
  ∃ s d, den.getLast? = some d ∧ d * 2 ^ s < B ∧ B ≤ d * 2 ^ (s + 1) ∧
    ∃ i, i < nnum - den.length ∧ val B den * 2 ^ s / B ^ (den.length - 1)
      ≤ (X * 2 ^ s / B ^ (i + 1)) % (val B den * 2 ^ s) / B ^ (den.length - 1)

theorem copyInto_any {l src : List Nat} {n : Nat} (hn : src.length = n) :
    Sp (fun _ => True) (copyInto l 0 n src) (fun r => r.take n = src) := by
  unfold copyInto
  refine Sp.bind sp_true fun _ _ => ?_
  split
  · refine Sp.pure ?_
    rw [List.take_zero, List.nil_append, List.take_left' hn]
  · trivial

theorem divBig_tie (L : Lawful D B) (W : WrapLaw D B) {num den : List Nat}
    (hdn : Digs B num) (hdd : Digs B den) (cn : Canon num) (cd : Canon den)
    (h2 : 2 ≤ den.length) (h20 : den.length < 20) (hlen : den.length ≤ num.length)
    (hge : val B den ≤ val B num)
    (hfit : ∀ s d, den.getLast? = some d → d * 2 ^ s < B → B ≤ d * 2 ^ (s + 1) →
      val B den * 2 ^ s < B ^ den.length)
    (ht : HasTie B (val B num) num.length den) :
    Sp (fun _ => True)
      (divBig D dbg num den (List.replicate (num.length - den.length + 1) 0))
      (fun r => ∃ nq nr, r.2.2 = .ok (nq, nr) ∧ val B (r.2.1.take nq) ≠ val B num / val B den) := by
  have hB0 := L.pos
  have hne : den ≠ [] := by rintro rfl; simp at h2
  unfold divBig divBigWithWork divBigWithWorkGen
  simp only []
  obtain ⟨quot, hquot⟩ : ∃ q, List.replicate (num.length - den.length + 1) 0 = q := ⟨_, rfl⟩
  have hql : quot.length = num.length - den.length + 1 := by rw [← hquot]; simp
  rw [hquot, if_neg hne, ltBig_dec (ltBig_canon hB0 hdn hdd cn cd)]
  rw [if_neg (by simpa using hge), if_neg (by omega)]
  simp only [pure_bind, Bool.false_eq_true, if_false]
  rw [if_neg (by omega)]
  refine Sp.bind (P := fun r => ∃ nq nr, r.2.2.2 = .ok (nq, nr) ∧
    val B (r.2.1.take nq) ≠ val B num / val B den) ?_ ?_
  · split
    · rename_i h2
      obtain ⟨yl, yh, rfl⟩ : ∃ yl yh, den = [yl, yh] := by
        match den, h2 with
        | [a, b], _ => exact ⟨a, b, rfl⟩
      have hy0 : yh ≠ 0 := by simpa [canon_cons_cons, canon_singleton] using cd
      have hd2 := hdd
      simp only [digs_cons, digs_nil, and_true] at hd2
      have hg0 : getR [yl, yh] 0 = .ok yl := rfl
      have hg1 : getR [yl, yh] 1 = .ok yh := rfl
      rw [hg0, ok_bind, hg1, ok_bind]
      have hv : val B [yl, yh] = yl + B * yh := by simp
      refine Sp.bind (Sp.and (divPair_ok num yl yh hy0 (by omega))
        (divAssignDigitPair_tie L W num hdn (by omega) hd2.1 hd2.2 (by omega) hfit ht)) ?_
      rintro ⟨l, r⟩ ⟨⟨h3, nd, a, c, h4, h5⟩, nd', a', c', h6, h7, h8⟩
      simp only at h3 h4 h6 h7 h8
      rw [h4] at h6
      simp only [Except.ok.injEq, Prod.mk.injEq] at h6
      obtain ⟨rfl, rfl, rfl⟩ := h6
      subst h4
      simp only []
      rw [if_neg (by simp at hql; omega), slice_take h7, ok_bind]
      refine Sp.bind (copyInto_any (by simp; omega)) ?_
      intro q hq
      rw [hv]
      split
      · split
        · exact Sp.pure ⟨_, _, rfl, by simp only [hq]; exact h8⟩
        · exact Sp.bind sp_true fun _ _ => Sp.pure ⟨_, _, rfl, by simp only [hq]; exact h8⟩
      · refine Sp.bind sp_true fun _ _ => ?_
        exact Sp.bind sp_true fun _ _ => Sp.pure ⟨_, _, rfl, by simp only [hq]; exact h8⟩
    · have h20' : den.length < bzCutoff := h20
      rw [if_pos h20']
      refine Sp.bind sp_true fun _ _ => ?_
      have hwk : (if (decide (den.length ≤ 2) || decide (val B num < val B den)) = true then []
          else if den.length < bzCutoff then List.replicate bzCutoff 0
          else List.replicate (divBzWorkSize den.length) 0) = List.replicate bzCutoff 0 := by
        rw [if_neg (by simp; omega), if_pos h20']
      rw [hwk]
      refine Sp.bind (divBigLong_tie (dbg := dbg) L W hdn hdd cd (by omega) hlen (by omega)
        (by rw [List.length_replicate]; exact h20) hfit ht) ?_
      rintro ⟨num', quot', work', nq, nr⟩ h
      exact Sp.pure ⟨nq, nr, rfl, h⟩
  · rintro ⟨a, b, c, r⟩ ⟨nq, nr, h1, h2⟩
    exact Sp.pure ⟨nq, nr, h1, h2⟩

/-- `x / y` with a tie: the digits of the result do not have the right value. -/
theorem divOp_tie (L : Lawful D B) (W : WrapLaw D B) {x y : List Nat} {m n : Nat} (hx : Rep B x m)
    (hy : Rep B y n) (hn : n ≠ 0) (h20 : y.length < 20)
    (hfit : ∀ s d, y.getLast? = some d → d * 2 ^ s < B → B ≤ d * 2 ^ (s + 1) →
      val B y * 2 ^ s < B ^ y.length)
    (ht : HasTie B m x.length y) :
    Sp (fun _ => True) (divOp D dbg x y) (fun r => val B r ≠ m / n) := by
  have hB0 := L.pos
  have hlen : y.length < x.length := by
    obtain ⟨s, d, -, -, -, i, hi, -⟩ := ht
    omega
  have hlt : n < m := by
    rw [← hx.val_eq, ← hy.val_eq]
    have h1 := val_lt hy.digs
    have h2 := hx.canon.ge hB0 (by rintro rfl; simp at hlen)
    have h3 : B ^ y.length ≤ B ^ (x.length - 1) := Nat.pow_le_pow_right hB0 (by omega)
    omega
  have h2 : 2 ≤ y.length := by
    by_contra h
    obtain ⟨s, d, h1, h3, h4, i, hi, h5⟩ := ht
    have hne : y ≠ [] := by rintro rfl; simp at h1
    have : 0 < y.length := List.length_pos_iff.mpr hne
    have hl1 : y.length = 1 := by omega
    rw [hl1] at h5
    simp only [Nat.sub_self, pow_zero, Nat.div_one] at h5
    have h6 : 0 < val B y * 2 ^ s := Nat.mul_pos (by rw [hy.val_eq]; omega) (by positivity)
    have := Nat.mod_lt (m * 2 ^ s / B ^ (i + 1)) h6
    omega
  unfold divOp divAssignBig
  simp only []
  rw [if_neg (by omega)]
  have := divBig_tie (dbg := dbg) L W hx.digs hy.digs hx.canon hy.canon h2 h20 (by omega)
    (by rw [hx.val_eq, hy.val_eq]; omega) hfit (by rw [hx.val_eq]; exact ht)
  rw [hx.val_eq, hy.val_eq] at this
  rw [bind_assoc]
  refine Sp.bind this ?_
  rintro ⟨a, b, r⟩ ⟨nq, nr, h1, h2⟩
  simp only at h1 h2
  subst h1
  simp only [bind_assoc, pure_bind]
  exact Sp.bind sp_true fun _ _ => Sp.pure h2

end Babs
