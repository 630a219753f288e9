import Verif.Model.DivLeft
import Verif.Proofs.DivTotal

/-!
# Helper lemmas: what a division that panics leaves behind
-/

namespace Babs

variable {D : DigitOps} {dbg : Bool} {B : Nat}

@[simp] theorem leaving_ok {α : Type} (num quot : List Nat) (a : α) : leaving num quot (.ok a) = .ok a := rfl
@[simp] theorem leaving_error {α : Type} (num quot : List Nat) (p : Panic) :
    leaving num quot (.error p : R α) = .error (p, some (num, quot)) := rfl
@[simp] theorem losing_ok {α : Type} (a : α) : losing (.ok a) = .ok a := rfl
@[simp] theorem losing_error {α : Type} (p : Panic) : losing (.error p : R α) = .error (p, none) := rfl

theorem ok_bindT {α β : Type} (a : α) (f : α → Traced β) : (Except.ok a >>= f : Traced β) = f a := rfl
theorem error_bindT {α β : Type} (e : Panic × Option (List Nat × List Nat)) (f : α → Traced β) :
    ((Except.error e : Traced α) >>= f : Traced β) = .error e := rfl
theorem error_bindR {α β : Type} (e : Panic) (f : α → R β) :
    ((Except.error e : R α) >>= f : R β) = .error e := rfl

theorem leaving_bind {α β : Type} (num quot : List Nat) (r : R α) (f : α → R β) :
    leaving num quot (r >>= f) = leaving num quot r >>= fun a => leaving num quot (f a) := by
  cases r <;> rfl

theorem shrWithin_length (l : List Nat) (s : Nat) :
    Sp (fun _ => True) (shrWithin D l s 0) (fun r => r.1.length = l.length ∧ r.2.1 ≤ l.length) := by
  unfold shrWithin
  split
  · refine Sp.bind (P := fun r => r ≤ l.length) ?_ fun _ h => Sp.pure ⟨rfl, h⟩
    obtain ⟨nd, a1, a2, -⟩ := dropLeadingZeros_spec l l.length (le_refl _)
    rw [a1]; exact a2
  · refine Sp.bind (foldDigitsRev_length _ _) ?_
    rintro ⟨l', c⟩ h
    refine Sp.bind (P := fun r => r ≤ l'.length) ?_ fun _ h2 => Sp.pure ⟨h, ?_⟩
    · obtain ⟨nd, a1, a2, -⟩ := dropLeadingZeros_spec l' l'.length (le_refl _)
      rw [a1]; exact a2
    · simp only [] at h h2 ⊢; omega

/-- `div_big_bz` writes to its buffers only at its end, when nothing can go wrong any more. -/
theorem bzLeft_eq (leaf : DivResFn) {num den quot work : List Nat} (h : den.length ≤ num.length) :
    bzLeft D dbg leaf num den quot work =
      match divBigBz D dbg leaf num den quot work with
      | .ok _ => .ok ()
      | .error p => .error (p, some (num, quot)) := by
  have key : ∀ (r : R (List Nat × List Nat × List Nat)) (shift n : Nat),
      (do
        let (snum, nrem, q, nquot) ← leaving num quot (do
          let (snum, q, _) ← r
          let (snum, nrem, _) ← onSlice snum (n - den.length) n (fun s => shrWithin D s shift 0)
          return (snum, nrem, q, ← dropLeadingZeros q q.length))
        let quot' ← leaving num quot (do copyInto quot 0 nquot (← slice q 0 nquot))
        let _ ← leaving num quot' (do copyInto num 0 nrem (← slice snum (n - den.length) (n - den.length + nrem)))
        return () : Traced Unit) =
      match (do
          let (snum, q, work) ← r
          let (snum, nrem, _) ← onSlice snum (n - den.length) n (fun s => shrWithin D s shift 0)
          let nquot ← dropLeadingZeros q q.length
          let quot ← copyInto quot 0 nquot (← slice q 0 nquot)
          let num ← copyInto num 0 nrem (← slice snum (n - den.length) (n - den.length + nrem))
          return (num, quot, work, nquot, nrem) : R _) with
      | .ok _ => .ok ()
      | .error p => .error (p, some (num, quot)) := by
    intro r shift n
    rcases r with p | ⟨snum, q, wk⟩
    · rfl
    simp only [ok_bind]
    cases e1 : onSlice snum (n - den.length) n (fun s => shrWithin D s shift 0) with
    | error p => rfl
    | ok a =>
      obtain ⟨snum', nrem, c⟩ := a
      simp only [ok_bind]
      obtain ⟨nquot, a1, a2, -⟩ := dropLeadingZeros_spec q q.length (le_refl _)
      rw [a1]
      simp only [ok_bind]
      rw [show leaving num quot (pure (snum', nrem, q, nquot) : R _) = .ok (snum', nrem, q, nquot) from rfl,
        ok_bindT]
      simp only []
      rw [slice_ok (by omega) a2]
      simp only [ok_bind]
      cases e2 : copyInto quot 0 nquot (List.drop 0 (List.take nquot q)) with
      | error p => rfl
      | ok quot' =>
        rw [leaving_ok, ok_bindT, ok_bind]
        have hl : nrem ≤ den.length ∧ n - den.length + nrem ≤ snum'.length := by
          unfold onSlice at e1
          unfold slice at e1
          split at e1
          · rename_i hs
            rw [ok_bind] at e1
            beta_reduce at e1
            have hsh := shrWithin_length (D := D) ((snum.take n).drop (n - den.length)) shift
            cases e3 : shrWithin D ((snum.take n).drop (n - den.length)) shift 0 with
            | error p => rw [e3] at e1; cases e1
            | ok b =>
              rw [e3] at e1 hsh
              obtain ⟨s', nr, c'⟩ := b
              obtain ⟨h1, h2⟩ := hsh
              rw [ok_bind] at e1
              injection e1 with e1
              obtain ⟨rfl, e4⟩ := Prod.mk.inj e1
              obtain ⟨rfl, -⟩ := Prod.mk.inj e4
              simp only [List.length_drop, List.length_take] at h1 h2
              simp only [List.length_append, List.length_take, List.length_drop, h1]
              omega
          · cases e1
        rw [slice_ok (by omega) hl.2]
        simp only [ok_bind]
        have : ∃ z, copyInto num 0 nrem (List.drop (n - den.length) (List.take (n - den.length + nrem) snum')) = .ok z := by
          unfold copyInto
          rw [slice_ok (by omega) (by omega), ok_bind, if_pos (by simp; omega)]
          exact ⟨_, rfl⟩
        obtain ⟨z, hz⟩ := this
        rw [hz]
        rfl
  unfold bzLeft divBigBz
  simp only []
  have hdebug : ∀ c : Bool, debugAssertR dbg c = .ok () ∨ debugAssertR dbg c = .error .debugAssert := by
    intro c; unfold debugAssertR; split <;> simp
  rcases hdebug (decide (2 < den.length)) with h1 | h1 <;> rw [h1] <;> try rfl
  rw [ok_bind, ok_bind]
  rcases hdebug (!ltBig num den) with h1 | h1 <;> rw [h1] <;> try rfl
  rw [ok_bind, ok_bind]
  rcases hdebug (decide (num.length - den.length + 1 ≤ quot.length)) with h1 | h1 <;> rw [h1] <;> try rfl
  rw [ok_bind, ok_bind]
  rcases hdebug (decide (divBzWorkSize den.length ≤ work.length)) with h1 | h1 <;> rw [h1] <;> try rfl
  rw [ok_bind, ok_bind]
  cases e : copyInto (List.replicate (blockSize den.length) 0) (blockSize den.length - den.length)
    (blockSize den.length) den with
  | error p => rfl
  | ok sden =>
    rw [ok_bind, ok_bind]
    cases e : getR sden (blockSize den.length - 1) with
    | error p => rfl
    | ok d =>
      rw [ok_bind, ok_bind]
      cases e : D.maxShift d with
      | error p => rfl
      | ok shift =>
        rw [ok_bind, ok_bind]
        cases e : shlWithin D sden shift 0 with
        | error p => rfl
        | ok b =>
          obtain ⟨sden', c⟩ := b
          rw [ok_bind, ok_bind]
          simp only []
          generalize copyInto _ _ _ num = r1
          rcases r1 with p | snum
          · rfl
          rw [ok_bind, ok_bind]
          generalize onSlice snum _ _ _ = r2
          rcases r2 with p | ⟨snum, x⟩
          · rfl
          rw [ok_bind, ok_bind]
          exact key _ shift _

theorem pairLeft_sound {num den quot : List Nat} (hl : 2 ≤ num.length) {e : Panic × Option (List Nat × List Nat)}
    (h : pairLeft D num den quot = .error e) {b c : Nat} (hb : getR den 0 = .ok b) (hc : getR den 1 = .ok c) :
    divAssignDigitPair D num b c = .error e.1 := by
  unfold pairLeft at h
  rw [hb, leaving_ok, ok_bindT, hc, leaving_ok, ok_bindT] at h
  unfold divAssignDigitPair
  by_cases hz : c = 0
  · rw [if_pos (Or.inl hz)] at h; cases h
  rw [if_neg (by omega)] at h
  rw [if_neg hz]
  match num, hl with
  | a :: a' :: l, hl =>
    simp only []
    generalize hg : a :: a' :: l = num at h hl ⊢
    simp only at h
    cases e1 : D.maxShift c with
    | error p => rw [e1] at h; cases h; rfl
    | ok shift =>
      rw [e1, leaving_ok, ok_bindT] at h
      rw [ok_bind]
      have key : ∀ (nr : List Nat) (dl dh rh : Nat) (g : List Nat × Nat × Nat → R (List Nat × Res (Nat × Nat × Nat))),
          nr.length = num.length →
          (do
            let remLow ← leaving nr quot (getR nr (nr.length - 1))
            let num ← leaving nr quot (setR nr (nr.length - 1) 0)
            let _ ← leaving num quot (D.divCarry remLow dh rh)
            pure () : Traced Unit) = .error e →
          (do
            let remLow ← getR nr (num.length - 1)
            let nr ← setR nr (num.length - 1) 0
            let r ← onSlice nr 0 (num.length - 1)
              (fun s => foldDigitsRev (divPairStep D dl dh) s (remLow, rh))
            g r : R _) = .error e.1 := by
        intro nr dl dh rh g hn h
        rw [getR_ok (by omega), leaving_ok, ok_bindT, setR_ok (by omega), leaving_ok, ok_bindT] at h
        rw [getR_ok (by omega), ok_bind, setR_ok (by omega), ok_bind]
        cases e2 : D.divCarry nr[nr.length - 1] dh rh with
        | ok z => rw [e2] at h; cases h
        | error p =>
          rw [e2] at h
          cases h
          unfold onSlice
          rw [slice_ok (by omega) (by simp; omega), ok_bind]
          beta_reduce
          rw [foldDigitsRev_error (p := p) _ _ (by
              intro h
              have := congrArg List.length h
              rw [List.length_drop, List.length_take, List.length_set, List.length_nil] at this
              omega)
            (fun d => by
              unfold divPairStep
              simp only []
              simp only [hn] at e2
              rw [e2]; rfl)]
          rfl
      by_cases hs : 0 < shift
      · rw [if_pos hs] at h ⊢
        cases e2 : D.shlCarry b shift 0 with
        | error p => rw [e2] at h; cases h; rfl
        | ok r1 =>
          rw [e2, leaving_ok, ok_bindT] at h
          rw [ok_bind]
          cases e3 : D.shlCarry c shift r1.2 with
          | error p => rw [e3] at h; cases h; rfl
          | ok r2 =>
            rw [e3, leaving_ok, ok_bindT] at h
            rw [ok_bind]
            have hlen := shlWithin_length (D := D) num shift 0
            cases e4 : shlWithin D num shift 0 with
            | error p => rw [e4] at h; cases h; rfl
            | ok r3 =>
              rw [e4, losing_ok, ok_bindT] at h
              rw [e4] at hlen
              rw [ok_bind]
              simp only [pure_bind] at h ⊢
              exact key r3.1 r1.1 r2.1 r3.2 _ hlen h
      · rw [if_neg hs] at h ⊢
        simp only [pure_bind] at h ⊢
        exact key num b c 0 _ rfl h

theorem longLeft_sound {num den quot work : List Nat} (h3 : 3 ≤ den.length) (hl : den.length ≤ num.length)
    (hq : num.length - den.length + 1 ≤ quot.length) (hw : den.length + 1 ≤ work.length)
    {e : Panic × Option (List Nat × List Nat)} (h : longLeft D dbg num den quot = .error e) :
    divBigLong D dbg num den quot work = .error e.1 := by
  have hdebug : ∀ {c : Bool}, c = true → debugAssertR dbg c = .ok () := by
    intro c h; simp [debugAssertR, h]
  have hscaled : ∀ (nr sden : List Nat) (top : Nat), sden.length = den.length → nr.length = num.length →
      leaving nr quot (do
        let msd ← getR sden (den.length - 1)
        debugAssertR dbg (decide ((← D.maxShift msd) = 0))
        let _ ← D.divCarry (← getR nr (nr.length - 1)) msd top) = .error e →
      divBigLongScaled D dbg nr top sden quot work = .error e.1 := by
    intro nr sden top hs hn h
    unfold divBigLongScaled
    simp only [hs, hn]
    rw [getR_ok (by omega), ok_bind] at h
    rw [getR_ok (by omega), ok_bind]
    cases e1 : D.maxShift sden[den.length - 1] with
    | error p => rw [e1] at h; cases h; rfl
    | ok k =>
      rw [e1, ok_bind] at h
      rw [ok_bind]
      cases e2 : debugAssertR dbg (decide (k = 0)) with
      | error p => rw [e2] at h; cases h; rfl
      | ok u =>
        rw [e2, ok_bind, getR_ok (by omega), ok_bind] at h
        rw [ok_bind, splitAtR_ok (by omega), ok_bind]
        unfold longFirst
        simp only []
        rw [getR_ok (by omega), ok_bind]
        cases e3 : D.divCarry nr[nr.length - 1] sden[den.length - 1] top with
        | ok z => rw [e3] at h; cases h
        | error p =>
          rw [e3] at h; cases h
          rfl
  unfold longLeft at h
  rw [getR_ok (by omega), ok_bind] at h
  unfold divBigLong
  simp only []
  rw [hdebug (decide_eq_true (by omega)), ok_bind, hdebug (decide_eq_true hl), ok_bind,
    slice_ok (by omega) le_rfl, ok_bind, hdebug (by simp; left; omega), ok_bind,
    hdebug (decide_eq_true (by unfold divLongWorkSize; omega)), ok_bind, getR_ok (by omega), ok_bind]
  cases e1 : D.maxShift den[den.length - 1] with
  | error p => rw [e1] at h; cases h; rfl
  | ok shift =>
    rw [e1, leaving_ok, ok_bindT] at h
    rw [ok_bind]
    split
    · rename_i h0
      subst h0
      have h0 : ∀ l, shlWithin D l 0 0 = .ok (l, 0) := fun l => by unfold shlWithin; rw [if_pos rfl]
      rw [h0, leaving_ok, ok_bindT, h0] at h
      simp only [losing_ok, ok_bindT] at h
      exact hscaled num den 0 rfl rfl h
    · have l1 := shlWithin_length (D := D) den shift 0
      have l2 := shlWithin_length (D := D) num shift 0
      cases e2 : shlWithin D den shift 0 with
      | error p => rw [e2] at h; cases h; rfl
      | ok r1 =>
        rw [e2, leaving_ok, ok_bindT] at h
        rw [ok_bind]
        cases e3 : shlWithin D num shift 0 with
        | error p => rw [e3] at h; cases h; rfl
        | ok r2 =>
          rw [e2] at l1
          rw [e3] at l2
          rw [e3] at h
          simp only [losing_ok, ok_bindT] at h
          rw [ok_bind, hscaled r2.1 r1.1 r2.2 l1 l2 h]
          rfl

/-- Where the traced division panics, the division panics, for the same reason. -/
theorem divLeft_sound {x y : List Nat} {e : Panic × Option (List Nat × List Nat)}
    (h : divLeft D dbg x y = .error e) :
    y.length ≤ x.length ∧ divBig D dbg x y (List.replicate (x.length - y.length + 1) 0) = .error e.1 := by
  unfold divLeft at h
  simp only [] at h
  by_cases h1 : x.length < y.length ∨ y.length < 2 ∨ ltBig x y = true
  · rw [if_pos h1] at h; cases h
  rw [if_neg h1] at h
  push Not at h1
  obtain ⟨h2, h3, h4⟩ := h1
  refine ⟨h2, ?_⟩
  have hne : y ≠ [] := by rintro rfl; simp at h3
  unfold divBig divBigWithWork divBigWithWorkGen
  simp only []
  rw [if_neg hne, if_neg h4, if_neg (by simp)]
  simp only [pure_bind, Bool.false_eq_true, if_false]
  rw [if_neg (by omega)]
  have h4' : ltBig x y = false := by simpa using h4
  split
  · rename_i hl
    rw [if_pos hl] at h
    rw [getR_ok (by omega), ok_bind, getR_ok (by omega), ok_bind,
      pairLeft_sound (by omega) h (getR_ok (by omega)) (getR_ok (by omega))]
    rfl
  · rename_i hl
    rw [if_neg hl] at h
    split
    · rename_i hs
      rw [if_pos hs] at h
      rw [if_neg (by simp [h4']; omega)]
      have ha : debugAssertR dbg (decide (divLongWorkSize y.length ≤ (List.replicate bzCutoff 0).length)) =
          .ok () := by
        have : y.length < 20 := hs
        rw [decide_eq_true (by simp [divLongWorkSize, bzCutoff]; omega)]; simp [debugAssertR]
      rw [ha, ok_bind, longLeft_sound (by omega) h2 (by simp) (by
        have : y.length < 20 := hs
        simp [bzCutoff]; omega) h]
      rfl
    · rename_i hs
      rw [if_neg hs] at h
      rw [if_neg (by simp [h4']; omega)]
      have ha : debugAssertR dbg (decide (divBzWorkSize y.length ≤
          (List.replicate (divBzWorkSize y.length) 0).length)) = .ok () := by
        rw [decide_eq_true (by simp)]; simp [debugAssertR]
      rw [ha, leaving_ok, ok_bindT, bzLeft_eq _ h2] at h
      rw [ha, ok_bind]
      revert h
      cases e1 : divBigBz D dbg (divBigLeaf D dbg) x y (List.replicate (x.length - y.length + 1) 0)
        (List.replicate (divBzWorkSize y.length) 0) with
      | ok r => intro h; cases h
      | error p => intro h; cases h; rfl

/-- From 20 digits on, a division that panics has not changed the dividend and the quotient. -/
theorem divLeft_long {x y : List Nat} {p : Panic} (h20 : 20 ≤ y.length) (hle : y.length ≤ x.length)
    (h : divBig D dbg x y (List.replicate (x.length - y.length + 1) 0) = .error p) :
    divLeft D dbg x y = .error (p, some (x, List.replicate (x.length - y.length + 1) 0)) := by
  have hne : y ≠ [] := by rintro rfl; simp at h20
  unfold divBig divBigWithWork divBigWithWorkGen at h
  simp only [] at h
  rw [if_neg hne] at h
  by_cases h4 : ltBig x y = true
  · rw [if_pos h4] at h; cases h
  have h4' : ltBig x y = false := by simpa using h4
  rw [if_neg h4, if_neg (by simp)] at h
  simp only [pure_bind, Bool.false_eq_true, if_false] at h
  have hbz : ¬ y.length < bzCutoff := by unfold bzCutoff; omega
  rw [if_neg (by omega), if_neg (by omega), if_neg hbz, if_neg hbz, if_neg (by simp [h4']; omega)] at h
  have ha : debugAssertR dbg (decide (divBzWorkSize y.length ≤
      (List.replicate (divBzWorkSize y.length) 0).length)) = .ok () := by
    rw [decide_eq_true (by simp)]; simp [debugAssertR]
  unfold divLeft
  simp only []
  rw [if_neg (by push Not; exact ⟨by omega, by omega, h4⟩), if_neg (by omega), if_neg hbz, ha, leaving_ok,
    ok_bindT, bzLeft_eq _ hle]
  rw [ha, ok_bind] at h
  revert h
  cases e1 : divBigBz D dbg (divBigLeaf D dbg) x y (List.replicate (x.length - y.length + 1) 0)
    (List.replicate (divBzWorkSize y.length) 0) with
  | ok r => intro h; cases h
  | error q => intro h; cases h; rfl

/-! ## Scaled divisors that do not fit -/

theorem val_set_last {l : List Nat} (hl : l ≠ []) (hd : Digs B l) :
    val B (l.set (l.length - 1) 0) = val B l % B ^ (l.length - 1) := by
  obtain ⟨v, d, rfl⟩ : ∃ v d, l = v ++ [d] :=
    ⟨l.dropLast, l.getLast hl, (List.dropLast_concat_getLast _).symm⟩
  have hv : val B v < B ^ v.length := val_lt fun x hx => hd x (by simp [hx])
  simp only [List.length_append, List.length_singleton, Nat.add_sub_cancel]
  rw [List.set_append_right _ _ (le_refl _), Nat.sub_self]
  simp only [List.set_cons_zero]
  rw [val_snoc, val_snoc, Nat.mul_zero, Nat.add_zero, Nat.add_mul_mod_self_left, Nat.mod_eq_of_lt hv]

theorem pairLeft_topZero (L : Lawful D B) (hz : ∀ a c, D.divCarry a 0 c = .error .divZero)
    {x quot : List Nat} {yl yh s : Nat} (hx : Digs B x) (hlen : 2 ≤ x.length) (hl : yl < B) (hh : yh < B)
    (hd0 : yh ≠ 0) (hs1 : yh * 2 ^ s < B) (hs2 : B ≤ yh * 2 ^ (s + 1))
    (h0 : topOf B [yl, yh] s = 0) :
    ∃ l, pairLeft D x [yl, yh] quot = .error (.divZero, some (l, quot)) ∧
      l.length = x.length ∧ Digs B l ∧ val B l = val B x * 2 ^ s % B ^ (x.length - 1) := by
  have hB := L.pos
  have hs : D.maxShift yh = .ok s := by
    obtain ⟨s', k1, k2, k3⟩ := L.maxShift yh (by omega) hh
    rw [k1, shift_unique k2 k3 hs1 hs2]
  have hsB : 2 ^ s < B := by
    have : 1 * 2 ^ s ≤ yh * 2 ^ s := Nat.mul_le_mul_right _ (by omega)
    omega
  have h0' : (yl + B * yh) * 2 ^ s / B % B = 0 := by simpa [topOf, val] using h0
  have htop : (yl + B * yh) * 2 ^ s / B = (yh * 2 ^ s + (yl * 2 ^ s) / B) := by
    rw [show (yl + B * yh) * 2 ^ s = yl * 2 ^ s + B * (yh * 2 ^ s) by ring, Nat.add_mul_div_left _ _ hB]
    omega
  rw [htop] at h0'
  have hs0 : 0 < s := by
    by_contra h
    have h' : s = 0 := by omega
    subst h'
    rw [pow_zero, Nat.mul_one, Nat.mul_one, Nat.div_eq_of_lt hl, Nat.add_zero, Nat.mod_eq_of_lt hh] at h0'
    exact hd0 h0'
  have hc : yl * 2 ^ s / B < 2 ^ s := by
    rw [Nat.div_lt_iff_lt_mul hB, mul_comm (2 ^ s)]
    exact Nat.mul_lt_mul_of_pos_right hl (Nat.two_pow_pos s)
  obtain ⟨r, c', e1, e2, e3, e4, e5⟩ := shlWithin_spec L x s 0 hx hsB (Nat.two_pow_pos s)
  have hrne : r ≠ [] := by rintro rfl; simp at e2; omega
  have hrl : r.length - 1 < r.length := by omega
  refine ⟨r.set (r.length - 1) 0, ?_, by simpa using e2, ?_, ?_⟩
  · unfold pairLeft
    have hg0 : getR [yl, yh] 0 = .ok yl := rfl
    have hg1 : getR [yl, yh] 1 = .ok yh := rfl
    rw [hg0, leaving_ok, ok_bindT, hg1, leaving_ok, ok_bindT, if_neg (by omega)]
    simp only []
    rw [hs, leaving_ok, ok_bindT, if_pos hs0, L.shlCarry yl s 0 hl hs0 hsB (Nat.two_pow_pos s), leaving_ok,
      ok_bindT]
    simp only [Nat.add_zero]
    rw [L.shlCarry yh s _ hh hs0 hsB hc, leaving_ok, ok_bindT]
    simp only []
    rw [e1, losing_ok, ok_bindT, h0']
    simp only [pure_bind]
    rw [getR_ok hrl, leaving_ok, ok_bindT, setR_ok hrl, leaving_ok, ok_bindT, hz, leaving_error, error_bindT]
  · intro z hz
    rcases List.mem_or_eq_of_mem_set hz with h | rfl
    · exact e3 _ h
    · exact hB
  · rw [val_set_last hrne e3, e2]
    rw [Nat.add_zero] at e5
    rw [← e5]
    have : B ^ x.length = B ^ (x.length - 1) * B := by rw [← pow_succ]; congr 1; omega
    rw [this, Nat.mul_assoc, Nat.add_mul_mod_self_left]

theorem divLeft_pair_topZero (L : Lawful D B) (hz : ∀ a c, D.divCarry a 0 c = .error .divZero)
    {x : List Nat} {yl yh s : Nat} (hx : Digs B x) (cx : Canon x) (hl : yl < B) (hh : yh < B) (hd0 : yh ≠ 0)
    (hle : yl + B * yh ≤ val B x) (hs1 : yh * 2 ^ s < B) (hs2 : B ≤ yh * 2 ^ (s + 1))
    (h0 : topOf B [yl, yh] s = 0) :
    ∃ l, divLeft D dbg x [yl, yh] = .error (.divZero, some (l, List.replicate (x.length - 1) 0)) ∧
      l.length = x.length ∧ Digs B l ∧ val B l = val B x * 2 ^ s % B ^ (x.length - 1) := by
  have hB := L.pos
  have hdy : Digs B [yl, yh] := by
    intro z hz
    simp at hz
    rcases hz with rfl | rfl <;> assumption
  have cy : Canon [yl, yh] := by simpa [canon_cons_cons, canon_singleton] using hd0
  have hvy : val B [yl, yh] = yl + B * yh := by simp [val]
  have hlen : 2 ≤ x.length := cy.length_le hB hx (by rw [hvy]; exact hle)
  have hlt : ltBig x [yl, yh] = false := by
    rw [ltBig_dec (ltBig_canon hB hx hdy cx cy), hvy]
    simp; omega
  obtain ⟨l, h1, h2⟩ := pairLeft_topZero L hz (quot := List.replicate (x.length - 1) 0) hx hlen hl hh hd0 hs1
    hs2 h0
  refine ⟨l, ?_, h2⟩
  unfold divLeft
  simp only [List.length_cons, List.length_nil]
  rw [if_neg (by simp [hlt]; omega), if_pos trivial, show x.length - (0 + 1 + 1) + 1 = x.length - 1 by omega]
  exact h1

theorem divLeft_long_misfit (L : Lawful D B) {x y : List Nat} {d s : Nat} {p : Panic} (hx : Digs B x) (cx : Canon x)
    (hy : Digs B y) (cy : Canon y) (h3 : 3 ≤ y.length) (h20 : y.length < 20) (hle : val B y ≤ val B x)
    (hd : y.getLast? = some d) (hs1 : d * 2 ^ s < B) (hs2 : B ≤ d * 2 ^ (s + 1))
    (hp : ∀ a c, (do
      debugAssertR dbg (decide ((← D.maxShift (topOf B y s)) = 0))
      let _ ← D.divCarry a (topOf B y s) c : R Unit) = .error p) :
    ∃ l, divLeft D dbg x y = .error (p, some (l, List.replicate (x.length - y.length + 1) 0)) ∧
      l.length = x.length ∧ Digs B l ∧ val B l = val B x * 2 ^ s % B ^ x.length := by
  have hB := L.pos
  have hne : y ≠ [] := by rintro rfl; simp at h3
  obtain ⟨v, d', rfl⟩ : ∃ v d, y = v ++ [d] :=
    ⟨y.dropLast, y.getLast hne, (List.dropLast_concat_getLast _).symm⟩
  have : d' = d := by simpa using hd
  subst this
  have hd0 : d' ≠ 0 := canon_snoc.mp cy
  have hdB : d' < B := hy _ (by simp)
  have hs : D.maxShift d' = .ok s := by
    obtain ⟨s', k1, k2, k3⟩ := L.maxShift d' (by omega) hdB
    rw [k1, shift_unique k2 k3 hs1 hs2]
  have hsB : 2 ^ s < B := by
    have : 1 * 2 ^ s ≤ d' * 2 ^ s := Nat.mul_le_mul_right _ (by omega)
    omega
  have hlen := cy.length_le hB hx hle
  have hlt : ltBig x (v ++ [d']) = false := by
    rw [ltBig_dec (ltBig_canon hB hx hy cx cy)]
    simp; omega
  obtain ⟨r, c, e1, e2, e3, e4, e5⟩ := shlWithin_spec L (v ++ [d']) s 0 hy hsB (Nat.two_pow_pos s)
  obtain ⟨v', f, rfl⟩ : ∃ v' f, r = v' ++ [f] :=
    ⟨r.dropLast, r.getLast (by intro h; simp [h] at e2),
      (List.dropLast_concat_getLast _).symm⟩
  have e2' : v'.length = v.length := by simpa using e2
  have htop : topOf B (v ++ [d']) s = f := topOf_shl hB e2' e3 e5
  rw [htop] at hp
  obtain ⟨l, c', f1, f2, f3, f4, f5⟩ := shlWithin_spec L x s 0 hx hsB (Nat.two_pow_pos s)
  have hll : l.length - 1 < l.length := by omega
  refine ⟨l, ?_, f2, f3, ?_⟩
  · unfold divLeft
    simp only []
    rw [if_neg (by simp [hlt] at *; omega), if_neg (by omega), if_pos (show _ < bzCutoff from h20)]
    unfold longLeft
    have hg : getR (v ++ [d']) ((v ++ [d']).length - 1) = .ok d' := by rw [getR_ok (by simp)]; simp
    have hg' : getR (v' ++ [f]) ((v ++ [d']).length - 1) = .ok f := by
      rw [getR_ok (by simp; omega)]; simp [← e2']
    rw [hg, ok_bind, hs, leaving_ok, ok_bindT, e1, leaving_ok, ok_bindT]
    simp only []
    rw [f1, losing_ok, ok_bindT]
    simp only []
    rw [hg', ok_bind, getR_ok hll]
    simp only [ok_bind]
    rw [hp, leaving_error]
  · rw [Nat.add_zero] at f5
    rw [← f5, Nat.add_mul_mod_self_left, Nat.mod_eq_of_lt]
    rw [← f2]
    exact val_lt f3

end Babs
