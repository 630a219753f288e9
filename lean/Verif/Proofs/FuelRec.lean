import Verif.Proofs.Fuel

/-!
# Helper lemmas: the recursive multiplications and divisions do not run out of fuel

`Len x Q`: if `x` returns a value, it satisfies `Q`.  Used for bounds of the lengths of the operands of
the recursive calls.
-/

namespace Babs

variable {D : DigitOps} {dbg : Bool}

/-! ## Lengths -/

/-- What is known about the value that a computation returns. -/
structure Len {α : Type} (x : R α) (Q : α → Prop) : Prop where
  /-- Every value that is returned has the property. -/
  ok : ∀ a, x = .ok a → Q a

theorem Len.triv {α : Type} {a : α} {Q : α → Prop} (h : Q a) : Len (.ok a : R α) Q := by
  refine ⟨fun b e => ?_⟩
  injection e with e
  exact e ▸ h

theorem Len.pure {α : Type} {a : α} {Q : α → Prop} (h : Q a) : Len (Pure.pure a : R α) Q := Len.triv h

theorem Len.bind {α β : Type} {x : R α} {f : α → R β} {P : α → Prop} {Q : β → Prop} (h : Len x P)
    (hf : ∀ a, P a → Len (f a) Q) : Len (x >>= f) Q := by
  cases x with
  | error e => exact ⟨nofun⟩
  | ok a => exact hf a (h.ok a rfl)

/-- The same, if the value does not matter. -/
theorem Len.skip {α β : Type} {x : R α} {f : α → R β} {Q : β → Prop}
    (hf : ∀ a, Len (f a) Q) : Len (x >>= f) Q :=
  Len.bind (P := fun _ => True) ⟨fun _ _ => trivial⟩ fun a _ => hf a

theorem Len.mono {α : Type} {x : R α} {P Q : α → Prop} (h : Len x P) (hq : ∀ a, P a → Q a) : Len x Q :=
  ⟨fun a e => hq a (h.ok a e)⟩

theorem Len.err {α : Type} {p : Panic} {Q : α → Prop} : Len (.error p : R α) Q := ⟨nofun⟩

theorem slice_len (l : List Nat) (a b : Nat) :
    Len (slice l a b) fun s => s.length = b - a ∧ a ≤ b ∧ b ≤ l.length := by
  unfold slice
  split_ifs with h
  · refine Len.triv ⟨?_, h⟩
    rw [List.length_drop, List.length_take]
    omega
  · exact Len.err

theorem splitAtR_len (l : List Nat) (k : Nat) :
    Len (splitAtR l k) fun p => p.1.length = k ∧ p.2.length = l.length - k ∧ k ≤ l.length := by
  unfold splitAtR
  split_ifs with h
  · refine Len.triv ⟨?_, ?_, h⟩
    · rw [List.length_take]; omega
    · rw [List.length_drop]
  · exact Len.err

theorem dropLeadingZeros_len (l : List Nat) (n : Nat) : Len (dropLeadingZeros l n) fun k => k ≤ n := by
  unfold dropLeadingZeros
  induction n with
  | zero => exact Len.triv (by omega)
  | succ n ih =>
    unfold dropZerosGo
    refine Len.skip fun d => ?_
    split
    · exact ih.mono fun k h => by omega
    · exact Len.pure (by omega)

theorem onSlice_len {α : Type} {l : List Nat} {a b : Nat} {f : List Nat → R (List Nat × α)}
    {Q : α → Prop} (h : ∀ s, s.length = b - a → Len (f s) fun r => Q r.2) :
    Len (onSlice l a b f) fun r => Q r.2 := by
  unfold onSlice
  refine Len.bind (slice_len ..) fun s hs => ?_
  exact Len.bind (h s hs.1) fun r hr => Len.pure hr

theorem unwrapR_len {r : Res Nat} {n : Nat} (h : ∀ k, r = .ok k → k ≤ n) :
    Len (unwrapR r) fun k => k ≤ n := by
  cases r with
  | error e => exact Len.err
  | ok k => exact Len.triv (h k rfl)

theorem decGo_len (n : Nat) (l : List Nat) :
    Len (decGo D n l) fun r => ∀ k, r.2 = .ok k → k ≤ n := by
  induction l with
  | nil => exact Len.triv nofun
  | cons d l ih =>
    cases l with
    | nil =>
      unfold decGo
      refine Len.skip fun r => ?_
      dsimp only
      split_ifs
      · exact Len.pure nofun
      · exact Len.pure fun k h => by injection h; omega
      · exact Len.pure fun k h => by injection h; omega
    | cons e l =>
      unfold decGo
      refine Len.skip fun r => ?_
      dsimp only
      split_ifs
      · exact Len.pure fun k h => by injection h; omega
      · exact Len.bind ih fun r hr => Len.pure hr

theorem decAssign_len (l : List Nat) :
    Len (decAssign D l) fun r => ∀ k, r.2 = .ok k → k ≤ l.length := decGo_len _ _

theorem subAssignBig_len (a b : List Nat) :
    Len (subAssignBig D a b) fun r => ∀ k, r.2 = .ok k → k ≤ a.length := by
  unfold subAssignBig
  dsimp only
  split_ifs
  · exact Len.pure nofun
  · refine Len.skip fun r => ?_
    split_ifs
    · refine Len.bind (P := fun r : List Nat × Res Nat => ∀ k, r.2 = .ok k → k ≤ a.length - b.length)
        (onSlice_len (Q := fun q : Res Nat => ∀ k, q = .ok k → k ≤ a.length - b.length) fun s hs =>
          (decAssign_len s).mono fun r hr k hk => hs ▸ hr k hk) ?_
      rintro ⟨x, r⟩ hr
      cases r with
      | error e => exact Len.pure nofun
      | ok nd =>
        have := hr nd rfl
        exact Len.pure fun k h => by injection h; omega
    · exact Len.bind (dropLeadingZeros_len ..) fun k hk => Len.pure fun k h => by injection h; omega

theorem subBigInto_len (a b c : List Nat) :
    Len (subBigInto D a b c) fun r => ∀ k, r.2 = .ok k → k ≤ a.length := by
  unfold subBigInto
  dsimp only
  split_ifs
  · exact Len.pure nofun
  · exact Len.pure nofun
  · refine Len.skip fun r => ?_
    refine Len.skip fun c => ?_
    split_ifs
    · refine Len.bind (P := fun r : List Nat × Res Nat => ∀ k, r.2 = .ok k → k ≤ a.length - b.length)
        (onSlice_len (Q := fun q : Res Nat => ∀ k, q = .ok k → k ≤ a.length - b.length) fun s hs =>
          (decAssign_len s).mono fun r hr k hk => hs ▸ hr k hk) ?_
      rintro ⟨x, r⟩ hr
      cases r with
      | error e => exact Len.pure nofun
      | ok nd =>
        have := hr nd rfl
        exact Len.pure fun k h => by injection h; omega
    · exact Len.bind (dropLeadingZeros_len ..) fun k hk => Len.pure fun k h => by injection h; omega

theorem rsubAssignBig_len (a b : List Nat) :
    Len (rsubAssignBig D a b) fun r => ∀ k, r.2 = .ok k → k ≤ a.length := by
  unfold rsubAssignBig
  dsimp only
  refine Len.skip fun _ => Len.skip fun r => ?_
  split_ifs
  · exact Len.pure nofun
  · exact Len.bind (dropLeadingZeros_len ..) fun k hk => Len.pure fun k h => by injection h; omega

theorem addBigInto_len (a b c : List Nat) :
    Len (addBigInto D a b c) fun r => ∀ k, r.2 = .ok k → k ≤ max a.length b.length + 1 := by
  unfold addBigInto
  dsimp only
  repeat' first
    | exact Len.pure fun k h => by cases h <;> omega
    | refine Len.skip fun _ => ?_
    | split

theorem subAssignBigAbsSign_len (a : List Nat) (n : Nat) (b : List Nat) :
    Len (subAssignBigAbsSign D a n b) fun r => r.2.2 ≤ max n b.length := by
  unfold subAssignBigAbsSign
  refine Len.skip fun s => ?_
  split
  · refine Len.bind (onSlice_len (Q := fun q : Res Nat => ∀ k, q = .ok k → k ≤ b.length) fun s hs =>
      (rsubAssignBig_len s b).mono fun r hr k hk => by have := hr k hk; omega) ?_
    rintro ⟨x, r⟩ hr
    exact Len.bind (unwrapR_len hr) fun k hk => Len.pure (le_trans hk (le_max_right ..))
  · refine Len.bind (onSlice_len (Q := fun q : Res Nat => ∀ k, q = .ok k → k ≤ n) fun s hs =>
      (subAssignBig_len s b).mono fun r hr k hk => by have := hr k hk; omega) ?_
    rintro ⟨x, r⟩ hr
    exact Len.bind (unwrapR_len hr) fun k hk => Len.pure (le_trans hk (le_max_left ..))

theorem subBigIntoAbsSign_len (a b c : List Nat) :
    Len (subBigIntoAbsSign D dbg a b c) fun r => r.2.2 ≤ max a.length b.length := by
  unfold subBigIntoAbsSign
  refine Len.skip fun _ => ?_
  split
  · refine Len.bind (subBigInto_len ..) ?_
    rintro ⟨x, r⟩ hr
    exact Len.bind (unwrapR_len hr) fun k hk => Len.pure (le_trans hk (le_max_right ..))
  · refine Len.bind (subBigInto_len ..) ?_
    rintro ⟨x, r⟩ hr
    exact Len.bind (unwrapR_len hr) fun k hk => Len.pure (le_trans hk (le_max_left ..))

theorem pushCarry_len (l : List Nat) (n : Nat) (c : Bool) :
    Len (pushCarry l n c) fun r => r.2 ≤ n + 1 := by
  unfold pushCarry
  split
  · exact Len.skip fun _ => Len.pure (by dsimp only; omega)
  · exact Len.triv (by dsimp only; omega)

/-- Bounds for the lengths of the values of a polynomial. -/
def ToomEval.Le (p : ToomEval) (n : Nat) : Prop :=
  p.p0.length ≤ n ∧ p.pinf.length ≤ n ∧ p.lenP1 ≤ n ∧ p.lenPm1 ≤ n ∧ p.lenPm2 ≤ n

theorem toomEval_len (b : Nat) (x p1 pm1 pm2 : List Nat) (hx : x.length ≤ 3 * b) :
    Len (toomEval D dbg b x p1 pm1 pm2) fun p => p.Le (b + 4) := by
  unfold toomEval
  dsimp only
  refine Len.bind (dropLeadingZeros_len ..) fun n0 h0 => ?_
  refine Len.bind (slice_len ..) fun p0 hp0 => ?_
  refine Len.skip fun y => ?_
  refine Len.bind (dropLeadingZeros_len ..) fun n1 h1 => ?_
  refine Len.bind (slice_len ..) fun m1 hm1 => ?_
  refine Len.bind (slice_len ..) fun pinf hpinf => ?_
  have e0 : p0.length ≤ b := by omega
  have e1 : m1.length ≤ b := by omega
  have e2 : pinf.length ≤ b := by omega
  refine Len.bind (addBigInto_len ..) ?_
  rintro ⟨pm1, r⟩ hr
  dsimp only at hr ⊢
  refine Len.bind (unwrapR_len (n := b + 1) fun k hk => by have := hr k hk; omega) fun lenPm1 h2 => ?_
  refine Len.bind (slice_len ..) fun s hs => ?_
  refine Len.bind (addBigInto_len ..) ?_
  rintro ⟨p1, r⟩ hr
  dsimp only at hr ⊢
  refine Len.bind (unwrapR_len (n := b + 2) fun k hk => by have := hr k hk; omega) fun lenP1 h3 => ?_
  refine Len.bind (subAssignBigAbsSign_len ..) ?_
  rintro ⟨pm1, signPm1, lenPm1⟩ h4
  dsimp only at h4 ⊢
  refine Len.bind (P := fun r : List Nat × Bool × Nat => r.2.2 ≤ b + 2) ?_ ?_
  · split
    · refine Len.bind (slice_len ..) fun s hs => ?_
      exact (subBigIntoAbsSign_len ..).mono fun r hr => by omega
    · refine Len.bind (slice_len ..) fun s hs => ?_
      refine Len.bind (addBigInto_len ..) ?_
      rintro ⟨q, r⟩ hr
      dsimp only at hr ⊢
      exact Len.bind (unwrapR_len (n := b + 2) fun k hk => by have := hr k hk; omega) fun k hk =>
        Len.pure hk
  · rintro ⟨pm2, signPm2, lenPm2⟩ h5
    dsimp only at h5 ⊢
    refine Len.skip ?_
    rintro ⟨pm2, carry⟩
    dsimp only
    refine Len.bind (pushCarry_len ..) ?_
    rintro ⟨pm2, lenPm2'⟩ h6
    dsimp only at h6 ⊢
    refine Len.bind (P := fun r : List Nat × Bool × Nat => r.2.2 ≤ b + 4) ?_ ?_
    · split
      · refine Len.skip ?_
        rintro ⟨q, carry⟩
        dsimp only
        refine Len.bind (pushCarry_len ..) ?_
        rintro ⟨q, l⟩ h7
        dsimp only at h7 ⊢
        exact Len.pure (by dsimp only; omega)
      · exact (subAssignBigAbsSign_len ..).mono fun r hr => by omega
    · rintro ⟨pm2, signPm2, lenPm2⟩ h8
      dsimp only at h8 ⊢
      exact Len.pure ⟨by dsimp only; omega, by dsimp only; omega, by dsimp only; omega,
        by dsimp only; omega, h8⟩

/-! ## Recursive multiplication and squaring -/

/-- A multiplication does not run out of fuel for factors of up to `n` digits. -/
def NfMul (f : MulFn) (n : Nat) : Prop :=
  ∀ a b c d : List Nat, a.length ≤ n → b.length ≤ n → Nf (f a b c d)

/-- A squaring does not run out of fuel for numbers of up to `n` digits. -/
def NfSquare (f : SquareFn) (n : Nat) : Prop := ∀ a b c : List Nat, a.length ≤ n → Nf (f a b c)

theorem mulKaratsubaInto_nf (h : NfOps D) {f : MulFn} {n : Nat} (hm : NfMul f n)
    (a b c d : List Nat) (hn : (max a.length b.length + 1) / 2 ≤ n) :
    Nf (mulKaratsubaInto D dbg f a b c d) := by
  unfold mulKaratsubaInto
  dsimp only
  refine Nf.bind (assertR_nf _) fun _ => Nf.bind (assertR_nf _) fun _ => ?_
  refine Nf.bind' (splitAtR_nf ..) (Len.ok (splitAtR_len ..)) ?_
  rintro ⟨low0, high0⟩ hs0
  dsimp only at hs0 ⊢
  refine Nf.bind' (dropLeadingZeros_nf ..) (Len.ok (dropLeadingZeros_len ..)) fun nlow0 hl0 => ?_
  refine Nf.bind' (splitAtR_nf ..) (Len.ok (splitAtR_len ..)) ?_
  rintro ⟨low1, high1⟩ hs1
  dsimp only at hs1 ⊢
  refine Nf.bind' (dropLeadingZeros_nf ..) (Len.ok (dropLeadingZeros_len ..)) fun nlow1 hl1 => ?_
  refine Nf.bind (splitAtR_nf ..) ?_
  rintro ⟨diff0, diff1⟩
  dsimp only
  refine Nf.bind' (slice_nf ..) (Len.ok (slice_len ..)) fun s0 h0 => ?_
  refine Nf.bind' (subBigIntoAbsSign_nf h ..) (Len.ok (subBigIntoAbsSign_len ..)) ?_
  rintro ⟨diff0, sign0, ndiff0⟩ hd0
  dsimp only at hd0 ⊢
  refine Nf.bind' (slice_nf ..) (Len.ok (slice_len ..)) fun s1 h1 => ?_
  refine Nf.bind' (subBigIntoAbsSign_nf h ..) (Len.ok (subBigIntoAbsSign_len ..)) ?_
  rintro ⟨diff1, sign1, ndiff1⟩ hd1
  dsimp only at hd1 ⊢
  refine Nf.bind (splitAtR_nf ..) ?_
  rintro ⟨z1, newWork⟩
  dsimp only
  refine Nf.bind' (slice_nf ..) (Len.ok (slice_len ..)) fun e0 he0 => ?_
  refine Nf.bind' (slice_nf ..) (Len.ok (slice_len ..)) fun e1 he1 => ?_
  refine Nf.bind (hm _ _ _ _ (by omega) (by omega)) ?_
  rintro ⟨z1, newWork, nz1⟩
  dsimp only
  refine Nf.bind (onSlice_nf (fun s => Nf.triv) ..) ?_
  rintro ⟨result, -⟩
  dsimp only
  refine Nf.bind (splitAtR_nf ..) ?_
  rintro ⟨z0, z2⟩
  dsimp only
  refine Nf.bind' (slice_nf ..) (Len.ok (slice_len ..)) fun g0 hg0 => ?_
  refine Nf.bind' (slice_nf ..) (Len.ok (slice_len ..)) fun g1 hg1 => ?_
  refine Nf.bind (hm _ _ _ _ (by omega) (by omega)) ?_
  rintro ⟨z0, newWork, nz0⟩
  dsimp only
  refine Nf.bind (hm _ _ _ _ (by omega) (by omega)) ?_
  rintro ⟨z2, newWork, nz2⟩
  dsimp only
  nf

theorem squareKaratsubaInto_nf (h : NfOps D) {f : SquareFn} {n : Nat} (hm : NfSquare f n)
    (a b c : List Nat) (hn : (a.length + 1) / 2 ≤ n) :
    Nf (squareKaratsubaInto D dbg f a b c) := by
  unfold squareKaratsubaInto
  dsimp only
  refine Nf.bind (assertR_nf _) fun _ => Nf.bind (assertR_nf _) fun _ => ?_
  refine Nf.bind' (dropLeadingZeros_nf ..) (Len.ok (dropLeadingZeros_len ..)) fun nlow0 hl0 => ?_
  refine Nf.bind' (slice_nf ..) (Len.ok (slice_len ..)) fun low0 h0 => ?_
  refine Nf.bind' (slice_nf ..) (Len.ok (slice_len ..)) fun high0 h1 => ?_
  refine Nf.bind' (subBigIntoAbsSign_nf h ..) (Len.ok (subBigIntoAbsSign_len ..)) ?_
  rintro ⟨diff0, sign0, ndiff0⟩ hd0
  dsimp only at hd0 ⊢
  refine Nf.bind (splitAtR_nf ..) ?_
  rintro ⟨z1, newWork⟩
  dsimp only
  refine Nf.bind' (slice_nf ..) (Len.ok (slice_len ..)) fun e0 he0 => ?_
  refine Nf.bind (hm _ _ _ (by omega)) ?_
  rintro ⟨z1, newWork, nz1⟩
  dsimp only
  refine Nf.bind (onSlice_nf (fun s => Nf.triv) ..) ?_
  rintro ⟨result, -⟩
  dsimp only
  refine Nf.bind (splitAtR_nf ..) ?_
  rintro ⟨z0, z2⟩
  dsimp only
  refine Nf.bind (hm _ _ _ (by omega)) ?_
  rintro ⟨z0, newWork, nz0⟩
  dsimp only
  refine Nf.bind (hm _ _ _ (by omega)) ?_
  rintro ⟨z2, newWork, nz2⟩
  dsimp only
  nf

theorem mulToom3Into_nf (h : NfOps D) {f : MulFn} {n : Nat} (hm : NfMul f n)
    (a b c d : List Nat) (hn : (max a.length b.length + 2) / 3 + 4 ≤ n) :
    Nf (mulToom3Into D dbg f a b c d) := by
  unfold mulToom3Into
  dsimp only
  refine Nf.bind (assertR_nf _) fun _ => Nf.bind (assertR_nf _) fun _ => ?_
  refine Nf.bind (splitAtR_nf ..) ?_
  rintro ⟨pm2, qm2⟩
  dsimp only
  refine Nf.bind (splitAtR_nf ..) ?_
  rintro ⟨work, newWork⟩
  dsimp only
  refine Nf.bind (splitAtR_nf ..) ?_
  rintro ⟨r1, work⟩
  dsimp only
  refine Nf.bind (splitAtR_nf ..) ?_
  rintro ⟨rm1, rm2⟩
  dsimp only
  refine Nf.bind (splitAtR_nf ..) ?_
  rintro ⟨p1, q1⟩
  dsimp only
  refine Nf.bind (splitAtR_nf ..) ?_
  rintro ⟨pm1, qm1⟩
  dsimp only
  refine Nf.bind' (toomEval_nf h ..) (Len.ok (toomEval_len _ _ _ _ _ (by omega))) fun p hp => ?_
  refine Nf.bind' (toomEval_nf h ..) (Len.ok (toomEval_len _ _ _ _ _ (by omega))) fun q hq => ?_
  obtain ⟨hp1, hp2, hp3, hp4, hp5⟩ := hp
  obtain ⟨hq1, hq2, hq3, hq4, hq5⟩ := hq
  refine Nf.bind' (slice_nf ..) (Len.ok (slice_len ..)) fun s0 h0 => ?_
  refine Nf.bind' (slice_nf ..) (Len.ok (slice_len ..)) fun s1 h1 => ?_
  refine Nf.bind (hm _ _ _ _ (by omega) (by omega)) ?_
  rintro ⟨r1, newWork, lenR1⟩
  dsimp only
  refine Nf.bind' (slice_nf ..) (Len.ok (slice_len ..)) fun s2 h2 => ?_
  refine Nf.bind' (slice_nf ..) (Len.ok (slice_len ..)) fun s3 h3 => ?_
  refine Nf.bind (hm _ _ _ _ (by omega) (by omega)) ?_
  rintro ⟨rm1, newWork, lenRm1⟩
  dsimp only
  refine Nf.bind (onSlice_nf (fun s => Nf.triv) ..) ?_
  rintro ⟨rm1, -⟩
  dsimp only
  refine Nf.bind' (slice_nf ..) (Len.ok (slice_len ..)) fun s4 h4 => ?_
  refine Nf.bind' (slice_nf ..) (Len.ok (slice_len ..)) fun s5 h5 => ?_
  refine Nf.bind (hm _ _ _ _ (by omega) (by omega)) ?_
  rintro ⟨rm2, newWork, lenRm2⟩
  dsimp only
  refine Nf.bind (onSlice_nf (fun s => Nf.triv) ..) ?_
  rintro ⟨rm2, -⟩
  dsimp only
  refine Nf.bind (onSlice_nf (fun s => Nf.triv) ..) ?_
  rintro ⟨result, -⟩
  dsimp only
  refine Nf.bind (splitAtR_nf ..) ?_
  rintro ⟨r0, r4⟩
  dsimp only
  refine Nf.bind (hm _ _ _ _ (by omega) (by omega)) ?_
  rintro ⟨r0, newWork, lenR0⟩
  dsimp only
  refine Nf.bind (hm _ _ _ _ (by omega) (by omega)) ?_
  rintro ⟨r4, newWork, lenR4⟩
  dsimp only
  nf

theorem squareToom3Into_nf (h : NfOps D) {f : SquareFn} {n : Nat} (hm : NfSquare f n)
    (a b c : List Nat) (hn : (a.length + 2) / 3 + 4 ≤ n) :
    Nf (squareToom3Into D dbg f a b c) := by
  unfold squareToom3Into
  dsimp only
  refine Nf.bind (assertR_nf _) fun _ => Nf.bind (assertR_nf _) fun _ => ?_
  refine Nf.bind (splitAtR_nf ..) ?_
  rintro ⟨p1, res⟩
  dsimp only
  refine Nf.bind (splitAtR_nf ..) ?_
  rintro ⟨pm1, pm2⟩
  dsimp only
  refine Nf.bind (splitAtR_nf ..) ?_
  rintro ⟨work, newWork⟩
  dsimp only
  refine Nf.bind (splitAtR_nf ..) ?_
  rintro ⟨r1, work⟩
  dsimp only
  refine Nf.bind (splitAtR_nf ..) ?_
  rintro ⟨rm1, rm2⟩
  dsimp only
  refine Nf.bind' (toomEval_nf h ..) (Len.ok (toomEval_len _ _ _ _ _ (by omega))) fun p hp => ?_
  obtain ⟨hp1, hp2, hp3, hp4, hp5⟩ := hp
  refine Nf.bind' (slice_nf ..) (Len.ok (slice_len ..)) fun s0 h0 => ?_
  refine Nf.bind (hm _ _ _ (by omega)) ?_
  rintro ⟨r1, newWork, lenR1⟩
  dsimp only
  refine Nf.bind' (slice_nf ..) (Len.ok (slice_len ..)) fun s2 h2 => ?_
  refine Nf.bind (hm _ _ _ (by omega)) ?_
  rintro ⟨rm1, newWork, lenRm1⟩
  dsimp only
  refine Nf.bind (onSlice_nf (fun s => Nf.triv) ..) ?_
  rintro ⟨rm1, -⟩
  dsimp only
  refine Nf.bind' (slice_nf ..) (Len.ok (slice_len ..)) fun s4 h4 => ?_
  refine Nf.bind (hm _ _ _ (by omega)) ?_
  rintro ⟨rm2, newWork, lenRm2⟩
  dsimp only
  refine Nf.bind (onSlice_nf (fun s => Nf.triv) ..) ?_
  rintro ⟨rm2, -⟩
  dsimp only
  refine Nf.bind (onSlice_nf (fun s => Nf.triv) ..) ?_
  rintro ⟨result, -⟩
  dsimp only
  refine Nf.bind (splitAtR_nf ..) ?_
  rintro ⟨r0, r4⟩
  dsimp only
  refine Nf.bind (hm _ _ _ (by omega)) ?_
  rintro ⟨r0, newWork, lenR0⟩
  dsimp only
  refine Nf.bind (hm _ _ _ (by omega)) ?_
  rintro ⟨r4, newWork, lenR4⟩
  dsimp only
  nf

/-- The recursion is at most `k` deep for factors of up to `16 * 2 ^ k` digits. -/
theorem mulBigIntoWithWork_nf (h : NfOps D) (k : Nat) :
    NfMul (mulBigIntoWithWork D dbg (k + 1)) (16 * 2 ^ k) := by
  induction k with
  | zero =>
    intro a b c d ha hb
    unfold mulBigIntoWithWork
    dsimp only
    refine Nf.ite Nf.pure (Nf.bind (assertR_nf _) fun _ => ?_)
    rw [if_neg (by unfold toom3Cutoff; omega), if_neg (by unfold karatsubaCutoff; omega)]
    nf
  | succ k ih =>
    intro a b c d ha hb
    rw [pow_succ] at ha hb
    unfold mulBigIntoWithWork
    dsimp only
    refine Nf.ite Nf.pure (Nf.bind (assertR_nf _) fun _ => ?_)
    split_ifs with h1 h2
    · unfold toom3Cutoff at h1
      exact mulToom3Into_nf h ih _ _ _ _ (by omega)
    · exact mulKaratsubaInto_nf h ih _ _ _ _ (by omega)
    · nf

/-- The recursion is at most `k` deep for numbers of up to `16 * 2 ^ k` digits. -/
theorem squareIntoWithWork_nf (h : NfOps D) (k : Nat) :
    NfSquare (squareIntoWithWork D dbg (k + 1)) (16 * 2 ^ k) := by
  induction k with
  | zero =>
    intro a b c ha
    unfold squareIntoWithWork
    dsimp only
    refine Nf.ite Nf.pure (Nf.bind (assertR_nf _) fun _ => ?_)
    rw [if_neg (by unfold toom3Cutoff; omega), if_neg (by unfold karatsubaCutoff; omega)]
    nf
  | succ k ih =>
    intro a b c ha
    rw [pow_succ] at ha
    unfold squareIntoWithWork
    dsimp only
    refine Nf.ite Nf.pure (Nf.bind (assertR_nf _) fun _ => ?_)
    split_ifs with h1 h2
    · unfold toom3Cutoff at h1
      exact squareToom3Into_nf h ih _ _ _ (by omega)
    · exact squareKaratsubaInto_nf h ih _ _ _ (by omega)
    · nf

theorem le_fuel (n : Nat) : n ≤ 16 * 2 ^ n := by
  have := Nat.lt_two_pow_self (n := n)
  omega

theorem mulBigInto_nf (h : NfOps D) (a b c : List Nat) : Nf (mulBigInto D dbg a b c) := by
  unfold mulBigInto
  dsimp only
  have hm : NfMul (mulBigIntoWithWork D dbg (mulFuel (max a.length b.length)))
      (16 * 2 ^ max a.length b.length) := mulBigIntoWithWork_nf h _
  have hl := le_fuel (max a.length b.length)
  refine Nf.ite Nf.pure (Nf.bind (assertR_nf _) fun _ => ?_)
  split_ifs with h1 h2
  · unfold toom3Cutoff at h1
    exact Nf.bind (mulToom3Into_nf h hm _ _ _ _ (by omega)) fun _ => Nf.pure
  · exact Nf.bind (mulKaratsubaInto_nf h hm _ _ _ _ (by omega)) fun _ => Nf.pure
  · nf
macro_rules | `(tactic| nf_step) => `(tactic| with_reducible exact mulBigInto_nf ‹NfOps _› ..)

theorem squareInto_nf (h : NfOps D) (a b : List Nat) : Nf (squareInto D dbg a b) := by
  unfold squareInto
  dsimp only
  have hm : NfSquare (squareIntoWithWork D dbg (mulFuel a.length)) (16 * 2 ^ a.length) :=
    squareIntoWithWork_nf h _
  have hl := le_fuel a.length
  refine Nf.ite Nf.pure (Nf.bind (assertR_nf _) fun _ => ?_)
  split_ifs with h1 h2
  · unfold toom3Cutoff at h1
    exact Nf.bind (squareToom3Into_nf h hm _ _ _ (by omega)) fun _ => Nf.pure
  · exact Nf.bind (squareKaratsubaInto_nf h hm _ _ _ (by omega)) fun _ => Nf.pure
  · nf
macro_rules | `(tactic| nf_step) => `(tactic| with_reducible exact squareInto_nf ‹NfOps _› ..)

/-! ## Division -/

theorem remDigit_nf (h : NfOps D) (a : List Nat) (f : Nat) :
    Nf (remDigit D a f) := by
  unfold remDigit; nf
macro_rules | `(tactic| nf_step) => `(tactic| with_reducible exact remDigit_nf ‹NfOps _› ..)

theorem divAssignDigit_nf (h : NfOps D) (a : List Nat) (f : Nat) :
    Nf (divAssignDigit D a f) := by
  unfold divAssignDigit; nf
macro_rules | `(tactic| nf_step) => `(tactic| with_reducible exact divAssignDigit_nf ‹NfOps _› ..)

theorem divPairStep_nf (h : NfOps D) (f g d : Nat) (r : Nat × Nat) :
    Nf (divPairStep D f g d r) := by
  unfold divPairStep; nf
macro_rules | `(tactic| nf_step) => `(tactic| with_reducible exact divPairStep_nf ‹NfOps _› ..)

theorem divAssignDigitPair_nf (h : NfOps D) (a : List Nat) (f g : Nat) :
    Nf (divAssignDigitPair D a f g) := by
  unfold divAssignDigitPair; nf
macro_rules | `(tactic| nf_step) => `(tactic| with_reducible exact divAssignDigitPair_nf ‹NfOps _› ..)

theorem longFirst_nf (h : NfOps D) (a : List Nat) (n : Nat) (b : List Nat) (m : Nat) (c d : List Nat) :
    Nf (longFirst D dbg a n b m c d) := by
  unfold longFirst; nf
macro_rules | `(tactic| nf_step) => `(tactic| with_reducible exact longFirst_nf ‹NfOps _› ..)

theorem longStep_nf (h : NfOps D) (a : List Nat) (n m : Nat) (b c d : List Nat) :
    Nf (longStep D dbg a n m b c d) := by
  unfold longStep; nf
macro_rules | `(tactic| nf_step) => `(tactic| with_reducible exact longStep_nf ‹NfOps _› ..)

theorem longLoop_nf (h : NfOps D) (a : List Nat) (n m : Nat) (b c d : List Nat) :
    Nf (longLoop D dbg a n m b c d) := by
  induction m generalizing b c d with
  | zero => exact Nf.triv
  | succ m ih => unfold longLoop; nf; all_goals exact ih ..
macro_rules | `(tactic| nf_step) => `(tactic| with_reducible exact longLoop_nf ‹NfOps _› ..)

theorem divBigLongScaled_nf (h : NfOps D) (a : List Nat) (n : Nat) (b c d : List Nat) :
    Nf (divBigLongScaled D dbg a n b c d) := by
  unfold divBigLongScaled; nf
macro_rules | `(tactic| nf_step) => `(tactic| with_reducible exact divBigLongScaled_nf ‹NfOps _› ..)

theorem divBigLong_nf (h : NfOps D) (a b c d : List Nat) :
    Nf (divBigLong D dbg a b c d) := by
  unfold divBigLong; nf
macro_rules | `(tactic| nf_step) => `(tactic| with_reducible exact divBigLong_nf ‹NfOps _› ..)

theorem bzCorrect_nf (h : NfOps D) (a b : List Nat) (n : Nat) (c d : List Nat) (m : Nat) :
    Nf (bzCorrect D a b n c d m) := by
  induction n generalizing c d m with
  | zero => exact Nf.triv
  | succ n ih => unfold bzCorrect; nf; all_goals exact ih ..
macro_rules | `(tactic| nf_step) => `(tactic| with_reducible exact bzCorrect_nf ‹NfOps _› ..)


/-- A division does not run out of fuel for denominators of up to `n` digits. -/
def NfDiv (f : DivFn) (n : Nat) : Prop := ∀ a b c d : List Nat, b.length ≤ n → Nf (f a b c d)

theorem foldDigits_len {C : Type} (f : Nat → C → R (Nat × C)) (l : List Nat) (c : C) :
    Len (foldDigits f l c) fun r => r.1.length = l.length := by
  induction l generalizing c with
  | nil => exact Len.triv rfl
  | cons d l ih =>
    unfold foldDigits
    refine Len.skip fun r => ?_
    exact Len.bind (ih _) fun s hs => Len.pure (by simpa using hs)

theorem shlWithin_len (l : List Nat) (s c : Nat) :
    Len (shlWithin D l s c) fun r => r.1.length = l.length := by
  unfold shlWithin
  split
  · exact Len.triv rfl
  · exact foldDigits_len _ _ _

theorem copyInto_len (l : List Nat) (a b : Nat) (s : List Nat) :
    Len (copyInto l a b s) fun r => r.length = l.length := by
  unfold copyInto
  refine Len.bind (slice_len ..) fun r hr => ?_
  split_ifs with h
  · refine Len.pure ?_
    rw [List.length_append, List.length_append, List.length_take, List.length_drop]
    omega
  · exact Len.err

theorem divBz3n2n_nf (h : NfOps D) {f : DivFn} {n : Nat} (hf : NfDiv f n) (a b c d : List Nat)
    (hn : (b.length + 1) / 2 ≤ n) : Nf (divBz3n2n D dbg f a b c d) := by
  unfold divBz3n2n
  dsimp only
  refine Nf.bind (debugAssertR_nf ..) fun _ => Nf.bind (debugAssertR_nf ..) fun _ =>
    Nf.bind (debugAssertR_nf ..) fun _ => Nf.bind (getR_nf ..) fun _ => Nf.bind (h.maxShift ..) fun _ =>
    Nf.bind (debugAssertR_nf ..) fun _ => Nf.bind (debugAssertR_nf ..) fun _ => ?_
  refine Nf.bind' (splitAtR_nf ..) (Len.ok (splitAtR_len ..)) ?_
  rintro ⟨b2, b1⟩ hs
  dsimp only at hs ⊢
  refine Nf.bind (splitAtR_nf ..) ?_
  rintro ⟨num3, a12⟩
  dsimp only
  refine Nf.bind ?_ ?_
  · refine Nf.bind (slice_nf ..) fun s => ?_
    split
    · exact Nf.bind (hf _ _ _ _ (by omega)) fun _ => Nf.pure
    · nf
  · rintro ⟨a12, quot, work, nquot⟩
    dsimp only
    refine Nf.bind (dropLeadingZeros_nf ..) fun nb2 => ?_
    refine Nf.bind (splitAtR_nf ..) ?_
    rintro ⟨qden, mulWork⟩
    dsimp only
    refine Nf.bind' (slice_nf ..) (Len.ok (slice_len ..)) fun s0 h0 => ?_
    refine Nf.bind' (slice_nf ..) (Len.ok (slice_len ..)) fun s1 h1 => ?_
    have hl := le_fuel (nquot + nb2)
    refine Nf.bind (mulBigIntoWithWork_nf h _ _ _ _ _ (by omega) (by omega)) ?_
    rintro ⟨qden, mulWork, nqden⟩
    dsimp only
    nf

/-- The recursion is at most `k` deep for denominators of up to `16 * 2 ^ k` digits. -/
theorem divBz2n1n_nf (h : NfOps D) {leaf : DivResFn}
    (hl : ∀ a b c d : List Nat, b.length < bzCutoff → Nf (leaf a b c d)) (k : Nat) :
    NfDiv (divBz2n1n D dbg leaf (k + 1)) (16 * 2 ^ k) := by
  induction k with
  | zero =>
    intro a b c d hb
    unfold divBz2n1n
    dsimp only
    refine Nf.bind (debugAssertR_nf ..) fun _ => Nf.bind (debugAssertR_nf ..) fun _ =>
      Nf.bind (debugAssertR_nf ..) fun _ => Nf.bind (getR_nf ..) fun _ => Nf.bind (h.maxShift ..) fun _ =>
      Nf.bind (debugAssertR_nf ..) fun _ => ?_
    rw [if_pos (by unfold bzCutoff; omega)]
    refine Nf.bind (dropLeadingZeros_nf ..) fun _ => Nf.bind (slice_nf ..) fun _ => ?_
    refine Nf.bind (hl _ _ _ _ (by unfold bzCutoff; omega)) fun _ => ?_
    nf
  | succ k ih =>
    intro a b c d hb
    rw [pow_succ] at hb
    unfold divBz2n1n
    dsimp only
    refine Nf.bind (debugAssertR_nf ..) fun _ => Nf.bind (debugAssertR_nf ..) fun _ =>
      Nf.bind (debugAssertR_nf ..) fun _ => Nf.bind (getR_nf ..) fun _ => Nf.bind (h.maxShift ..) fun _ =>
      Nf.bind (debugAssertR_nf ..) fun _ => ?_
    split_ifs with h1
    · refine Nf.bind (dropLeadingZeros_nf ..) fun _ => Nf.bind (slice_nf ..) fun _ => ?_
      refine Nf.bind (hl _ _ _ _ h1) fun _ => ?_
      nf
    · refine Nf.bind (slice_nf ..) fun _ => Nf.bind (slice_nf ..) fun _ => ?_
      refine Nf.bind (divBz3n2n_nf h ih _ _ _ _ (by omega)) fun _ => ?_
      refine Nf.bind (slice_nf ..) fun _ => Nf.bind (slice_nf ..) fun _ => ?_
      refine Nf.bind (divBz3n2n_nf h ih _ _ _ _ (by omega)) fun _ => ?_
      nf

theorem bzBlocks_nf {f : DivFn} {m : Nat} (hf : NfDiv f m) (b : List Nat) (hb : b.length ≤ m)
    (n i : Nat) (a c d : List Nat) : Nf (bzBlocks f b n i a c d) := by
  induction i generalizing a c d with
  | zero => exact Nf.triv
  | succ i ih =>
    unfold bzBlocks
    refine Nf.bind (slice_nf ..) fun _ => Nf.bind (slice_nf ..) fun _ => ?_
    exact Nf.bind (hf _ _ _ _ hb) fun _ => ih ..

theorem divBigBz_nf (h : NfOps D) {leaf : DivResFn}
    (hl : ∀ a b c d : List Nat, b.length < bzCutoff → Nf (leaf a b c d)) (a b c d : List Nat) :
    Nf (divBigBz D dbg leaf a b c d) := by
  unfold divBigBz
  dsimp only
  refine Nf.bind (debugAssertR_nf ..) fun _ => Nf.bind (debugAssertR_nf ..) fun _ =>
    Nf.bind (debugAssertR_nf ..) fun _ => Nf.bind (debugAssertR_nf ..) fun _ => ?_
  refine Nf.bind' (copyInto_nf ..) (Len.ok (copyInto_len ..)) fun sden h1 => ?_
  refine Nf.bind (getR_nf ..) fun _ => Nf.bind (h.maxShift ..) fun shift => ?_
  refine Nf.bind' (shlWithin_nf h ..) (Len.ok (shlWithin_len ..)) ?_
  rintro ⟨sden', c'⟩ h2
  dsimp only at h2 ⊢
  refine Nf.bind (copyInto_nf ..) fun snum => ?_
  refine Nf.bind (onSlice_nf (fun s => shlWithin_nf h ..) ..) ?_
  rintro ⟨snum, -⟩
  dsimp only
  have hn := le_fuel (blockSize b.length)
  rw [List.length_replicate] at h1
  refine Nf.bind (bzBlocks_nf (divBz2n1n_nf h hl _) _ (by omega) ..) ?_
  rintro ⟨snum, q, work⟩
  dsimp only
  nf

theorem divBigWithWorkGen_nf (h : NfOps D) {bz : DivFn} (a b c d : List Nat)
    (hb : bzCutoff ≤ b.length → Nf (bz a b c d)) : Nf (divBigWithWorkGen D dbg bz a b c d) := by
  unfold divBigWithWorkGen
  dsimp only
  by_cases hc : b.length < bzCutoff
  · simp only [hc, if_true]
    nf
  · have := hb (by omega)
    simp only [hc, if_false]
    nf

theorem divBigLeaf_nf (h : NfOps D) (a b c d : List Nat) (hb : b.length < bzCutoff) :
    Nf (divBigLeaf D dbg a b c d) := divBigWithWorkGen_nf h _ _ _ _ fun e => by omega

theorem divBigWithWork_nf (h : NfOps D) (a b c d : List Nat) : Nf (divBigWithWork D dbg a b c d) :=
  divBigWithWorkGen_nf h _ _ _ _ fun _ => divBigBz_nf h (divBigLeaf_nf h) _ _ _ _
macro_rules | `(tactic| nf_step) => `(tactic| with_reducible exact divBigWithWork_nf ‹NfOps _› ..)

theorem divBig_nf (h : NfOps D) (a b c : List Nat) : Nf (divBig D dbg a b c) := by
  unfold divBig; nf
macro_rules | `(tactic| nf_step) => `(tactic| with_reducible exact divBig_nf ‹NfOps _› ..)

/-! ## Numbers -/

theorem addAtOffset_nf (h : NfOps D) (a b : List Nat) (n : Nat) :
    Nf (addAtOffset D a b n) := by
  unfold addAtOffset; nf
macro_rules | `(tactic| nf_step) => `(tactic| with_reducible exact addAtOffset_nf ‹NfOps _› ..)

theorem addBig_nf (h : NfOps D) (a b : List Nat) :
    Nf (addBig D a b) := by
  unfold addBig; nf
macro_rules | `(tactic| nf_step) => `(tactic| with_reducible exact addBig_nf ‹NfOps _› ..)

theorem addDigit_nf (h : NfOps D) (a : List Nat) (n : Nat) :
    Nf (addDigit D a n) := by
  unfold addDigit; nf
macro_rules | `(tactic| nf_step) => `(tactic| with_reducible exact addDigit_nf ‹NfOps _› ..)

theorem addWordDec_nf (h : NfOps D) (r : Nat) (a : List Nat) (n : Nat) :
    Nf (addWordDec D r a n) := by
  unfold addWordDec; nf
macro_rules | `(tactic| nf_step) => `(tactic| with_reducible exact addWordDec_nf ‹NfOps _› ..)

theorem subAtOffset_nf (h : NfOps D) (a b : List Nat) (n : Nat) :
    Nf (subAtOffset D a b n) := by
  unfold subAtOffset; nf
macro_rules | `(tactic| nf_step) => `(tactic| with_reducible exact subAtOffset_nf ‹NfOps _› ..)

theorem subBig_nf (h : NfOps D) (a b : List Nat) :
    Nf (subBig D a b) := by
  unfold subBig; nf
macro_rules | `(tactic| nf_step) => `(tactic| with_reducible exact subBig_nf ‹NfOps _› ..)

theorem subDigit_nf (h : NfOps D) (a : List Nat) (n : Nat) :
    Nf (subDigit D a n) := by
  unfold subDigit; nf
macro_rules | `(tactic| nf_step) => `(tactic| with_reducible exact subDigit_nf ‹NfOps _› ..)

theorem subWordDec_nf (h : NfOps D) (r : Nat) (a : List Nat) (n : Nat) :
    Nf (subWordDec D r a n) := by
  unfold subWordDec; nf
macro_rules | `(tactic| nf_step) => `(tactic| with_reducible exact subWordDec_nf ‹NfOps _› ..)

theorem mulAddDigit_nf (h : NfOps D) (a : List Nat) (n m : Nat) :
    Nf (mulAddDigit D a n m) := by
  unfold mulAddDigit; nf
macro_rules | `(tactic| nf_step) => `(tactic| with_reducible exact mulAddDigit_nf ‹NfOps _› ..)

theorem mulPairAddDigit_nf (h : NfOps D) (a : List Nat) (n m o : Nat) :
    Nf (mulPairAddDigit D a n m o) := by
  unfold mulPairAddDigit; nf
macro_rules | `(tactic| nf_step) => `(tactic| with_reducible exact mulPairAddDigit_nf ‹NfOps _› ..)

theorem mulDigit_nf (h : NfOps D) (a : List Nat) (n : Nat) :
    Nf (mulDigit D a n) := by
  unfold mulDigit; nf
macro_rules | `(tactic| nf_step) => `(tactic| with_reducible exact mulDigit_nf ‹NfOps _› ..)

theorem mulWordDec_nf (h : NfOps D) (r : Nat) (a : List Nat) (n : Nat) :
    Nf (mulWordDec D r a n) := by
  unfold mulWordDec; nf
macro_rules | `(tactic| nf_step) => `(tactic| with_reducible exact mulWordDec_nf ‹NfOps _› ..)

theorem mulBig_nf (h : NfOps D) (a b : List Nat) :
    Nf (mulBig D dbg a b) := by
  unfold mulBig; nf
macro_rules | `(tactic| nf_step) => `(tactic| with_reducible exact mulBig_nf ‹NfOps _› ..)

theorem square_nf (h : NfOps D) (a : List Nat) :
    Nf (square D dbg a) := by
  unfold square; nf
macro_rules | `(tactic| nf_step) => `(tactic| with_reducible exact square_nf ‹NfOps _› ..)

theorem powLoop_nf (h : NfOps D) (n : Nat) (a b : List Nat) (m : Nat) (hm : m < n) :
    Nf (powLoop D dbg n a b m) := by
  induction n generalizing a b m with
  | zero => omega
  | succ n ih =>
    unfold powLoop
    by_cases h0 : m = 0
    · rw [if_pos h0]
      exact Nf.pure
    · rw [if_neg h0]
      nf
      all_goals exact ih _ _ _ (by omega)

theorem pow_nf (h : NfOps D) (a : List Nat) (n : Nat) :
    Nf (pow D dbg a n) := by
  unfold pow; nf
  all_goals exact powLoop_nf h _ _ _ _ (by omega)
macro_rules | `(tactic| nf_step) => `(tactic| with_reducible exact pow_nf ‹NfOps _› ..)

theorem divDigitAssign_nf (h : NfOps D) (a : List Nat) (n : Nat) :
    Nf (divDigitAssign D a n) := by
  unfold divDigitAssign; nf
macro_rules | `(tactic| nf_step) => `(tactic| with_reducible exact divDigitAssign_nf ‹NfOps _› ..)

theorem divPairAssign_nf (h : NfOps D) (a : List Nat) (n m : Nat) :
    Nf (divPairAssign D a n m) := by
  unfold divPairAssign; nf
macro_rules | `(tactic| nf_step) => `(tactic| with_reducible exact divPairAssign_nf ‹NfOps _› ..)

theorem divAssignBig_nf (h : NfOps D) (a b : List Nat) :
    Nf (divAssignBig D dbg a b) := by
  unfold divAssignBig; nf
macro_rules | `(tactic| nf_step) => `(tactic| with_reducible exact divAssignBig_nf ‹NfOps _› ..)

theorem remAssignBig_nf (h : NfOps D) (a b : List Nat) :
    Nf (remAssignBig D dbg a b) := by
  unfold remAssignBig; nf
macro_rules | `(tactic| nf_step) => `(tactic| with_reducible exact remAssignBig_nf ‹NfOps _› ..)

theorem divOp_nf (h : NfOps D) (a b : List Nat) :
    Nf (divOp D dbg a b) := by
  unfold divOp; nf
macro_rules | `(tactic| nf_step) => `(tactic| with_reducible exact divOp_nf ‹NfOps _› ..)

theorem remOp_nf (h : NfOps D) (a b : List Nat) :
    Nf (remOp D dbg a b) := by
  unfold remOp; nf
macro_rules | `(tactic| nf_step) => `(tactic| with_reducible exact remOp_nf ‹NfOps _› ..)

theorem divDigit_nf (h : NfOps D) (a : List Nat) (n : Nat) :
    Nf (divDigit D a n) := by
  unfold divDigit; nf
macro_rules | `(tactic| nf_step) => `(tactic| with_reducible exact divDigit_nf ‹NfOps _› ..)

theorem divWordDec_nf (h : NfOps D) (r : Nat) (a : List Nat) (n : Nat) :
    Nf (divWordDec D r a n) := by
  unfold divWordDec; nf
macro_rules | `(tactic| nf_step) => `(tactic| with_reducible exact divWordDec_nf ‹NfOps _› ..)

theorem remDigitAssign_nf (h : NfOps D) (a : List Nat) (n : Nat) :
    Nf (remDigitAssign D a n) := by
  unfold remDigitAssign; nf
macro_rules | `(tactic| nf_step) => `(tactic| with_reducible exact remDigitAssign_nf ‹NfOps _› ..)

theorem remDigitOp_nf (h : NfOps D) (a : List Nat) (n : Nat) :
    Nf (remDigitOp D a n) := by
  unfold remDigitOp; nf
macro_rules | `(tactic| nf_step) => `(tactic| with_reducible exact remDigitOp_nf ‹NfOps _› ..)

theorem remWordDec_nf (h : NfOps D) (r : Nat) (a : List Nat) (n : Nat) :
    Nf (remWordDec D r a n) := by
  unfold remWordDec; nf
macro_rules | `(tactic| nf_step) => `(tactic| with_reducible exact remWordDec_nf ‹NfOps _› ..)

theorem shlBin_nf (h : NfOps D) (w : Nat) (a : List Nat) (n : Nat) :
    Nf (shlBin D w a n) := by
  unfold shlBin; nf
macro_rules | `(tactic| nf_step) => `(tactic| with_reducible exact shlBin_nf ‹NfOps _› ..)

theorem shlDec_nf (h : NfOps D) (m : Nat) (a : List Nat) (n : Nat) :
    Nf (shlDec D dbg m a n) := by
  unfold shlDec; nf
macro_rules | `(tactic| nf_step) => `(tactic| with_reducible exact shlDec_nf ‹NfOps _› ..)

theorem shrBin_nf (h : NfOps D) (w : Nat) (a : List Nat) (n : Nat) :
    Nf (shrBin D w a n) := by
  unfold shrBin; nf
macro_rules | `(tactic| nf_step) => `(tactic| with_reducible exact shrBin_nf ‹NfOps _› ..)

theorem shrDec_nf (h : NfOps D) (m : Nat) (a : List Nat) (n : Nat) :
    Nf (shrDec D m a n) := by
  unfold shrDec; nf
macro_rules | `(tactic| nf_step) => `(tactic| with_reducible exact shrDec_nf ‹NfOps _› ..)

end Babs
