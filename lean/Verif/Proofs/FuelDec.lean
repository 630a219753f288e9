import Verif.Proofs.FuelRec

/-!
# Helper lemmas: how many digits quotients and remainders have, whatever the operands are
-/

namespace Babs

variable {D : DigitOps} {dbg : Bool}

theorem longFirst_len (a : List Nat) (n : Nat) (b : List Nat) (m : Nat) (c d : List Nat) :
    Len (longFirst D dbg a n b m c d) fun r => r.2.2.2 ≤ a.length - b.length + 1 := by
  unfold longFirst
  dsimp only
  refine Len.skip fun _ => Len.skip fun _ => ?_
  split
  · exact Len.pure (by dsimp only; omega)
  · exact Len.skip fun _ => Len.skip fun _ => Len.skip fun _ => Len.skip fun _ => Len.pure (by dsimp only; omega)

theorem divBigLongScaled_len (a : List Nat) (n : Nat) (b c d : List Nat) :
    Len (divBigLongScaled D dbg a n b c d) fun r =>
      r.2.2.2.1 ≤ a.length - b.length + 1 ∧ r.2.2.2.2 ≤ b.length := by
  unfold divBigLongScaled
  dsimp only
  refine Len.skip fun _ => Len.skip fun _ => Len.skip fun _ => Len.skip fun _ => ?_
  refine Len.bind (longFirst_len ..) fun r hr => ?_
  refine Len.skip fun s => ?_
  refine Len.bind (dropLeadingZeros_len ..) fun k hk => ?_
  refine Len.bind (dropLeadingZeros_len ..) fun l hl => ?_
  exact Len.pure ⟨le_trans hk hr, hl⟩

theorem shrWithin_len (l : List Nat) (s c : Nat) :
    Len (shrWithin D l s c) fun r => r.2.1 ≤ l.length := by
  unfold shrWithin
  split
  · exact Len.bind (dropLeadingZeros_len ..) fun k hk => Len.pure hk
  · refine Len.bind (P := fun r => r.1.length = l.length) ?_ fun r hr => ?_
    · induction l generalizing c with
      | nil => exact Len.triv rfl
      | cons d l ih =>
        unfold foldDigitsRev
        refine Len.bind (ih _) fun r hr => Len.skip fun s => Len.pure ?_
        simpa using hr
    · exact Len.bind (dropLeadingZeros_len ..) fun k hk => Len.pure (by dsimp only; omega)

theorem divBigLong_len (a b c d : List Nat) :
    Len (divBigLong D dbg a b c d) fun r =>
      r.2.2.2.1 ≤ a.length - b.length + 1 ∧ r.2.2.2.2 ≤ b.length := by
  unfold divBigLong
  dsimp only
  refine Len.skip fun _ => Len.skip fun _ => Len.skip fun _ => Len.skip fun _ => Len.skip fun _ =>
    Len.skip fun _ => Len.skip fun _ => ?_
  split
  · exact divBigLongScaled_len ..
  · refine Len.bind (shlWithin_len ..) fun r hr => ?_
    refine Len.bind (shlWithin_len ..) fun s hs => ?_
    refine Len.bind (divBigLongScaled_len ..) ?_
    rintro ⟨num, quot, work, nquot, nrem⟩ h
    dsimp only at h ⊢
    refine Len.bind (onSlice_len (Q := fun q : Nat × Nat => q.1 ≤ nrem) fun s hs =>
      (shrWithin_len s _ _).mono fun r hr => by omega) ?_
    rintro ⟨num, nrem', c⟩ h'
    dsimp only at h' ⊢
    exact Len.pure ⟨by dsimp only; omega, by dsimp only; omega⟩

theorem copyInto_le (l : List Nat) (n : Nat) (s : List Nat) :
    Len (copyInto l 0 n s) fun _ => n ≤ l.length := by
  unfold copyInto
  refine Len.bind (slice_len ..) fun r hr => ?_
  split_ifs
  · exact Len.pure hr.2.2
  · exact Len.err

theorem divBigBz_len (leaf : DivResFn) (a b c d : List Nat) :
    Len (divBigBz D dbg leaf a b c d) fun r => r.2.2.2.1 ≤ c.length ∧ r.2.2.2.2 ≤ b.length := by
  unfold divBigBz
  dsimp only
  refine Len.skip fun _ => Len.skip fun _ => Len.skip fun _ => Len.skip fun _ => Len.skip fun _ =>
    Len.skip fun _ => Len.skip fun _ => Len.skip fun _ => Len.skip fun _ => Len.skip fun _ =>
    Len.skip fun _ => ?_
  refine Len.bind (onSlice_len (Q := fun q : Nat × Nat => q.1 ≤ b.length) fun s hs =>
    (shrWithin_len s _ _).mono fun r hr => by omega) ?_
  rintro ⟨snum, nrem, c'⟩ h
  dsimp only at h ⊢
  refine Len.skip fun nquot => Len.skip fun _ => ?_
  refine Len.bind (copyInto_le ..) fun _ hq => ?_
  exact Len.skip fun _ => Len.skip fun _ => Len.pure ⟨hq, h⟩

/-- The quotient fits and the remainder has at most the digits of the denominator. -/
theorem divBigWithWorkGen_len {bz : DivFn} (a b c d : List Nat) (hab : b.length < a.length)
    (hc : c.length = a.length - b.length + 1)
    (hbz : Len (bz a b c d) fun r => r.2.2.2.1 ≤ c.length ∧ r.2.2.2.2 ≤ b.length) :
    Len (divBigWithWorkGen D dbg bz a b c d) fun r =>
      ∀ q m, r.2.2.2 = .ok (q, m) → q ≤ c.length ∧ m ≤ b.length := by
  have hlt : ltBig a b = false := by
    unfold ltBig cmpBig
    rw [Nat.compare_eq_gt.mpr hab]
    rfl
  unfold divBigWithWorkGen
  dsimp only
  rw [hlt]
  simp only [Bool.false_eq_true, if_false]
  split
  · exact Len.pure nofun
  refine Len.skip fun _ => ?_
  split
  · exact Len.pure nofun
  split
  · refine Len.skip fun _ => Len.skip fun r => ?_
    rcases r with ⟨num, _ | ⟨nquot, rem⟩⟩
    · exact Len.pure nofun
    · dsimp only
      split
      · exact Len.pure nofun
      · refine Len.skip fun _ => Len.skip fun _ => ?_
        split
        · refine Len.pure fun q m h => ?_
          cases h
          omega
        · refine Len.skip fun _ => Len.pure fun q m h => ?_
          cases h
          omega
  split
  · refine Len.skip fun _ => Len.skip fun _ => Len.skip fun r => ?_
    rcases r with ⟨num, _ | ⟨nquot, remLow, remHigh⟩⟩
    · exact Len.pure nofun
    · dsimp only
      split
      · exact Len.pure nofun
      · refine Len.skip fun _ => Len.skip fun _ => ?_
        split
        · split
          · refine Len.pure fun q m h => ?_
            cases h
            omega
          · refine Len.skip fun _ => Len.pure fun q m h => ?_
            cases h
            omega
        · refine Len.skip fun _ => Len.skip fun _ => Len.pure fun q m h => ?_
          cases h
          omega
  split
  · refine Len.skip fun _ => Len.bind (divBigLong_len ..) fun r hr => Len.pure fun q m h => ?_
    cases h
    exact ⟨le_trans hr.1 hc.ge, hr.2⟩
  · refine Len.skip fun _ => Len.bind hbz fun r hr => Len.pure fun q m h => ?_
    cases h
    exact hr

/-- The digits of quotient and remainder. -/
theorem divAssignBig_len (a b : List Nat) (hab : b.length < a.length) :
    Len (divAssignBig D dbg a b) fun r =>
      ∀ m, r.2 = .ok m → r.1.length ≤ a.length - b.length + 1 ∧ m.length ≤ b.length := by
  unfold divAssignBig
  dsimp only
  rw [if_neg (by omega)]
  refine Len.bind (P := fun r : List Nat × List Nat × Res (Nat × Nat) =>
    ∀ q m, r.2.2 = .ok (q, m) → q ≤ a.length - b.length + 1 ∧ m ≤ b.length) ?_ ?_
  · unfold divBig
    dsimp only
    refine Len.bind (divBigWithWorkGen_len a b _ _ hab (List.length_replicate ..)
      (divBigBz_len ..)) fun r hr => Len.pure fun q m h => ?_
    have := hr q m h
    rwa [List.length_replicate] at this
  · rintro ⟨rem, quot, _ | ⟨nquot, nrem⟩⟩ h
    · exact Len.pure nofun
    · have := h nquot nrem rfl
      dsimp only
      refine Len.bind (P := fun m : List Nat => m.length ≤ nrem) ?_ fun m hm => Len.pure fun m' h' => ?_
      · unfold ubigNew normalise
        refine Len.bind (dropLeadingZeros_len ..) fun k hk => Len.pure ?_
        rw [List.length_take]
        rw [List.length_take] at hk
        omega
      · cases h'
        exact ⟨by dsimp only; rw [List.length_take]; omega, by omega⟩

end Babs
