import Verif.Proofs.DivBig

/-!
# Helper lemmas: a division by a number other than zero never reports an error

No assumption on the digits is needed, so that this covers the divisions that go wrong.
-/

namespace Babs

variable {D : DigitOps} {dbg : Bool}

theorem sp_true {α : Type} {x : R α} : Sp (fun _ => True) x (fun _ => True) := by
  cases x <;> trivial

theorem foldDigitsRev_length {C : Type} {f : Nat → C → R (Nat × C)} (l : List Nat) (c : C) :
    Sp (fun _ => True) (foldDigitsRev f l c) (fun r => r.1.length = l.length) := by
  induction l generalizing c with
  | nil => exact Sp.ok rfl
  | cons d ds ih =>
    rw [foldDigitsRev]
    refine Sp.bind (ih c) ?_
    rintro ⟨l', c'⟩ h
    refine Sp.bind sp_true ?_
    rintro ⟨d', c''⟩ -
    exact Sp.pure (by simpa using h)

theorem foldDigits_length {C : Type} {f : Nat → C → R (Nat × C)} (l : List Nat) (c : C) :
    Sp (fun _ => True) (foldDigits f l c) (fun r => r.1.length = l.length) := by
  induction l generalizing c with
  | nil => exact Sp.ok rfl
  | cons d ds ih =>
    rw [foldDigits]
    refine Sp.bind sp_true ?_
    rintro ⟨d', c''⟩ -
    refine Sp.bind (ih c'') ?_
    rintro ⟨l', c'⟩ h
    exact Sp.pure (by simpa using h)

theorem shlWithin_length (l : List Nat) (s c : Nat) :
    Sp (fun _ => True) (shlWithin D l s c) (fun r => r.1.length = l.length) := by
  unfold shlWithin
  split
  · exact Sp.ok rfl
  · exact foldDigits_length l c

/-- Division by a two digit number does not report an error, and its quotient is shorter than the
dividend. -/
theorem divPair_ok (l : List Nat) (yl yh : Nat) (h : yh ≠ 0) (hl : 2 ≤ l.length) :
    Sp (fun _ => True) (divAssignDigitPair D l yl yh)
      (fun r => r.1.length = l.length ∧ ∃ nd a c, r.2 = .ok (nd, a, c) ∧ nd + 1 ≤ l.length) := by
  unfold divAssignDigitPair
  rw [if_neg h]
  match l, hl with
  | d :: e :: l0, _ =>
    simp only []
    obtain ⟨l, hl⟩ : ∃ l, d :: e :: l0 = l := ⟨_, rfl⟩
    have hl2 : 2 ≤ l.length := by rw [← hl]; simp
    rw [hl]
    refine Sp.bind sp_true ?_
    intro shift _
    refine Sp.bind (P := fun r => r.1.length = l.length) ?_ ?_
    · split
      · refine Sp.bind sp_true ?_
        rintro ⟨dl, c1⟩ -
        refine Sp.bind sp_true ?_
        rintro ⟨dh, c2⟩ -
        refine Sp.bind (shlWithin_length l shift 0) ?_
        rintro ⟨l', c'⟩ h
        exact Sp.pure h
      · exact Sp.pure rfl
    · rintro ⟨l1, dl, dh, rh⟩ h1
      simp only at h1 ⊢
      rw [getR_ok (by omega), ok_bind, setR_ok (by omega), ok_bind]
      unfold onSlice
      rw [slice_take (by simp; omega), ok_bind, bind_assoc]
      refine Sp.bind (foldDigitsRev_length _ _) ?_
      rintro ⟨s', c'⟩ h2
      have h2' : s'.length = l.length - 1 := by simp at h2; omega
      have hd : (l1.set (l.length - 1) 0).drop (l.length - 1) = [0] := by
        obtain ⟨v, z, rfl⟩ : ∃ v z, l1 = v ++ [z] :=
          ⟨l1.dropLast, l1.getLast (by intro h; simp [h] at h1; omega),
            (List.dropLast_concat_getLast _).symm⟩
        have hv : v.length = l.length - 1 := by simp at h1; omega
        rw [← hv]
        simp
      simp only [List.take_zero, List.nil_append, pure_bind]
      rw [hd]
      refine Sp.bind sp_true ?_
      rintro ⟨ra, rc⟩ -
      have h3 : (s' ++ [0]).length = l.length := by simp; omega
      obtain ⟨nd, a1, a2, a3, a4⟩ := dropLeadingZeros_spec (s' ++ [0]) l.length (by omega)
      simp only []
      rw [a1, ok_bind]
      refine Sp.pure ⟨h3, nd, ra, rc, rfl, ?_⟩
      by_contra hc
      have : nd = (s' ++ [0]).length := by omega
      rw [this, List.take_length, canon_snoc] at a4
      exact a4 rfl

theorem divDigit_ok (l : List Nat) (d : Nat) (h : d ≠ 0) :
    Sp (fun _ => True) (divAssignDigit D l d)
      (fun r => r.1.length = l.length ∧ ∃ nd a, r.2 = .ok (nd, a) ∧ nd ≤ l.length) := by
  unfold divAssignDigit
  rw [if_neg h]
  refine Sp.bind (foldDigitsRev_length _ _) ?_
  rintro ⟨l', c⟩ h1
  simp only at h1 ⊢
  obtain ⟨nd, a1, a2, -⟩ := dropLeadingZeros_spec l' l'.length (le_refl _)
  rw [a1, ok_bind]
  exact Sp.pure ⟨h1, nd, c, rfl, by omega⟩

theorem divBig_ok (num den : List Nat) (cd : Canon den) (hne : den ≠ [])
    (hlen : den.length ≤ num.length) :
    Sp (fun _ => True) (divBig D dbg num den (List.replicate (num.length - den.length + 1) 0))
      (fun r => ∃ p, r.2.2 = .ok p) := by
  unfold divBig divBigWithWork divBigWithWorkGen
  simp only []
  obtain ⟨quot, hquot⟩ : ∃ q, List.replicate (num.length - den.length + 1) 0 = q := ⟨_, rfl⟩
  have hql : quot.length = num.length - den.length + 1 := by rw [← hquot]; simp
  rw [hquot]
  refine Sp.bind (P := fun r => ∃ p, r.2.2.2 = .ok p) ?_ ?_
  · rw [if_neg hne]
    split
    · exact Sp.pure ⟨_, rfl⟩
    rw [if_neg (by omega)]
    simp only [pure_bind, Bool.false_eq_true, if_false]
    split
    · rename_i h1
      obtain ⟨d, rfl⟩ : ∃ d, den = [d] := List.length_eq_one_iff.mp h1
      have hd0 : d ≠ 0 := canon_singleton.mp cd
      have hg : getR [d] 0 = .ok d := rfl
      rw [hg, ok_bind]
      refine Sp.bind (divDigit_ok num d hd0) ?_
      rintro ⟨l, r⟩ ⟨h2, nd, a, h3, h4⟩
      simp only at h2 h3
      subst h3
      simp only []
      rw [if_neg (by omega)]
      refine Sp.bind sp_true fun _ _ => ?_
      refine Sp.bind sp_true fun _ _ => ?_
      split
      · exact Sp.pure ⟨_, rfl⟩
      · exact Sp.bind sp_true fun _ _ => Sp.pure ⟨_, rfl⟩
    split
    · rename_i h1 h2
      obtain ⟨yl, yh, rfl⟩ : ∃ yl yh, den = [yl, yh] := by
        match den, h2 with
        | [a, b], _ => exact ⟨a, b, rfl⟩
      have hy0 : yh ≠ 0 := by simpa [canon_cons_cons, canon_singleton] using cd
      have hg0 : getR [yl, yh] 0 = .ok yl := rfl
      have hg1 : getR [yl, yh] 1 = .ok yh := rfl
      rw [hg0, ok_bind, hg1, ok_bind]
      refine Sp.bind (divPair_ok num yl yh hy0 (by omega)) ?_
      rintro ⟨l, r⟩ ⟨h2, nd, a, c, h3, h4⟩
      simp only at h2 h3
      subst h3
      simp only []
      rw [if_neg (by omega)]
      refine Sp.bind sp_true fun _ _ => ?_
      refine Sp.bind sp_true fun _ _ => ?_
      split
      · split
        · exact Sp.pure ⟨_, rfl⟩
        · exact Sp.bind sp_true fun _ _ => Sp.pure ⟨_, rfl⟩
      · refine Sp.bind sp_true fun _ _ => ?_
        exact Sp.bind sp_true fun _ _ => Sp.pure ⟨_, rfl⟩
    split
    · refine Sp.bind sp_true fun _ _ => ?_
      refine Sp.bind sp_true ?_
      rintro ⟨a, b, c, d, e⟩ -
      exact Sp.pure ⟨_, rfl⟩
    · refine Sp.bind sp_true fun _ _ => ?_
      refine Sp.bind sp_true ?_
      rintro ⟨a, b, c, d, e⟩ -
      exact Sp.pure ⟨_, rfl⟩
  · rintro ⟨a, b, c, r⟩ ⟨p, hp⟩
    exact Sp.pure ⟨p, hp⟩

end Babs
