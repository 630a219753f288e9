import Verif.Props.ClientSound

/-!
# C59: exactly which programs panic

Take a client in which no operation returns a wrong number (`Client.Sound` of `Verif/Props/ClientSound.lean`).
Then `Client.Fine` of `Verif/Props/Client.lean`, which speaks of numbers only, says exactly whether it finishes.
-/

namespace Babs.Props

variable (t t' : DType) (dbg dbg' : Bool)

/-- C59: an operation that returns no wrong number, and does not meet its condition, panics. -/
theorem op_panics (o : Op) (xs : List (List Nat)) (ms : List Nat)
    (hx : List.Forall₂ (Rep t.radix) xs ms) (hs : o.Sound t ms) (h : ¬ o.Fine t ms) :
    ∃ p, OpPanic p ∧ Panics (o.run t dbg xs) p := by
  have hb := (ops_lawful t dbg).base
  have g := getD_rep hx
  have hdz : ∀ b, ms.getD b 0 = 0 → xs.getD b [] = [] := fun b h => by
    have := g b
    rw [h] at this
    exact this.unique (rep_zero _)
  have hex : OpPanic .explicit := Or.inr (Or.inr (Or.inl rfl))
  have hun : OpPanic .unwrap := Or.inl rfl
  have hix : OpPanic .index := Or.inr (Or.inl rfl)
  have hdiv : ∀ a b, ms.getD b 0 ≠ 0 → DivSound t (ms.getD a 0) (ms.getD b 0) →
      ¬ DivFine t (ms.getD a 0) (ms.getD b 0) → DivisionPanics t dbg (xs.getD a []) (xs.getD b []) := by
    intro a b h0 hs h
    by_cases hmn : ms.getD b 0 ≤ ms.getD a 0
    · obtain ⟨h1, h2⟩ := hs h0 hmn _ (g b)
      by_cases hl : 20 ≤ (xs.getD b []).length
      · rw [if_neg (by omega), size_rep (by omega) (g a)] at h2
        refine div_panics t dbg _ _ _ _ (g a) (g b) hl h1 h2 hmn fun hp => h ⟨h0, fun _ y hy => ?_⟩
        rw [hy.unique (g b), size_rep (by omega) (g a)]
        exact ⟨h1, by rwa [if_neg (by omega)], fun _ => hp⟩
      · refine absurd ⟨h0, fun _ y hy => ?_⟩ h
        rw [hy.unique (g b)]
        exact ⟨h1, h2, fun h => absurd h hl⟩
    · exact absurd ⟨h0, fun h => absurd h hmn⟩ h
  cases o with
  | word n => exact absurd hs h
  | text s => exact absurd hs h
  | add a b => exact absurd trivial h
  | sub a b =>
    have hlt : ms.getD a 0 < ms.getD b 0 := by
      by_contra hle
      exact h ⟨by omega, hs (by omega)⟩
    exact ⟨_, hex, sub_underflow t dbg _ _ _ _ (g a) (g b) hlt⟩
  | mul a b =>
    have := mul_panics_exactly t dbg _ _ _ _ (g a) (g b)
    rw [if_pos (not_not.mp fun hc => h (productOk_iff.mpr hc))] at this
    exact ⟨_, hun, this⟩
  | div a b =>
    by_cases h0 : ms.getD b 0 = 0
    · refine ⟨_, hex, ?_⟩
      show Panics (UBig.div t dbg (xs.getD a []) (xs.getD b [])) _
      rw [hdz b h0]
      exact (div_zero_reported t dbg (xs.getD a [])).2.2.1
    · rcases (hdiv a b h0 hs h).div with hp | hp
      · exact ⟨_, hix, hp⟩
      · exact ⟨_, hun, hp⟩
  | rem a b =>
    by_cases h0 : ms.getD b 0 = 0
    · refine ⟨_, hex, ?_⟩
      show Panics (UBig.rem t dbg (xs.getD a []) (xs.getD b [])) _
      rw [hdz b h0]
      exact (div_zero_reported t dbg (xs.getD a [])).2.2.2
    · rcases (hdiv a b h0 hs h).rem with hp | hp
      · exact ⟨_, hix, hp⟩
      · exact ⟨_, hun, hp⟩
  | square a =>
    have := square_clean_panics_exactly_partial t dbg _ _ (g a) hs
    rw [if_pos (not_not.mp fun hc => h ⟨hs, productOk_iff.mpr hc⟩)] at this
    exact ⟨_, hun, this⟩
  | pow a e =>
    rcases pow_clean_panics_exactly_partial t dbg _ _ e (g a) hs with h2 | h2
    · exact ⟨_, hun, h2.2⟩
    · exact absurd ⟨hs, h2.1⟩ h
  | shl a n =>
    rcases t with w | w
    · exact absurd hs h
    · have hn : 4 * UBig.maxHexPlaces w < n := by
        by_contra hn
        exact h (Or.inl (by omega))
      have key : powClean (DType.dec w).radix 2 n → ∃ p, OpPanic p ∧ Panics (UBig.shl (.dec w) dbg (xs.getD a []) n) p := by
        intro hc
        rcases shl_decimal_clean_panics_exactly_partial dbg w _ _ n (g a) hn hc with h2 | h2
        · exact ⟨_, hun, h2.2⟩
        · exact absurd (Or.inr ⟨⟨hc, fun hc => h2.1 (Or.inl hc)⟩,
            productOk_iff.mpr fun hc => h2.1 (Or.inr hc)⟩) h
      rcases hs with hs | hs | hs
      · exact absurd hs (by omega)
      · subst hs
        by_cases hl : n < 2 ^ 20
        · exact key (powClean_two .w16 n hl)
        · exact ⟨_, hun, shl_decimal_long_panics dbg _ _ n (g a) (not_lt.mp hl)⟩
      · exact key hs
  | shr a n =>
    rcases t with w | w
    · refine ⟨_, hix, shr_binary_panics dbg w _ n ?_⟩
      rw [← size_rep (by omega) (g a)]
      exact Nat.lt_of_not_le h
    · exact ⟨_, Or.inr (Or.inr (Or.inr rfl)), shr_decimal_unimplemented dbg w _ n (Nat.lt_of_not_le h)⟩
  | addWord a n => exact absurd hs h
  | subWord a n =>
    have hlt : ms.getD a 0 < n := by
      by_contra hle
      exact h ⟨(hs.2 (by omega)).1, by omega, (hs.2 (by omega)).2⟩
    have := op_sound t dbg (.subWord a n) xs ms hx hs
    cases hr : Op.run t dbg xs (.subWord a n) with
    | error p =>
      rw [hr] at this
      exact ⟨p, this, rfl⟩
    | ok z =>
      exfalso
      change UBig.subWord t dbg (xs.getD a []) n = .ok z at hr
      rcases t with w | w
      · have h1 := (subWord_binary_exact dbg w _ _ n (g a) hs.1).2 hlt
        cases h1.symm.trans hr
      · by_cases hn : n < w.decRadix
        · have h1 := (subWord_small_exact_partial dbg w _ _ n (g a) hn).2 hlt
          cases h1.symm.trans hr
        · rcases subWordDec_spec (ops_lawful (.dec w) dbg) _ n (g a).digs (g a).canon
            (word_lt (.dec w) n hs.1) (show (DType.dec w).radix ≤ n by simpa [DType.radix] using hn)
            with ⟨-, p, hp, -⟩ | ⟨h1, -⟩
          · cases hp.symm.trans hr
          · rw [(g a).val_eq] at h1
            omega
  | mulWord a n => exact absurd hs h
  | divWord a n =>
    have h0 : n = 0 := by
      by_contra h0
      exact h ⟨h0, hs⟩
    subst h0
    exact ⟨_, hex, (divRemWord_zero t dbg _).1⟩
  | remWord a n =>
    have h0 : n = 0 := by
      by_contra h0
      exact h ⟨h0, hs⟩
    subst h0
    exact ⟨_, hex, (divRemWord_zero t dbg _).2.1⟩

/-- C59 (in part): a client in which no operation returns a wrong number gets the right number if all
operations that it performs meet their conditions, and panics if one does not.
Missing: squares of more than 1131 digits, and powers of more than 2262 digits, that meet stale digits. -/
theorem client_panics_exactly_partial (c : Client) (xs : List (List Nat)) (ms : List Nat)
    (hx : List.Forall₂ (Rep t.radix) xs ms) (hs : c.Sound t ms) :
    (c.Fine t ms ∧ Returns (c.run t dbg xs) fun z => Rep t.radix z (c.value ms)) ∨
    (¬ c.Fine t ms ∧ ∃ p, OpPanic p ∧ Panics (c.run t dbg xs) p) := by
  by_cases h : c.Fine t ms
  · exact Or.inl ⟨h, client_exact_partial t dbg c xs ms hx h⟩
  refine Or.inr ⟨h, ?_⟩
  induction c generalizing xs ms with
  | done a => exact absurd trivial h
  | op o k ih =>
    unfold Client.run
    by_cases ho : o.Fine t ms
    · obtain ⟨z, h1, h2⟩ := op_exact t dbg o xs ms hx ho
      rw [h1]
      exact ih _ _ (.cons h2 hx) hs.2 fun hk => h ⟨ho, hk⟩
    · obtain ⟨p, h1, h2⟩ := op_panics t dbg o xs ms hx hs.1 ho
      refine ⟨p, h1, ?_⟩
      rw [show Op.run t dbg xs o = .error p from h2]
      rfl
  | cmp a b k ih =>
    unfold Client.run
    rw [cmp_numeric t _ _ _ _ (getD_rep hx a) (getD_rep hx b)]
    exact ih _ _ _ hx hs h
  | isZero a k ih =>
    unfold Client.run
    have : Babs.isZero (xs.getD a []) = (ms.getD a 0 == 0) := by
      rw [Bool.eq_iff_iff, is_zero_iff t _ _ (getD_rep hx a), beq_iff_eq]
    rw [this]
    exact ih _ _ _ hx hs h

/-- C59 (in part): so whether such a client finishes depends only on the numbers it is given and on the radix;
it is the same in both build profiles.  Missing: as above. -/
theorem client_profile_partial (c : Client) (xs : List (List Nat)) (ms : List Nat)
    (hx : List.Forall₂ (Rep t.radix) xs ms) (hs : c.Sound t ms) :
    (∃ z, c.run t dbg xs = .ok z) ↔ ∃ z, c.run t dbg' xs = .ok z := by
  have key : ∀ d, (∃ z, c.run t d xs = .ok z) ↔ c.Fine t ms := by
    intro d
    rcases client_panics_exactly_partial t d c xs ms hx hs with ⟨h1, z, h2, -⟩ | ⟨h1, p, -, h2⟩
    · exact ⟨fun _ => h1, fun _ => ⟨z, h2⟩⟩
    · refine ⟨fun ⟨z, h3⟩ => ?_, fun h => absurd h h1⟩
      cases Eq.trans (Eq.symm h2) h3
  rw [key, key]

/-! ## The hypotheses can be met, and both outcomes occur -/

/-- `let p = &x * &x; let q = &p >> 9; if q < x { q } else { &q - &x }`, with `x` built last. -/
def squareShift : Client :=
  .op (.mul 0 0) (.op (.shr 0 9) (.cmp 0 2 fun o => if o = .lt then .done 0 else .op (.sub 0 2) (.done 0)))

/-- For the 106-digit number `7 ^ 300` it finishes. -/
example : squareShift.Sound (.bin .w8) [7 ^ 300] ∧ squareShift.Fine (.bin .w8) [7 ^ 300] := by
  have e : compare (7 ^ 300 * 7 ^ 300 / 2 ^ 9) (7 ^ 300) = Ordering.gt := by decide +kernel
  have h : 7 ^ 300 ≤ 7 ^ 300 * 7 ^ 300 / 2 ^ 9 ∧ ¬ (size 256 (7 ^ 300 * 7 ^ 300 / 2 ^ 9) = size 256 (7 ^ 300) + 1 ∧
      7 ^ 300 * 7 ^ 300 / 2 ^ 9 - 7 ^ 300 < 256 ^ (size 256 (7 ^ 300) - 1)) := by decide +kernel
  refine ⟨⟨trivial, trivial, ?_⟩, show productOk 256 _ _ = true by decide +kernel,
    show 9 / 8 ≤ size 256 _ by decide +kernel, ?_⟩
  · simp only [Client.Sound, Op.value, List.getD_cons_zero, List.getD_cons_succ, e]
    exact ⟨fun _ => h.2, trivial⟩
  · simp only [Client.Fine, Op.value, List.getD_cons_zero, List.getD_cons_succ, e]
    exact ⟨h, trivial⟩

/-- For the 41-digit number of `square_panics` it panics. -/
example : ¬ squareShift.Fine (.bin .w8) [val 256 (karatsubaWitness 256)] := by
  intro h
  have h1 : productOk 256 (val 256 (karatsubaWitness 256)) (val 256 (karatsubaWitness 256)) = true := h.1
  revert h1
  decide +kernel

end Babs.Props
