import Verif.Proofs.DivErr
import Verif.Proofs.DivUnfit

/-!
# Helper lemmas: schoolbook division does not panic, right or wrong

`Closed D P` says that the operations that schoolbook division uses return, and keep to digits with the
property `P`.  For binary digits `P` is to be a digit; for decimal digits, in a release build, no property is
needed.
-/

namespace Babs

variable {D : DigitOps} {dbg : Bool} {P : Nat → Prop}

structure Closed (D : DigitOps) (P : Nat → Prop) : Prop where
  zero : P 0
  dec : ∀ a, P a → Tot (D.dec a) (fun r => P r.1)
  sub : ∀ a b c, P a → P b → Tot (D.subCarry a b c) (fun r => P r.1)
  mul : ∀ a f c, P a → P f → P c → Tot (D.mulCarry a f c) (fun r => P r.1 ∧ P r.2)
  div : ∀ a f c, P a → P f → P c → f ≠ 0 → Tot (D.divCarry a f c) (fun r => P r.1 ∧ P r.2)

/-- All digits have the property. -/
def AllP (P : Nat → Prop) (l : List Nat) : Prop := ∀ d ∈ l, P d

theorem AllP.cons {d : Nat} {l : List Nat} (h1 : P d) (h2 : AllP P l) : AllP P (d :: l) := by
  intro x hx
  rcases List.mem_cons.mp hx with rfl | h
  · exact h1
  · exact h2 _ h

theorem AllP.append {a b : List Nat} (h1 : AllP P a) (h2 : AllP P b) : AllP P (a ++ b) := by
  intro x hx
  rcases List.mem_append.mp hx with h | h
  · exact h1 _ h
  · exact h2 _ h

theorem AllP.take {a : List Nat} (h : AllP P a) (n : Nat) : AllP P (a.take n) :=
  fun x hx => h x (List.mem_of_mem_take hx)

theorem AllP.drop {a : List Nat} (h : AllP P a) (n : Nat) : AllP P (a.drop n) :=
  fun x hx => h x (List.mem_of_mem_drop hx)

theorem AllP.set {a : List Nat} (h : AllP P a) {i v : Nat} (hv : P v) : AllP P (a.set i v) := by
  intro x hx
  rcases List.mem_or_eq_of_mem_set hx with h1 | rfl
  · exact h _ h1
  · exact hv

theorem AllP.get {a : List Nat} (h : AllP P a) {i : Nat} (hi : i < a.length) : P a[i] :=
  h _ (List.getElem_mem hi)

theorem zipDigits_tot (C : Closed D P) : ∀ (l0 l1 : List Nat) (c : Bool), AllP P l0 → AllP P l1 →
    Tot (zipDigits D.subCarry l0 l1 c) (fun r => AllP P r.1 ∧ r.1.length = l0.length)
  | d0 :: l0, d1 :: l1, c, h0, h1 => by
    rw [zipDigits]
    refine Sp.bind (C.sub d0 d1 c (h0 _ (by simp)) (h1 _ (by simp))) ?_
    rintro ⟨d, c'⟩ hd
    refine Sp.bind (zipDigits_tot C l0 l1 c' (fun x hx => h0 x (by simp [hx])) fun x hx => h1 x (by simp [hx])) ?_
    rintro ⟨l, c''⟩ ⟨hl, hn⟩
    exact Sp.pure ⟨AllP.cons hd hl, by simpa using hn⟩
  | [], l1, c, h0, _ => by rw [zipDigits]; exact Sp.ok ⟨h0, rfl⟩; simp
  | d :: l0, [], c, h0, _ => by rw [zipDigits]; exact Sp.ok ⟨h0, rfl⟩; simp

theorem decGo_tot (C : Closed D P) (n : Nat) : ∀ (l : List Nat), AllP P l →
    Tot (decGo D n l) (fun r => AllP P r.1 ∧ r.1.length = l.length)
  | [], h => by rw [decGo]; exact Sp.ok ⟨h, rfl⟩
  | [d], h => by
    rw [decGo]
    refine Sp.bind (C.dec d (h _ (by simp))) ?_
    rintro ⟨d', c⟩ hd
    have : AllP P [d'] := AllP.cons hd (by intro x hx; simp at hx)
    simp only []
    split
    · exact Sp.pure ⟨this, rfl⟩
    · split <;> exact Sp.pure ⟨this, rfl⟩
  | d :: e :: l, h => by
    rw [decGo]
    swap
    · simp
    refine Sp.bind (C.dec d (h _ (by simp))) ?_
    rintro ⟨d', c⟩ hd
    have ht : AllP P (e :: l) := fun x hx => h x (List.mem_cons_of_mem _ hx)
    simp only []
    split
    · exact Sp.pure ⟨AllP.cons hd ht, rfl⟩
    · refine Sp.bind (decGo_tot C n (e :: l) ht) ?_
      rintro ⟨l', r⟩ ⟨hl, hn⟩
      exact Sp.pure ⟨AllP.cons hd hl, by simpa using hn⟩

theorem dropLeadingZeros_tot {l : List Nat} {n : Nat} (h : n ≤ l.length) :
    Tot (dropLeadingZeros l n) (fun r => r ≤ n) := by
  obtain ⟨nd, a1, a2, -⟩ := dropLeadingZeros_spec l n h
  rw [a1]; exact a2

theorem onSlice_tot {α : Type} {l : List Nat} {a b : Nat} {f : List Nat → R (List Nat × α)} (h1 : a ≤ b)
    (h2 : b ≤ l.length) (hl : AllP P l)
    (hf : ∀ s, AllP P s → s.length = b - a → Tot (f s) (fun r => AllP P r.1 ∧ r.1.length = s.length)) :
    Tot (onSlice l a b f) (fun r => AllP P r.1 ∧ r.1.length = l.length) := by
  unfold onSlice
  rw [slice_ok h1 h2, ok_bind]
  have hs : ((l.take b).drop a).length = b - a := by simp; omega
  refine Sp.bind (hf _ ((hl.take b).drop a) hs) ?_
  rintro ⟨s, x⟩ ⟨hp, hn⟩
  refine Sp.pure ⟨((hl.take a).append hp).append (hl.drop b), ?_⟩
  simp only at hn ⊢
  simp; omega

theorem subAssignBig_tot (C : Closed D P) {a b : List Nat} (ha : AllP P a) (hb : AllP P b) :
    Tot (subAssignBig D a b) (fun r => AllP P r.1 ∧ r.1.length = a.length) := by
  unfold subAssignBig
  simp only []
  split
  · exact Sp.pure ⟨ha, rfl⟩
  · refine Sp.bind (zipDigits_tot C a b false ha hb) ?_
    rintro ⟨l, c⟩ ⟨hl, hn⟩
    simp only at hn ⊢
    split
    · refine Sp.bind (onSlice_tot (by omega) (by omega) hl fun s hs _ => decGo_tot C _ s hs) ?_
      rintro ⟨l', r⟩ ⟨hl', hn'⟩
      simp only at hn' ⊢
      split <;> exact Sp.pure ⟨hl', by simp only []; omega⟩
    · refine Sp.bind (dropLeadingZeros_tot (by omega)) ?_
      intro n _
      exact Sp.pure ⟨hl, hn⟩

theorem mulDigitGo_tot (C : Closed D P) {q : Nat} (hq : P q) : ∀ (l p : List Nat) (c : Nat), AllP P l →
    AllP P p → P c → Tot (mulDigitGo D q l p c) (fun r => AllP P r.1 ∧ r.1.length = p.length ∧ P r.2)
  | d :: l, p0 :: p, c, hl, hp, hc => by
    rw [mulDigitGo]
    refine Sp.bind (C.mul d q c (hl _ (by simp)) hq hc) ?_
    rintro ⟨e, c'⟩ ⟨he, hc'⟩
    refine Sp.bind (mulDigitGo_tot C hq l p c' (fun x hx => hl x (by simp [hx])) (fun x hx => hp x (by simp [hx]))
      hc') ?_
    rintro ⟨l', c''⟩ ⟨h1, h2, h3⟩
    exact Sp.pure ⟨AllP.cons he h1, by simpa using h2, h3⟩
  | [], p, c, _, hp, hc => by rw [mulDigitGo]; exact Sp.ok ⟨hp, rfl, hc⟩; simp
  | d :: l, [], c, _, hp, hc => by rw [mulDigitGo]; exact Sp.ok ⟨hp, rfl, hc⟩; simp

theorem mulDigitInto_tot (C : Closed D P) {q : Nat} (hq : P q) {l p : List Nat} (hl : AllP P l) (hp : AllP P p)
    (h : l.length + 1 ≤ p.length) :
    Tot (mulDigitInto D dbg l q p) (fun r => AllP P r ∧ r.length = p.length) := by
  unfold mulDigitInto
  refine Sp.bind (Sp.debugAssert (by simpa using h)) fun _ _ => ?_
  refine Sp.bind (mulDigitGo_tot C hq l p 0 hl hp C.zero) ?_
  rintro ⟨p', c⟩ ⟨h1, h2, h3⟩
  simp only at h2 ⊢
  rw [setR_ok (by omega)]
  exact Sp.ok ⟨h1.set h3, by simpa using h2⟩

/-! ## Schoolbook division -/

theorem firstTooLarge_tot {num qden : List Nat} {c n : Nat} (h1 : n ≤ num.length) (h2 : n < qden.length) :
    Tot (firstTooLarge num c n qden) (fun _ => True) := by
  unfold firstTooLarge
  rw [getR_ok h2, ok_bind]
  split
  · exact Sp.pure trivial
  · split
    · rw [slice_ok (by omega) (by omega), ok_bind, slice_ok (by omega) (by omega), ok_bind]
      exact Sp.pure trivial
    · exact Sp.pure trivial

theorem longFirst_tot (C : Closed D P) {num den quot qden : List Nat} {c msd : Nat} (hn : AllP P num)
    (hd : AllP P den) (hq : AllP P quot) (hp : AllP P qden) (hc : P c) (hm : P msd) (h0 : msd ≠ 0)
    (hl1 : 1 ≤ den.length) (hl : den.length ≤ num.length) (hl2 : num.length - den.length < quot.length)
    (hl3 : den.length + 1 = qden.length) :
    Tot (longFirst D dbg num c den msd quot qden) (fun r => AllP P r.1 ∧ r.1.length = num.length ∧
      AllP P r.2.1 ∧ r.2.1.length = quot.length ∧ AllP P r.2.2.1 ∧ r.2.2.1.length = qden.length ∧
      r.2.2.2 ≤ quot.length) := by
  unfold longFirst
  simp only []
  rw [getR_ok (by omega), ok_bind]
  refine Sp.bind (C.div _ _ _ (hn.get _) hm hc h0) ?_
  rintro ⟨q, _⟩ ⟨hq0, -⟩
  simp only at hq0 ⊢
  split
  · exact Sp.pure ⟨hn, rfl, hq, rfl, hp, rfl, by simp only []; omega⟩
  · refine Sp.bind (mulDigitInto_tot C hq0 hd hp (by omega)) ?_
    intro qden1 ⟨a1, a2⟩
    refine Sp.bind (P := fun r => P r.1 ∧ AllP P r.2 ∧ r.2.length = qden.length) ?_ ?_
    · refine Sp.bind (firstTooLarge_tot hl (by omega)) ?_
      intro b _
      split
      · refine Sp.bind (C.dec _ hq0) ?_
        rintro ⟨q1, _⟩ hq1
        refine Sp.bind (subAssignBig_tot C a1 hd) ?_
        rintro ⟨qden2, _⟩ ⟨b1, b2⟩
        simp only at hq1 b1 b2 ⊢
        refine Sp.bind (firstTooLarge_tot hl (by omega)) ?_
        intro b' _
        split
        · refine Sp.bind (C.dec _ hq1) ?_
          rintro ⟨q2, _⟩ hq2
          refine Sp.bind (subAssignBig_tot C b1 hd) ?_
          rintro ⟨qden3, _⟩ ⟨c1, c2⟩
          exact Sp.pure ⟨hq2, c1, by simp only at c2 ⊢; omega⟩
        · exact Sp.pure ⟨hq1, b1, by simp only []; omega⟩
      · exact Sp.pure ⟨hq0, a1, a2⟩
    · rintro ⟨q1, qden2⟩ ⟨b1, b2, b3⟩
      simp only at b1 b2 b3 ⊢
      refine Sp.bind (onSlice_tot (by omega) le_rfl hn ?_) ?_
      · intro s hs _
        rw [slice_ok (by omega) (by omega), ok_bind]
        exact subAssignBig_tot C hs ((b2.take _).drop _)
      · rintro ⟨num1, _⟩ ⟨d1, d2⟩
        simp only at d1 d2 ⊢
        rw [setR_ok (by omega), ok_bind]
        exact Sp.pure ⟨d1, d2, hq.set b1, by simp, b2, b3, by simp only []; omega⟩

theorem longStep_tot (C : Closed D P) {num den quot qden : List Nat} {msd iq : Nat} (hn : AllP P num)
    (hd : AllP P den) (hq : AllP P quot) (hp : AllP P qden) (hm : P msd) (h0 : msd ≠ 0)
    (hl1 : 1 ≤ den.length) (hl : iq + den.length < num.length) (hl2 : iq < quot.length)
    (hl3 : den.length + 1 = qden.length) :
    Tot (longStep D dbg den msd iq num quot qden) (fun r => AllP P r.1 ∧ r.1.length = num.length ∧
      AllP P r.2.1 ∧ r.2.1.length = quot.length ∧ AllP P r.2.2 ∧ r.2.2.length = qden.length) := by
  unfold longStep
  simp only []
  rw [getR_ok (by omega), ok_bind, getR_ok hl, ok_bind]
  refine Sp.bind (C.div _ _ _ (hn.get _) hm (hn.get _) h0) ?_
  rintro ⟨q, _⟩ ⟨hq0, -⟩
  simp only at hq0 ⊢
  refine Sp.bind (P := fun r => AllP P r.1 ∧ r.1.length = num.length ∧ AllP P r.2.1 ∧
    r.2.1.length = qden.length ∧ P r.2.2) ?_ ?_
  · split
    · exact Sp.pure ⟨hn, rfl, hp, rfl, hq0⟩
    · refine Sp.bind (mulDigitInto_tot C hq0 hd hp (by omega)) ?_
      intro qden1 ⟨a1, a2⟩
      refine Sp.bind (P := fun r => P r.1 ∧ AllP P r.2 ∧ r.2.length = qden.length) ?_ ?_
      · rw [slice_ok (by omega) (by omega), ok_bind]
        split
        · refine Sp.bind (C.dec _ hq0) ?_
          rintro ⟨q1, _⟩ hq1
          refine Sp.bind (subAssignBig_tot C a1 hd) ?_
          rintro ⟨qden2, _⟩ ⟨b1, b2⟩
          simp only at hq1 b1 b2 ⊢
          rw [ok_bind]
          split
          · refine Sp.bind (C.dec _ hq1) ?_
            rintro ⟨q2, _⟩ hq2
            refine Sp.bind (subAssignBig_tot C b1 hd) ?_
            rintro ⟨qden3, _⟩ ⟨c1, c2⟩
            exact Sp.pure ⟨hq2, c1, by simp only at c2 ⊢; omega⟩
          · exact Sp.pure ⟨hq1, b1, by simp only []; omega⟩
        · exact Sp.pure ⟨hq0, a1, a2⟩
      · rintro ⟨q1, qden2⟩ ⟨b1, b2, b3⟩
        simp only at b1 b2 b3 ⊢
        refine Sp.bind (onSlice_tot (by omega) (by omega) hn fun s hs _ => subAssignBig_tot C hs b2) ?_
        rintro ⟨num1, _⟩ ⟨d1, d2⟩
        exact Sp.pure ⟨d1, d2, b2, b3, b1⟩
  · rintro ⟨num1, qden1, q1⟩ ⟨a1, a2, a3, a4, a5⟩
    simp only at a1 a2 a3 a4 a5 ⊢
    rw [setR_ok hl2, ok_bind]
    exact Sp.pure ⟨a1, a2, hq.set a5, by simp, a3, a4⟩

theorem longLoop_tot (C : Closed D P) {den : List Nat} {msd : Nat} (hd : AllP P den) (hm : P msd)
    (h0 : msd ≠ 0) (hl1 : 1 ≤ den.length) : ∀ (iq : Nat) (num quot qden : List Nat), AllP P num →
    AllP P quot → AllP P qden → iq + den.length ≤ num.length → iq ≤ quot.length →
    den.length + 1 = qden.length →
    Tot (longLoop D dbg den msd iq num quot qden) (fun r => AllP P r.1 ∧ r.1.length = num.length ∧
      AllP P r.2.1 ∧ r.2.1.length = quot.length ∧ AllP P r.2.2 ∧ r.2.2.length = qden.length)
  | 0, num, quot, qden, hn, hq, hp, _, _, _ => by
    rw [longLoop]
    exact Sp.ok ⟨hn, rfl, hq, rfl, hp, rfl⟩
  | iq + 1, num, quot, qden, hn, hq, hp, h1, h2, h3 => by
    rw [longLoop]
    refine Sp.bind (longStep_tot C hn hd hq hp hm h0 hl1 (by omega) (by omega) h3) ?_
    rintro ⟨num1, quot1, qden1⟩ ⟨a1, a2, a3, a4, a5, a6⟩
    simp only at a1 a2 a3 a4 a5 a6 ⊢
    refine (longLoop_tot C hd hm h0 hl1 iq num1 quot1 qden1 a1 a3 a5 (by omega) (by omega) (by omega)).mono ?_
    rintro ⟨num2, quot2, qden2⟩ ⟨b1, b2, b3, b4, b5, b6⟩
    exact ⟨b1, by omega, b3, by omega, b5, by omega⟩

theorem divBigLongScaled_tot (C : Closed D P) {num v quot work : List Nat} {c f : Nat} (hn : AllP P num)
    (hd : AllP P (v ++ [f])) (hq : AllP P quot) (hw : AllP P work) (hc : P c) (h0 : f ≠ 0)
    (hm : ∃ k, D.maxShift f = .ok k ∧ (dbg = true → k = 0))
    (hl : v.length + 1 ≤ num.length) (hl2 : num.length - (v.length + 1) < quot.length)
    (hl3 : v.length + 2 ≤ work.length) :
    Tot (divBigLongScaled D dbg num c (v ++ [f]) quot work) (fun r => AllP P r.1 ∧
      r.1.length = num.length ∧ r.2.2.2.2 ≤ num.length) := by
  have hlen : (v ++ [f]).length = v.length + 1 := by simp
  have hg : getR (v ++ [f]) (v.length + 1 - 1) = .ok f := by rw [getR_ok (by simp)]; simp
  obtain ⟨k, hk, hk0⟩ := hm
  unfold divBigLongScaled
  simp only [hlen]
  rw [hg, ok_bind, hk, ok_bind]
  have ha : debugAssertR dbg (decide (k = 0)) = .ok () := by
    cases dbg <;> simp_all [debugAssertR]
  rw [ha, ok_bind, splitAtR_ok (by omega), ok_bind]
  refine Sp.bind (longFirst_tot C hn hd hq (hw.take _) hc (hd _ (by simp)) h0 (by omega) (by omega)
    (by omega) (by simp; omega)) ?_
  rintro ⟨num1, quot1, qden1, nq⟩ ⟨a1, a2, a3, a4, a5, a6, a7⟩
  simp only at a1 a2 a3 a4 a5 a6 a7 ⊢
  refine Sp.bind (longLoop_tot C hd (hd _ (by simp)) h0 (by omega) _ num1 quot1 qden1 a1 a3 a5 (by omega)
    (by omega) (by rw [a6]; simp; omega)) ?_
  rintro ⟨num2, quot2, qden2⟩ ⟨b1, b2, b3, b4, b5, b6⟩
  simp only at b1 b2 b3 b4 b5 b6 ⊢
  refine Sp.bind (dropLeadingZeros_tot (by omega)) fun nq' _ => ?_
  refine Sp.bind (dropLeadingZeros_tot (by omega)) fun nr hr => ?_
  exact Sp.pure ⟨b1, by simp only []; omega, by simp only []; omega⟩

/-- Right shifts by `s` return. -/
def ShrTot (D : DigitOps) (P : Nat → Prop) (s : Nat) : Prop :=
  ∃ Q : Nat → Prop, Q 0 ∧ ∀ a c, P a → Q c → Tot (D.shrCarry a s c) (fun r => P r.1 ∧ Q r.2)

theorem foldDigitsRev_tot {α : Type} {f : Nat → α → R (Nat × α)} {Q : α → Prop}
    (h : ∀ a c, P a → Q c → Tot (f a c) (fun r => P r.1 ∧ Q r.2)) : ∀ (l : List Nat) (c : α), AllP P l → Q c →
    Tot (foldDigitsRev f l c) (fun r => AllP P r.1 ∧ r.1.length = l.length ∧ Q r.2)
  | [], c, hl, hc => by rw [foldDigitsRev]; exact Sp.ok ⟨hl, rfl, hc⟩
  | d :: l, c, hl, hc => by
    rw [foldDigitsRev]
    refine Sp.bind (foldDigitsRev_tot h l c (fun x hx => hl x (by simp [hx])) hc) ?_
    rintro ⟨l', c'⟩ ⟨a1, a2, a3⟩
    refine Sp.bind (h d c' (hl _ (by simp)) a3) ?_
    rintro ⟨d', c''⟩ ⟨b1, b2⟩
    exact Sp.pure ⟨AllP.cons b1 a1, by simpa using a2, b2⟩

theorem shrWithin_tot {s : Nat} (h : s ≠ 0 → ShrTot D P s) {l : List Nat} (hl : AllP P l) :
    Tot (shrWithin D l s 0) (fun r => AllP P r.1 ∧ r.1.length = l.length) := by
  unfold shrWithin
  split
  · refine Sp.bind (dropLeadingZeros_tot le_rfl) fun _ _ => ?_
    exact Sp.pure ⟨hl, rfl⟩
  · rename_i h0
    obtain ⟨Q, h1, h2⟩ := h h0
    refine Sp.bind (foldDigitsRev_tot h2 l 0 hl h1) ?_
    rintro ⟨l', c⟩ ⟨a1, a2, -⟩
    refine Sp.bind (dropLeadingZeros_tot le_rfl) fun _ _ => ?_
    exact Sp.pure ⟨a1, a2⟩

variable {B : Nat}

theorem divBigLong_tot (L : Lawful D B) (C : Closed D P) (hP : ∀ d, d < B → P d)
    {num v v' quot work : List Nat} {d f s c : Nat} (hn : Digs B num) (hd0 : d ≠ 0)
    (hq : AllP P quot) (hw : AllP P work)
    (hs : D.maxShift d = .ok s) (hs1 : d * 2 ^ s < B)
    (hv : shlWithin D (v ++ [d]) s 0 = .ok (v' ++ [f], c)) (hvl : v'.length = v.length)
    (hd' : Digs B (v' ++ [f])) (h0 : f ≠ 0)
    (hm : ∃ k, D.maxShift f = .ok k ∧ (dbg = true → k = 0)) (hshr : s ≠ 0 → ShrTot D P s)
    (h2 : 2 < v.length + 1) (hl : v.length + 1 ≤ num.length)
    (hl2 : num.length - (v.length + 1) < quot.length) (hl3 : v.length + 2 ≤ work.length) :
    Tot (divBigLong D dbg num (v ++ [d]) quot work) (fun _ => True) := by
  have hlen : (v ++ [d]).length = v.length + 1 := by simp
  have hg : getR (v ++ [d]) (v.length + 1 - 1) = .ok d := by rw [getR_ok (by simp)]; simp
  have hdebug : ∀ {c : Bool}, c = true → debugAssertR dbg c = .ok () := by
    intro c h; simp [debugAssertR, h]
  have hsB : 2 ^ s < B := by
    have : 1 * 2 ^ s ≤ d * 2 ^ s := Nat.mul_le_mul_right _ (by omega)
    omega
  unfold divBigLong
  simp only [hlen]
  rw [hdebug (decide_eq_true h2), ok_bind, hdebug (decide_eq_true hl), ok_bind,
    slice_ok (by omega) le_rfl, ok_bind, hdebug (by simp; left; omega), ok_bind,
    hdebug (decide_eq_true (by unfold divLongWorkSize; omega)), ok_bind, hg, ok_bind, hs, ok_bind]
  have hall : ∀ {l : List Nat}, Digs B l → AllP P l := fun h x hx => hP x (h x hx)
  split
  · rename_i h
    subst h
    have : v ++ [d] = v' ++ [f] := by
      unfold shlWithin at hv
      rw [if_pos rfl] at hv
      injection hv with hv
      exact congrArg Prod.fst hv
    rw [this]
    exact (divBigLongScaled_tot C (hall hn) (hall hd') hq hw C.zero h0 hm (by omega) (by omega)
      (by omega)).mono fun _ _ => trivial
  · rename_i h
    rw [hv, ok_bind]
    obtain ⟨r, c', e1, e2, e3, e4, -⟩ := shlWithin_spec L num s 0 hn hsB (Nat.two_pow_pos s)
    rw [e1, ok_bind]
    simp only []
    refine Sp.bind (divBigLongScaled_tot C (hall e3) (hall hd') hq hw (hP _ (by omega)) h0 hm (by omega)
      (by omega) (by omega)) ?_
    rintro ⟨num1, quot1, work1, nq, nr⟩ ⟨a1, a2, a3⟩
    simp only at a1 a2 a3 ⊢
    refine Sp.bind (P := fun _ => True) ?_ fun _ _ => Sp.pure trivial
    refine (onSlice_tot (P := P) (by omega) (by omega) a1 fun l hl _ => ?_).mono fun _ _ => trivial
    exact shrWithin_tot hshr hl

theorem divPairStep_tot (C : Closed D P) {dl dh : Nat} (hl : P dl) (hh : P dh) (h0 : dh ≠ 0)
    (d : Nat) (rem : Nat × Nat) (hd : P d) (hr : P rem.1 ∧ P rem.2) :
    Tot (divPairStep D dl dh d rem) (fun r => P r.1 ∧ (P r.2.1 ∧ P r.2.2)) := by
  obtain ⟨rl, rh⟩ := rem
  obtain ⟨hr1, hr2⟩ := hr
  simp only at hr1 hr2
  unfold divPairStep
  simp only []
  refine Sp.bind (C.div _ _ _ hr1 hh hr2 h0) ?_
  rintro ⟨q, q'⟩ ⟨hq, -⟩
  refine Sp.bind (C.mul _ _ _ hl hq C.zero) ?_
  rintro ⟨d1, c1⟩ ⟨hd1, hc1⟩
  refine Sp.bind (C.mul _ _ _ hh hq hc1) ?_
  rintro ⟨d2, d3⟩ ⟨hd2, hd3⟩
  simp only at hq hd1 hc1 hd2 hd3 ⊢
  refine Sp.bind (P := fun r => P r.1 ∧ P r.2.1 ∧ P r.2.2) ?_ ?_
  · split
    · refine Sp.bind (C.dec _ hq) ?_
      rintro ⟨q1, _⟩ hq1
      refine Sp.bind (C.sub _ _ _ hd1 hl) ?_
      rintro ⟨e1, b1⟩ he1
      refine Sp.bind (C.sub _ _ _ hd2 hh) ?_
      rintro ⟨e2, b2⟩ he2
      simp only at hq1 he1 he2 ⊢
      have key : ∀ e3 : Nat × Bool, Tot (if arrayGt [e3.1, e2, e1] [rh, rl, d] = true then do
          let x ← D.dec q1
          let y ← D.subCarry e1 dl false
          let z ← D.subCarry e2 dh y.2
          pure (x.1, y.1, z.1)
        else pure (q1, e1, e2)) (fun r => P r.1 ∧ P r.2.1 ∧ P r.2.2) := by
        intro e3
        split
        · refine Sp.bind (C.dec _ hq1) ?_
          rintro ⟨q2, _⟩ hq2
          refine Sp.bind (C.sub _ _ _ he1 hl) ?_
          rintro ⟨f1, b3⟩ hf1
          refine Sp.bind (C.sub _ _ _ he2 hh) ?_
          rintro ⟨f2, b4⟩ hf2
          exact Sp.pure ⟨hq2, hf1, hf2⟩
        · exact Sp.pure ⟨hq1, he1, he2⟩
      split
      · exact Sp.bind (C.dec _ hd3) fun e3 _ => key e3
      · exact key (d3, false)
    · exact Sp.pure ⟨hq, hd1, hd2⟩
  rintro ⟨q1, e1, e2⟩ ⟨hq1, he1, he2⟩
  simp only at hq1 he1 he2 ⊢
  refine Sp.bind (C.sub _ _ _ hd he1) ?_
  rintro ⟨d', b⟩ hd'
  refine Sp.bind (C.sub _ _ _ hr1 he2) ?_
  rintro ⟨r', b'⟩ hr'
  exact Sp.pure ⟨hq1, hd', hr'⟩

theorem divPair_tot (L : Lawful D B) (C : Closed D P) (hP : ∀ d, d < B → P d) {num : List Nat}
    {yl yh s : Nat} (hn : Digs B num) (hl : yl < B) (hh : yh < B) (hd0 : yh ≠ 0)
    (hs : D.maxShift yh = .ok s) (hs1 : yh * 2 ^ s < B)
    (h0 : (yl + B * yh) * 2 ^ s / B % B ≠ 0) (hshr : s ≠ 0 → ShrTot D P s) :
    Tot (divAssignDigitPair D num yl yh) (fun _ => True) := by
  have hsB : 2 ^ s < B := by
    have : 1 * 2 ^ s ≤ yh * 2 ^ s := Nat.mul_le_mul_right _ (by omega)
    omega
  have hB := L.pos
  have hall : ∀ {l : List Nat}, Digs B l → AllP P l := fun h x hx => hP x (h x hx)
  have htop : (yl + B * yh) * 2 ^ s / B = (yh * 2 ^ s + (yl * 2 ^ s) / B) := by
    rw [show (yl + B * yh) * 2 ^ s = yl * 2 ^ s + B * (yh * 2 ^ s) by ring, Nat.add_mul_div_left _ _ hB]
    omega
  rw [htop] at h0
  unfold divAssignDigitPair
  rw [if_neg hd0]
  match num, hn with
  | [], _ => exact Sp.ok trivial
  | [d], _ => exact Sp.ok trivial
  | a :: b :: l, hn =>
    simp only []
    have hlen : 2 ≤ (a :: b :: l).length := by simp
    generalize hg : a :: b :: l = num at hn hlen ⊢
    rw [hs, ok_bind]
    refine Sp.bind (P := fun r => AllP P r.1 ∧ r.1.length = num.length ∧ P r.2.1 ∧ P r.2.2.1 ∧ r.2.2.1 ≠ 0 ∧
      P r.2.2.2) ?_ ?_
    · split
      · rename_i hs0
        have hc : yl * 2 ^ s / B < 2 ^ s := by
          rw [Nat.div_lt_iff_lt_mul hB, mul_comm (2 ^ s)]
          exact Nat.mul_lt_mul_of_pos_right hl (Nat.two_pow_pos s)
        rw [L.shlCarry yl s 0 hl hs0 hsB (Nat.two_pow_pos s), ok_bind]
        simp only [Nat.add_zero]
        rw [L.shlCarry yh s _ hh hs0 hsB hc, ok_bind]
        obtain ⟨r, c', e1, e2, e3, e4, -⟩ := shlWithin_spec L num s 0 hn hsB (Nat.two_pow_pos s)
        simp only []
        rw [e1, ok_bind]
        exact Sp.pure ⟨hall e3, e2, hP _ (Nat.mod_lt _ hB), hP _ (Nat.mod_lt _ hB), h0,
          hP _ (show c' < B by omega)⟩
      · exact Sp.pure ⟨hall hn, rfl, hP _ hl, hP _ hh, hd0, C.zero⟩
    · rintro ⟨l1, dl, dh, rh⟩ ⟨a1, a2, a3, a4, a5, a6⟩
      simp only at a1 a2 a3 a4 a5 a6 ⊢
      rw [getR_ok (by omega), ok_bind, setR_ok (by omega), ok_bind]
      have ht : P l1[num.length - 1] := a1.get (by omega)
      have hset : AllP P (l1.set (num.length - 1) 0) := a1.set C.zero
      refine Sp.bind (P := fun r => r.1.length = num.length ∧ P r.2.1 ∧ P r.2.2) ?_ ?_
      · unfold onSlice
        rw [slice_ok (by omega) (by simp; omega), ok_bind]
        refine Sp.bind (foldDigitsRev_tot (Q := fun r => P r.1 ∧ P r.2)
          (fun d r h1 h2 => divPairStep_tot C a3 a4 a5 d r h1 h2) _ _ ((hset.take _).drop _) ⟨ht, a6⟩) ?_
        rintro ⟨s', c'⟩ ⟨b1, b2, b3⟩
        refine Sp.pure ⟨?_, b3⟩
        simp at b2 ⊢
        omega
      rintro ⟨l2, rl', rh'⟩ ⟨b1, b2, b3⟩
      simp only at b1 b2 b3 ⊢
      refine Sp.bind (P := fun _ => True) ?_ ?_
      · split
        · rename_i hs0
          obtain ⟨Q, q1, q2⟩ := hshr (by omega)
          refine Sp.bind (q2 _ _ b3 q1) ?_
          rintro ⟨x, c⟩ ⟨-, hc⟩
          refine Sp.bind (q2 _ _ b2 hc) ?_
          rintro ⟨x, c⟩ -
          exact Sp.pure trivial
        · exact Sp.pure trivial
      rintro ⟨x, y⟩ -
      refine Sp.bind (dropLeadingZeros_tot (by omega)) fun _ _ => ?_
      exact Sp.pure trivial

theorem divDigit_tot (C : Closed D P) {num : List Nat} {d : Nat} (hn : AllP P num) (hd : P d) (h0 : d ≠ 0) :
    Tot (divAssignDigit D num d) (fun _ => True) := by
  unfold divAssignDigit
  rw [if_neg h0]
  refine Sp.bind (foldDigitsRev_tot (Q := P) (fun a c h1 h2 => C.div a d c h1 hd h2 h0) num 0 hn C.zero) ?_
  rintro ⟨l, c⟩ -
  refine Sp.bind (dropLeadingZeros_tot le_rfl) fun _ _ => ?_
  exact Sp.pure trivial

theorem Sp.and_of_tot {α : Type} {x : R α} {Q : α → Prop} (h1 : Tot x (fun _ => True))
    (h2 : Sp (fun _ => True) x Q) : Tot x Q := by
  cases x with
  | ok a => exact h2
  | error p => exact h1

/-- The leading digit of the scaled divisor. -/
def topOf (B : Nat) (den : List Nat) (s : Nat) : Nat := val B den * 2 ^ s / B ^ (den.length - 1) % B

theorem topOf_shl {v v' : List Nat} {d f s c : Nat} (hB : 0 < B) (e2 : v'.length = v.length)
    (e3 : Digs B (v' ++ [f]))
    (e5 : val B (v' ++ [f]) + B ^ (v ++ [d]).length * c = val B (v ++ [d]) * 2 ^ s + 0) :
    topOf B (v ++ [d]) s = f := by
  have hfB : f < B := e3 _ (by simp)
  have hv' : val B v' < B ^ v.length := by
    rw [← e2]; exact val_lt fun x hx => e3 x (by simp [hx])
  have e6 : val B (v ++ [d]) * 2 ^ s = val B v' + B ^ v.length * (f + B * c) := by
    rw [val_append B v'] at e5
    simp only [List.length_append, List.length_singleton, e2] at e5
    have : val B [f] = f := by simp [val]
    rw [this] at e5
    rw [← Nat.add_zero (val B (v ++ [d]) * 2 ^ s), ← e5]
    ring
  unfold topOf
  rw [e6]
  simp only [List.length_append, List.length_singleton, Nat.add_sub_cancel]
  rw [Nat.add_mul_div_left _ _ (Nat.pow_pos hB), Nat.div_eq_of_lt hv', Nat.zero_add,
    Nat.add_mul_mod_self_left, Nat.mod_eq_of_lt hfB]

theorem copyInto_tot {l src : List Nat} {b : Nat} (h : b ≤ l.length) (h2 : src.length = b) :
    Tot (copyInto l 0 b src) (fun _ => True) := by
  unfold copyInto
  rw [slice_ok (by omega) h, ok_bind, if_pos (by simp; omega)]
  exact Sp.pure trivial

theorem divLongAny_tot (L : Lawful D B) (C : Closed D P) (hP : ∀ d, d < B → P d) {num den quot : List Nat}
    (hn : Digs B num) (hd : Digs B den) (cd : Canon den) (hne : den ≠ []) (hlen : den.length ≤ num.length)
    (h2 : 2 < den.length) (h20 : den.length < 20)
    (h0 : ∀ d s, den.getLast? = some d → d * 2 ^ s < B → B ≤ d * 2 ^ (s + 1) → 2 ≤ den.length →
      topOf B den s ≠ 0 ∧ (dbg = true → B ≤ 2 * topOf B den s))
    (hshr : ∀ s, s ≠ 0 → 2 ^ s < B → ShrTot D P s) (hqP : AllP P quot)
    (hql : quot.length = num.length - den.length + 1) (hw : AllP P (List.replicate 20 0)) :
    Tot (divBigLong D dbg num den quot (List.replicate 20 0)) (fun _ => True) := by
  have hB := L.pos
  obtain ⟨v, d, rfl⟩ : ∃ v d, den = v ++ [d] :=
    ⟨den.dropLast, den.getLast hne, (List.dropLast_concat_getLast _).symm⟩
  simp only [List.length_append, List.length_singleton] at h2 hlen h20 h0 hql ⊢
  have hd0 : d ≠ 0 := canon_snoc.mp cd
  have hdB : d < B := hd _ (by simp)
  obtain ⟨s, hs, hs1, hs2⟩ := L.maxShift d (by omega) hdB
  have hsB : 2 ^ s < B := by
    have : 1 * 2 ^ s ≤ d * 2 ^ s := Nat.mul_le_mul_right _ (by omega)
    omega
  obtain ⟨r, c, e1, e2, e3, e4, e5⟩ := shlWithin_spec L (v ++ [d]) s 0 hd hsB (Nat.two_pow_pos s)
  obtain ⟨v', f, rfl⟩ : ∃ v' f, r = v' ++ [f] :=
    ⟨r.dropLast, r.getLast (by intro h; simp [h] at e2),
      (List.dropLast_concat_getLast _).symm⟩
  have e2' : v'.length = v.length := by simpa using e2
  have hfB : f < B := e3 _ (by simp)
  have htop : topOf B (v ++ [d]) s = f := topOf_shl hB e2' e3 e5
  obtain ⟨t1, t2⟩ := h0 d s (by simp) hs1 hs2 (by omega)
  rw [htop] at t1 t2
  have hm : ∃ k, D.maxShift f = .ok k ∧ (dbg = true → k = 0) := by
    obtain ⟨k, k1, k2, -⟩ := L.maxShift f (by omega) hfB
    refine ⟨k, k1, fun h => ?_⟩
    by_contra hk
    have : f * 2 ^ 1 ≤ f * 2 ^ k := Nat.mul_le_mul_left _ (Nat.pow_le_pow_right (by omega) (by omega))
    have := t2 h
    omega
  exact divBigLong_tot L C hP hn hd0 hqP hw hs hs1 e1 e2' e3 t1 hm (fun h => hshr s h hsB)
    (by omega) (by omega) (by omega) (by simp; omega)

theorem divBig_tot (L : Lawful D B) (C : Closed D P) (hP : ∀ d, d < B → P d) {num den : List Nat}
    (hn : Digs B num) (hd : Digs B den) (cd : Canon den) (hne : den ≠ []) (hlen : den.length ≤ num.length)
    (h20 : den.length < 20)
    (h0 : ∀ d s, den.getLast? = some d → d * 2 ^ s < B → B ≤ d * 2 ^ (s + 1) → 2 ≤ den.length →
      topOf B den s ≠ 0 ∧ (dbg = true → B ≤ 2 * topOf B den s))
    (hshr : ∀ s, s ≠ 0 → 2 ^ s < B → ShrTot D P s) :
    Tot (divBig D dbg num den (List.replicate (num.length - den.length + 1) 0)) (fun _ => True) := by
  have hall : ∀ {l : List Nat}, Digs B l → AllP P l := fun h x hx => hP x (h x hx)
  have hB := L.pos
  have hrep : ∀ n, AllP P (List.replicate n 0) := fun n x hx => by
    rw [List.eq_of_mem_replicate hx]; exact C.zero
  unfold divBig divBigWithWork divBigWithWorkGen
  simp only []
  obtain ⟨quot, hquot⟩ : ∃ q, List.replicate (num.length - den.length + 1) 0 = q := ⟨_, rfl⟩
  have hql : quot.length = num.length - den.length + 1 := by rw [← hquot]; simp
  have hqP : AllP P quot := by rw [← hquot]; exact hrep _
  rw [hquot]
  refine Sp.bind (P := fun _ => True) ?_ fun _ _ => Sp.pure trivial
  rw [if_neg hne]
  split
  · exact Sp.pure trivial
  rename_i hlt
  rw [if_neg (by omega)]
  simp only [pure_bind, Bool.false_eq_true, if_false]
  split
  · rename_i h1
    obtain ⟨d, rfl⟩ : ∃ d, den = [d] := List.length_eq_one_iff.mp h1
    have hd0 : d ≠ 0 := canon_singleton.mp cd
    have hg : getR [d] 0 = .ok d := rfl
    rw [hg, ok_bind]
    refine Sp.bind ((divDigit_tot C (hall hn) (hP _ (hd _ (by simp))) hd0).and_of_tot (divDigit_ok num d hd0)) ?_
    rintro ⟨l, r⟩ ⟨h2, nd, a, h3, h4⟩
    simp only at h2 h3
    subst h3
    simp only [List.length_singleton] at hql hlen ⊢
    rw [if_neg (by omega), slice_ok (by omega) (by omega), ok_bind]
    refine Sp.bind (copyInto_tot (by omega) (by simp; omega)) fun _ _ => ?_
    split
    · exact Sp.pure trivial
    · rw [setR_ok (by simp [fillWith]; omega), ok_bind]
      exact Sp.pure trivial
  split
  · rename_i h1 h2
    obtain ⟨yl, yh, rfl⟩ : ∃ yl yh, den = [yl, yh] := by
      match den, h2 with
      | [a, b], _ => exact ⟨a, b, rfl⟩
    have hy0 : yh ≠ 0 := by simpa [canon_cons_cons, canon_singleton] using cd
    have hg0 : getR [yl, yh] 0 = .ok yl := rfl
    have hg1 : getR [yl, yh] 1 = .ok yh := rfl
    rw [hg0, ok_bind, hg1, ok_bind]
    have hl' : yl < B := hd _ (by simp)
    have hh' : yh < B := hd _ (by simp)
    obtain ⟨s, hs, hs1, hs2⟩ := L.maxShift yh (by omega) hh'
    have hsB : 2 ^ s < B := by
      have : 1 * 2 ^ s ≤ yh * 2 ^ s := Nat.mul_le_mul_right _ (by omega)
      omega
    have ht := (h0 yh s (by simp) hs1 hs2 (by simp)).1
    have ht' : (yl + B * yh) * 2 ^ s / B % B ≠ 0 := by
      simpa [topOf, val] using ht
    refine Sp.bind ((divPair_tot L C hP hn hl' hh' hy0 hs hs1 ht' fun h => hshr s h hsB).and_of_tot
      (divPair_ok num yl yh hy0 (by simpa using hlen))) ?_
    rintro ⟨l, r⟩ ⟨h2, nd, a, c, h3, h4⟩
    simp only at h2 h3
    subst h3
    simp only [List.length_cons, List.length_nil] at hql hlen ⊢
    rw [if_neg (by omega), slice_ok (by omega) (by omega), ok_bind]
    refine Sp.bind (copyInto_tot (by omega) (by simp; omega)) fun _ _ => ?_
    split
    · split
      · exact Sp.pure trivial
      · rw [setR_ok (by simp [fillWith]; omega), ok_bind]
        exact Sp.pure trivial
    · rw [setR_ok (by simp [fillWith]; omega), ok_bind, setR_ok (by simp [fillWith]; omega), ok_bind]
      exact Sp.pure trivial
  rename_i h1 h2
  have hpos : 0 < den.length := List.length_pos_iff.mpr hne
  rw [if_pos (show den.length < bzCutoff from h20)]
  have hwork : (if (decide (den.length ≤ 2) || ltBig num den) = true then []
      else if den.length < bzCutoff then List.replicate bzCutoff 0
      else List.replicate (divBzWorkSize den.length) 0) = List.replicate 20 0 := by
    rw [if_neg (by simp [hlt]; omega), if_pos (show den.length < bzCutoff from h20)]
    rfl
  rw [hwork]
  have ha : debugAssertR dbg (decide (divLongWorkSize den.length ≤ (List.replicate 20 0).length)) = .ok () := by
    rw [decide_eq_true (by simp [divLongWorkSize]; omega)]; simp [debugAssertR]
  rw [ha, ok_bind]
  refine Sp.bind (P := fun _ => True) ?_ ?_
  · exact divLongAny_tot L C hP hn hd cd hne hlen (by omega) h20 h0 hshr hqP hql (hrep 20)
  · rintro ⟨a, b, c, d, e⟩ -
    exact Sp.pure trivial

/-! ## The digit types -/

theorem Lawful.shrTot (L : Lawful D B) {s : Nat} (h0 : s ≠ 0) (hs : 2 ^ s < B) :
    ShrTot D (fun d => d < B) s := by
  refine ⟨fun c => c < 2 ^ s, Nat.two_pow_pos s, fun a c ha hc => ?_⟩
  rw [L.shrCarry a s c ha (by omega) hs hc]
  refine Sp.ok ⟨?_, Nat.mod_lt _ (Nat.two_pow_pos s)⟩
  show (c * B + a) / 2 ^ s < B
  rw [Nat.div_lt_iff_lt_mul (Nat.two_pow_pos s), mul_comm B]
  exact carry_mul_add_lt ha hc

theorem bin_closed (dbg : Bool) (w : Nat) (hw : 8 ≤ w) : Closed (binOps dbg w) (fun d => d < 2 ^ w) := by
  have L := bin_lawful dbg w hw
  have hB := L.pos
  refine ⟨hB, fun a ha => ?_, fun a b c ha hb => ?_, fun a f c ha hf hc => ?_, fun a f c ha hf hc h0 => ?_⟩
  · rw [L.dec a ha]; exact Sp.ok (Nat.mod_lt _ hB)
  · rw [L.subCarry a b c ha hb]; exact Sp.ok (Nat.mod_lt _ hB)
  · rw [L.mulCarry a f c ha hf hc]
    refine Sp.ok ⟨Nat.mod_lt _ hB, ?_⟩
    show (a * f + c) / 2 ^ w < 2 ^ w
    have := mul_pred_lt ha hf
    rw [Nat.div_lt_iff_lt_mul hB]
    omega
  · show Tot (Bin.divCarry dbg w a f c) _
    unfold Bin.divCarry
    unfold shlW divW remW
    rw [if_pos (by omega), ok_bind]
    simp only [if_neg h0, ok_bind]
    exact Sp.pure ⟨Nat.mod_lt _ hB, Nat.mod_lt _ hB⟩

theorem addW_tot (w a b : Nat) : Tot (addW false w a b) (fun _ => True) := by
  unfold addW; split
  · exact Sp.ok trivial
  · exact Sp.ok trivial
theorem subW_tot (w a b : Nat) : Tot (subW false w a b) (fun _ => True) := by
  unfold subW; split
  · exact Sp.ok trivial
  · exact Sp.ok trivial
theorem mulW_tot (w a b : Nat) : Tot (mulW false w a b) (fun _ => True) := by
  unfold mulW; split
  · exact Sp.ok trivial
  · exact Sp.ok trivial
theorem shlW_tot (w a b : Nat) : Tot (shlW false w a b) (fun _ => True) := by
  unfold shlW; split
  · exact Sp.ok trivial
  · exact Sp.ok trivial
theorem shrW_tot (w a b : Nat) : Tot (shrW false w a b) (fun _ => True) := by
  unfold shrW; split
  · exact Sp.ok trivial
  · exact Sp.ok trivial
theorem divW_tot (a : Nat) {b : Nat} (h : b ≠ 0) : Tot (divW a b) (fun _ => True) := by
  unfold divW; rw [if_neg h]; exact Sp.ok trivial
theorem remW_tot (a : Nat) {b : Nat} (h : b ≠ 0) : Tot (remW a b) (fun _ => True) := by
  unfold remW; rw [if_neg h]; exact Sp.ok trivial

theorem dec_dec_tot (w rx a : Nat) : Tot (Dec.dec false w rx a) (fun _ => True) := by
  unfold Dec.dec; split
  · exact Sp.ok trivial
  · exact Sp.bind (subW_tot ..) fun _ _ => Sp.pure trivial

theorem dec_sub_tot (w rx a b : Nat) (c : Bool) : Tot (Dec.subCarry false w rx a b c) (fun _ => True) := by
  unfold Dec.subCarry
  refine Sp.bind (addW_tot ..) fun _ _ => ?_
  split
  · exact Sp.bind (subW_tot ..) fun _ _ => Sp.bind (addW_tot ..) fun _ _ => Sp.pure trivial
  · exact Sp.bind (subW_tot ..) fun _ _ => Sp.pure trivial

theorem dec_mul_tot (w : Nat) {rx : Nat} (h : rx ≠ 0) (a f c : Nat) :
    Tot (Dec.mulCarry false w rx a f c) (fun _ => True) := by
  unfold Dec.mulCarry
  exact Sp.bind (mulW_tot ..) fun _ _ => Sp.bind (addW_tot ..) fun _ _ => Sp.bind (remW_tot _ h) fun _ _ =>
    Sp.bind (divW_tot _ h) fun _ _ => Sp.pure trivial

theorem dec_div_tot (w rx a : Nat) {f : Nat} (h : f ≠ 0) (c : Nat) :
    Tot (Dec.divCarry false w rx a f c) (fun _ => True) := by
  unfold Dec.divCarry
  exact Sp.bind (mulW_tot ..) fun _ _ => Sp.bind (addW_tot ..) fun _ _ => Sp.bind (divW_tot _ h) fun _ _ =>
    Sp.bind (remW_tot _ h) fun _ _ => Sp.pure trivial

theorem dec_div_zero (w rx a c : Nat) : Dec.divCarry false w rx a 0 c = .error .divZero := by
  unfold Dec.divCarry
  have h1 := mulW_tot (2 * w) c rx
  cases e : mulW false (2 * w) c rx with
  | error p => rw [e] at h1; exact h1.elim
  | ok x =>
    rw [ok_bind]
    have h2 := addW_tot (2 * w) x a
    cases e : addW false (2 * w) x a with
    | error p => rw [e] at h2; exact h2.elim
    | ok y => rw [ok_bind]; rfl

theorem dec_shr_tot (w rx a s c : Nat) : Tot (Dec.shrCarry false w rx a s c) (fun _ => True) := by
  unfold Dec.shrCarry
  exact Sp.bind (subW_tot ..) fun _ _ => Sp.bind (shlW_tot ..) fun _ _ => Sp.bind (subW_tot ..) fun _ _ =>
    Sp.bind (mulW_tot ..) fun _ _ => Sp.bind (addW_tot ..) fun _ _ => Sp.bind (shrW_tot ..) fun _ _ =>
    Sp.pure trivial

theorem dec_maxShift_tot (w rx a : Nat) : Tot (Dec.maxShift false w rx a) (fun _ => True) := by
  unfold Dec.maxShift
  refine Sp.bind (subW_tot ..) fun _ _ => Sp.bind (shlW_tot ..) fun _ _ => ?_
  split
  · exact Sp.pure trivial
  · exact subW_tot ..

theorem divRemBase_tot (n : Nat) : Tot (Dec64.divRemBase false n) (fun _ => True) := by
  unfold Dec64.divRemBase
  exact Sp.bind (shrW_tot ..) fun _ _ => Sp.bind (mulW_tot ..) fun _ _ => Sp.bind (shrW_tot ..) fun _ _ =>
    Sp.bind (mulW_tot ..) fun _ _ => Sp.bind (mulW_tot ..) fun _ _ => Sp.bind (addW_tot ..) fun _ _ =>
    Sp.bind (addW_tot ..) fun _ _ => Sp.bind (shrW_tot ..) fun _ _ => Sp.bind (mulW_tot ..) fun _ _ =>
    Sp.bind (addW_tot ..) fun _ _ => Sp.bind (addW_tot ..) fun _ _ => Sp.bind (shrW_tot ..) fun _ _ =>
    Sp.bind (addW_tot ..) fun _ _ => Sp.bind (mulW_tot ..) fun _ _ => Sp.bind (subW_tot ..) fun _ _ =>
    Sp.pure trivial

theorem dec64_mul_tot (a f c : Nat) : Tot (Dec64.mulCarry false a f c) (fun _ => True) := by
  unfold Dec64.mulCarry
  exact Sp.bind (mulW_tot ..) fun _ _ => Sp.bind (addW_tot ..) fun _ _ => Sp.bind (divRemBase_tot _) fun _ _ =>
    Sp.pure trivial

theorem dec_closed (w : Width) : Closed ((DType.dec w).ops false) (fun _ => True) := by
  cases w <;>
    exact ⟨trivial, fun a _ => dec_dec_tot .., fun a b c _ _ => dec_sub_tot ..,
      fun a f c _ _ _ => (by first | exact (dec64_mul_tot ..).mono fun _ _ => ⟨trivial, trivial⟩
                                   | exact (dec_mul_tot _ (by decide) ..).mono fun _ _ => ⟨trivial, trivial⟩),
      fun a f c _ _ _ h => (dec_div_tot _ _ _ h _).mono fun _ _ => ⟨trivial, trivial⟩⟩

theorem dec_shrTot (w : Width) (s : Nat) : ShrTot ((DType.dec w).ops false) (fun _ => True) s := by
  refine ⟨fun _ => True, trivial, fun a c _ _ => ?_⟩
  cases w <;> exact (dec_shr_tot ..).mono fun _ _ => ⟨trivial, trivial⟩

/-! ## Divisors whose scaled leading digit is zero -/

theorem foldDigitsRev_error {α : Type} {f : Nat → α → R (Nat × α)} {p : Panic} : ∀ (l : List Nat) (c : α),
    l ≠ [] → (∀ d, f d c = .error p) → foldDigitsRev f l c = .error p
  | [d], c, _, h => by
    show (do let (d', c') ← f d c; pure ([d'], c')) = _
    rw [h]; rfl
  | d :: e :: l, c, _, h => by
    rw [foldDigitsRev, foldDigitsRev_error (e :: l) c (by simp) h]
    rfl

theorem divPair_topZero (L : Lawful D B) (hz : ∀ a c, D.divCarry a 0 c = .error .divZero) {num : List Nat}
    {yl yh s : Nat} (hn : Digs B num) (hlen : 2 ≤ num.length) (hl : yl < B) (hh : yh < B) (hd0 : yh ≠ 0)
    (hs : D.maxShift yh = .ok s) (hs1 : yh * 2 ^ s < B) (h0 : (yl + B * yh) * 2 ^ s / B % B = 0) :
    divAssignDigitPair D num yl yh = .error .divZero := by
  have hsB : 2 ^ s < B := by
    have : 1 * 2 ^ s ≤ yh * 2 ^ s := Nat.mul_le_mul_right _ (by omega)
    omega
  have hB := L.pos
  have htop : (yl + B * yh) * 2 ^ s / B = (yh * 2 ^ s + (yl * 2 ^ s) / B) := by
    rw [show (yl + B * yh) * 2 ^ s = yl * 2 ^ s + B * (yh * 2 ^ s) by ring, Nat.add_mul_div_left _ _ hB]
    omega
  rw [htop] at h0
  have hs0 : 0 < s := by
    by_contra h
    have h' : s = 0 := by omega
    subst h'
    rw [pow_zero, Nat.mul_one, Nat.mul_one, Nat.div_eq_of_lt hl, Nat.add_zero, Nat.mod_eq_of_lt hh] at h0
    exact hd0 h0
  unfold divAssignDigitPair
  rw [if_neg hd0]
  match num, hn, hlen with
  | a :: b :: l, hn, hlen =>
    simp only []
    generalize hg : a :: b :: l = num at hn hlen ⊢
    rw [hs, ok_bind, if_pos hs0]
    have hc : yl * 2 ^ s / B < 2 ^ s := by
      rw [Nat.div_lt_iff_lt_mul hB, mul_comm (2 ^ s)]
      exact Nat.mul_lt_mul_of_pos_right hl (Nat.two_pow_pos s)
    rw [L.shlCarry yl s 0 hl hs0 hsB (Nat.two_pow_pos s), ok_bind]
    simp only [Nat.add_zero]
    rw [L.shlCarry yh s _ hh hs0 hsB hc, ok_bind]
    obtain ⟨r, c', e1, e2, e3, e4, -⟩ := shlWithin_spec L num s 0 hn hsB (Nat.two_pow_pos s)
    simp only []
    rw [e1, ok_bind, h0]
    simp only [pure_bind]
    rw [getR_ok (by omega), ok_bind, setR_ok (by omega), ok_bind]
    unfold onSlice
    rw [slice_ok (by omega) (by simp; omega), ok_bind]
    beta_reduce
    rw [foldDigitsRev_error (p := .divZero) _ _ (by
        intro h
        have := congrArg List.length h
        rw [List.length_drop, List.length_take, List.length_set, List.length_nil] at this
        omega)
      (fun d => by unfold divPairStep; simp only []; rw [hz]; rfl)]
    rfl

theorem divBigLong_topZero (L : Lawful D B) (hz : ∀ a c, D.divCarry a 0 c = .error .divZero)
    (hms : Tot (D.maxShift 0) (fun _ => True))
    {num v v' quot work : List Nat} {d s c : Nat} (hn : Digs B num) (hd0 : d ≠ 0)
    (hs : D.maxShift d = .ok s) (hs1 : d * 2 ^ s < B)
    (hv : shlWithin D (v ++ [d]) s 0 = .ok (v' ++ [0], c)) (hvl : v'.length = v.length)
    (hl : v.length + 1 ≤ num.length) (hl3 : v.length + 2 ≤ work.length) :
    divBigLong D false num (v ++ [d]) quot work = .error .divZero := by
  have hlen : (v ++ [d]).length = v.length + 1 := by simp
  have hg : getR (v ++ [d]) (v.length + 1 - 1) = .ok d := by rw [getR_ok (by simp)]; simp
  have hdebug : ∀ c : Bool, debugAssertR false c = .ok () := fun c => by simp [debugAssertR]
  have hsB : 2 ^ s < B := by
    have : 1 * 2 ^ s ≤ d * 2 ^ s := Nat.mul_le_mul_right _ (by omega)
    omega
  unfold divBigLong
  simp only [hlen]
  rw [hdebug, ok_bind, hdebug, ok_bind, slice_ok (by omega) le_rfl, ok_bind, hdebug, ok_bind, hdebug,
    ok_bind, hg, ok_bind, hs, ok_bind]
  split
  · rename_i h
    subst h
    exfalso
    have : v ++ [d] = v' ++ [0] := by
      unfold shlWithin at hv
      rw [if_pos rfl] at hv
      injection hv with hv
      exact congrArg Prod.fst hv
    have := congrArg List.getLast? this
    simp at this
    exact hd0 this
  · rw [hv, ok_bind]
    obtain ⟨r, c', e1, e2, e3, e4, -⟩ := shlWithin_spec L num s 0 hn hsB (Nat.two_pow_pos s)
    rw [e1, ok_bind]
    simp only []
    have hlen' : (v' ++ [0]).length = v.length + 1 := by simp [hvl]
    have hg' : getR (v' ++ [0]) (v.length + 1 - 1) = .ok 0 := by
      rw [getR_ok (by simp; omega)]; simp [← hvl]
    unfold divBigLongScaled
    simp only [hlen']
    rw [hg', ok_bind]
    cases e : D.maxShift 0 with
    | error p => rw [e] at hms; exact hms.elim
    | ok k =>
      rw [ok_bind, hdebug, ok_bind, splitAtR_ok (by omega), ok_bind]
      unfold longFirst
      simp only []
      rw [getR_ok (by omega), ok_bind, hz]
      rfl

theorem divBigLong_assert (L : Lawful D B) {num v v' quot work : List Nat} {d f s c : Nat} (hn : Digs B num)
    (hd0 : d ≠ 0) (hs : D.maxShift d = .ok s) (hs1 : d * 2 ^ s < B) (hs2 : B ≤ d * 2 ^ (s + 1))
    (hv : shlWithin D (v ++ [d]) s 0 = .ok (v' ++ [f], c)) (hvl : v'.length = v.length)
    (hf : ∃ k, D.maxShift f = .ok k ∧ k ≠ 0)
    (h2 : 2 < v.length + 1) (hl : v.length + 1 ≤ num.length)
    (hl2 : num.length - (v.length + 1) < quot.length) (hl3 : v.length + 2 ≤ work.length) :
    divBigLong D true num (v ++ [d]) quot work = .error .debugAssert := by
  have hlen : (v ++ [d]).length = v.length + 1 := by simp
  have hg : getR (v ++ [d]) (v.length + 1 - 1) = .ok d := by rw [getR_ok (by simp)]; simp
  have hdebug : ∀ {c : Bool}, c = true → debugAssertR true c = .ok () := by
    intro c h; simp [debugAssertR, h]
  have hsB : 2 ^ s < B := by
    have : 1 * 2 ^ s ≤ d * 2 ^ s := Nat.mul_le_mul_right _ (by omega)
    omega
  obtain ⟨k, hk, hk0⟩ := hf
  unfold divBigLong
  simp only [hlen]
  rw [hdebug (decide_eq_true h2), ok_bind, hdebug (decide_eq_true hl), ok_bind,
    slice_ok (by omega) le_rfl, ok_bind, hdebug (by simp; left; omega), ok_bind,
    hdebug (decide_eq_true (by unfold divLongWorkSize; omega)), ok_bind, hg, ok_bind, hs, ok_bind]
  have hlen' : (v' ++ [f]).length = v.length + 1 := by simp [hvl]
  have hg' : getR (v' ++ [f]) (v.length + 1 - 1) = .ok f := by
    rw [getR_ok (by simp; omega)]; simp [← hvl]
  have hscaled : ∀ n c, divBigLongScaled D true n c (v' ++ [f]) quot work = .error .debugAssert := by
    intro n c
    unfold divBigLongScaled
    simp only [hlen']
    rw [hg', ok_bind, hk, ok_bind]
    have : debugAssertR true (decide (k = 0)) = .error .debugAssert := by simp [debugAssertR, hk0]
    rw [this]
    rfl
  split
  · rename_i h
    subst h
    have : v ++ [d] = v' ++ [f] := by
      unfold shlWithin at hv
      rw [if_pos rfl] at hv
      injection hv with hv
      exact congrArg Prod.fst hv
    rw [this]
    exact hscaled _ _
  · rw [hv, ok_bind]
    obtain ⟨r, c', e1, e2, e3, e4, -⟩ := shlWithin_spec L num s 0 hn hsB (Nat.two_pow_pos s)
    rw [e1, ok_bind, hscaled]
    rfl

theorem divBig_topZero (L : Lawful D B) (hz : ∀ a c, D.divCarry a 0 c = .error .divZero)
    (hms : Tot (D.maxShift 0) (fun _ => True)) {num den : List Nat} {d s : Nat}
    (hn : Digs B num) (hd : Digs B den) (cd : Canon den) (cn : Canon num) (hle : val B den ≤ val B num)
    (h2 : 2 ≤ den.length) (h20 : den.length < 20)
    (hd1 : den.getLast? = some d) (hs1 : d * 2 ^ s < B) (hs2 : B ≤ d * 2 ^ (s + 1)) (h0 : topOf B den s = 0) :
    divBig D false num den (List.replicate (num.length - den.length + 1) 0) = .error .divZero := by
  have hB := L.pos
  have hne : den ≠ [] := by rintro rfl; simp at h2
  have hlen : den.length ≤ num.length := cd.length_le hB hn hle
  obtain ⟨v, d', rfl⟩ : ∃ v d, den = v ++ [d] :=
    ⟨den.dropLast, den.getLast hne, (List.dropLast_concat_getLast _).symm⟩
  have : d' = d := by simpa using hd1
  subst this
  have hd0 : d' ≠ 0 := canon_snoc.mp cd
  have hdB : d' < B := hd _ (by simp)
  have hs : D.maxShift d' = .ok s := by
    obtain ⟨s', k1, k2, k3⟩ := L.maxShift d' (by omega) hdB
    rw [k1, shift_unique k2 k3 hs1 hs2]
  have hsB : 2 ^ s < B := by
    have : 1 * 2 ^ s ≤ d' * 2 ^ s := Nat.mul_le_mul_right _ (by omega)
    omega
  unfold divBig divBigWithWork divBigWithWorkGen
  simp only []
  have hlt : ltBig num (v ++ [d']) = false := by
    rw [ltBig_dec (ltBig_canon hB hn hd cn cd)]
    simp; omega
  rw [if_neg hne, hlt, if_neg (by simp), if_neg (by simp)]
  simp only [pure_bind, Bool.false_eq_true, if_false, Bool.or_false]
  simp only [List.length_append, List.length_singleton] at h2 h20 hlen ⊢
  rw [if_neg (by omega)]
  split
  · rename_i hl
    obtain ⟨yl, rfl⟩ : ∃ yl, v = [yl] := List.length_eq_one_iff.mp (by omega)
    have hg0 : getR ([yl] ++ [d']) 0 = .ok yl := rfl
    have hg1 : getR ([yl] ++ [d']) 1 = .ok d' := rfl
    rw [hg0, ok_bind, hg1, ok_bind]
    have h0' : (yl + B * d') * 2 ^ s / B % B = 0 := by simpa [topOf, val] using h0
    rw [divPair_topZero L hz hn (by simpa using hlen) (hd _ (by simp)) hdB hd0 hs hs1 h0']
    rfl
  · rename_i hl
    obtain ⟨r, c, e1, e2, e3, e4, e5⟩ := shlWithin_spec L (v ++ [d']) s 0 hd hsB (Nat.two_pow_pos s)
    obtain ⟨v', f, rfl⟩ : ∃ v' f, r = v' ++ [f] :=
      ⟨r.dropLast, r.getLast (by intro h; simp [h] at e2),
        (List.dropLast_concat_getLast _).symm⟩
    have e2' : v'.length = v.length := by simpa using e2
    have htop : topOf B (v ++ [d']) s = f := topOf_shl hB e2' e3 e5
    rw [h0] at htop
    subst htop
    rw [if_pos (show v.length + 1 < bzCutoff from h20), if_neg (by simp; omega),
      if_pos (show v.length + 1 < bzCutoff from h20)]
    have ha : ∀ c : Bool, debugAssertR false c = .ok () := fun c => by simp [debugAssertR]
    rw [ha, ok_bind, divBigLong_topZero L hz hms hn hd0 hs hs1 e1 e2' (by omega)
      (by simp [bzCutoff]; omega)]
    rfl

theorem divBig_assert (L : Lawful D B) {num den : List Nat} {d s : Nat}
    (hn : Digs B num) (hd : Digs B den) (cd : Canon den) (cn : Canon num) (hle : val B den ≤ val B num)
    (h2 : 3 ≤ den.length) (h20 : den.length < 20)
    (hd1 : den.getLast? = some d) (hs1 : d * 2 ^ s < B) (hs2 : B ≤ d * 2 ^ (s + 1))
    (h0 : ∃ k, D.maxShift (topOf B den s) = .ok k ∧ k ≠ 0) :
    divBig D true num den (List.replicate (num.length - den.length + 1) 0) = .error .debugAssert := by
  have hB := L.pos
  have hne : den ≠ [] := by rintro rfl; simp at h2
  have hlen : den.length ≤ num.length := cd.length_le hB hn hle
  obtain ⟨v, d', rfl⟩ : ∃ v d, den = v ++ [d] :=
    ⟨den.dropLast, den.getLast hne, (List.dropLast_concat_getLast _).symm⟩
  have : d' = d := by simpa using hd1
  subst this
  have hd0 : d' ≠ 0 := canon_snoc.mp cd
  have hdB : d' < B := hd _ (by simp)
  have hs : D.maxShift d' = .ok s := by
    obtain ⟨s', k1, k2, k3⟩ := L.maxShift d' (by omega) hdB
    rw [k1, shift_unique k2 k3 hs1 hs2]
  have hsB : 2 ^ s < B := by
    have : 1 * 2 ^ s ≤ d' * 2 ^ s := Nat.mul_le_mul_right _ (by omega)
    omega
  unfold divBig divBigWithWork divBigWithWorkGen
  simp only []
  have hlt : ltBig num (v ++ [d']) = false := by
    rw [ltBig_dec (ltBig_canon hB hn hd cn cd)]
    simp; omega
  rw [if_neg hne, hlt, if_neg (by simp), if_neg (by simp)]
  simp only [pure_bind, Bool.false_eq_true, if_false, Bool.or_false]
  simp only [List.length_append, List.length_singleton] at h2 h20 hlen ⊢
  rw [if_neg (by omega), if_neg (by omega)]
  obtain ⟨r, c, e1, e2, e3, e4, e5⟩ := shlWithin_spec L (v ++ [d']) s 0 hd hsB (Nat.two_pow_pos s)
  obtain ⟨v', f, rfl⟩ : ∃ v' f, r = v' ++ [f] :=
    ⟨r.dropLast, r.getLast (by intro h; simp [h] at e2),
      (List.dropLast_concat_getLast _).symm⟩
  have e2' : v'.length = v.length := by simpa using e2
  have htop : topOf B (v ++ [d']) s = f := topOf_shl hB e2' e3 e5
  rw [htop] at h0
  rw [if_pos (show v.length + 1 < bzCutoff from h20), if_neg (by simp; omega),
    if_pos (show v.length + 1 < bzCutoff from h20)]
  have ha : debugAssertR true (decide (divLongWorkSize (v.length + 1) ≤ (List.replicate bzCutoff 0).length)) =
      .ok () := by
    rw [decide_eq_true (by simp [divLongWorkSize, bzCutoff]; omega)]; simp [debugAssertR]
  rw [ha, ok_bind, divBigLong_assert L hn hd0 hs hs1 hs2 e1 e2' h0 (by omega) (by omega) (by simp)
    (by simp [bzCutoff]; omega)]
  rfl

end Babs
