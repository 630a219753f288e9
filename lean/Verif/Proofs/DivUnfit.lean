import Verif.Proofs.DivTie
import Verif.Proofs.DivLengths
import Verif.Proofs.DivBig

/-!
# Helper lemmas: divisors that are lost when they are scaled

If scaling a divisor gives exactly a power of the radix, the carry out of the top digit is lost and the
division goes on with a divisor whose digits are all zero.
-/

namespace Babs

variable {D : DigitOps} {B : Nat} {dbg : Bool}

/-- A divisor with top digit `d`, which becomes `B ^ length` when it is scaled by `2 ^ s`. -/
structure Vanish (B : Nat) (y : List Nat) (d s : Nat) : Prop where
  last : y.getLast? = some d
  digs : Digs B y
  pos : 0 < d
  spos : 0 < s
  pow : 2 ^ s < B
  lo : d * 2 ^ s < B
  hi : B ≤ d * 2 ^ (s + 1)
  eq : val B y * 2 ^ s = B ^ y.length

theorem shift_unique {d s s' : Nat} (h1 : d * 2 ^ s < B) (h2 : B ≤ d * 2 ^ (s + 1))
    (h3 : d * 2 ^ s' < B) (h4 : B ≤ d * 2 ^ (s' + 1)) : s = s' := by
  have h5 := (Nat.pow_lt_pow_iff_right (by omega : 1 < 2)).mp
    (Nat.lt_of_mul_lt_mul_left (lt_of_lt_of_le h1 h4))
  have h6 := (Nat.pow_lt_pow_iff_right (by omega : 1 < 2)).mp
    (Nat.lt_of_mul_lt_mul_left (lt_of_lt_of_le h3 h2))
  omega

theorem Vanish.maxShift (L : Lawful D B) {y : List Nat} {d s : Nat} (V : Vanish B y d s) :
    D.maxShift d = .ok s := by
  have hd : d < B := V.digs d (List.mem_of_getLast? V.last)
  obtain ⟨s', h1, h2, h3⟩ := L.maxShift d V.pos hd
  rw [h1, shift_unique h2 h3 V.lo V.hi]

theorem zeros_of_val {l : List Nat} (hB : 0 < B) (h : val B l = 0) : l = List.replicate l.length 0 := by
  induction l with
  | nil => rfl
  | cons a l ih =>
    rw [val_cons] at h
    have h1 : a = 0 := by omega
    have h2 : B * val B l = 0 := by omega
    have h3 : val B l = 0 := by
      rcases Nat.mul_eq_zero.mp h2 with h | h
      · omega
      · exact h
    rw [h1, List.length_cons, List.replicate_succ, ← ih h3]

/-- The scaled divisor has only zeros. -/
theorem Vanish.shl (L : Lawful D B) {y : List Nat} {d s : Nat} (V : Vanish B y d s) (p : Nat) :
    ∃ c, shlWithin D (List.replicate p 0 ++ y) s 0 = .ok (List.replicate (p + y.length) 0, c) := by
  have hB0 := L.pos
  obtain ⟨r, c, h1, h2, h3, h4, h5⟩ := shlWithin_spec L (List.replicate p 0 ++ y) s 0
    (by rw [digs_append]; exact ⟨digs_replicate hB0, V.digs⟩) V.pow (by positivity)
  have hl : (List.replicate p 0 ++ y).length = p + y.length := by simp
  rw [hl] at h2 h5
  have h6 := val_lt h3
  rw [h2] at h6
  have h7 : val B (List.replicate p 0 ++ y) * 2 ^ s = B ^ (p + y.length) := by
    rw [val_append, val_replicate_zero, List.length_replicate, Nat.zero_add, Nat.mul_assoc, V.eq, pow_add]
  rw [h7, Nat.add_zero] at h5
  have h8 := split_unique (B := B) (m := p + y.length) (a := val B r) (a' := 0) (t := c) (t' := 1) h6
    (pow_pos hB0 _) (by omega)
  refine ⟨c, ?_⟩
  rw [h1, zeros_of_val hB0 h8.1, h2]

theorem sp_false_error {α : Type} {x : R α} (h : Sp (fun _ => True) x (fun _ => False)) :
    ∃ p, x = .error p := by
  cases x with
  | error p => exact ⟨p, rfl⟩
  | ok v => exact h.elim

/-! ## Divisors of two digits -/

theorem foldDigitsRev_snoc_error {C : Type} {f : Nat → C → R (Nat × C)}
    (hf : ∀ a c, Sp (fun _ => True) (f a c) (fun _ => False)) (l : List Nat) (h : l ≠ []) (c : C) :
    Sp (fun _ => True) (foldDigitsRev f l c) (fun _ => False) := by
  induction l generalizing c with
  | nil => exact absurd rfl h
  | cons d ds ih =>
    rw [foldDigitsRev]
    by_cases hd : ds = []
    · subst hd
      refine Sp.bind sp_true fun _ _ => ?_
      exact Sp.bind (hf _ _) fun _ h => h.elim
    · exact Sp.bind (ih hd c) fun _ h => h.elim

theorem divPair_vanish (L : Lawful D B) (hz : ∀ a c, Sp (fun _ => True) (D.divCarry a 0 c) (fun _ => False))
    {yl yh s : Nat} (V : Vanish B [yl, yh] yh s) {num : List Nat} (hnum : Digs B num) (hl : 2 ≤ num.length) :
    Sp (fun _ => True) (divAssignDigitPair D num yl yh) (fun _ => False) := by
  have hB0 := L.pos
  have hd := V.digs
  simp only [digs_cons, digs_nil, and_true] at hd
  have hyh := V.pos
  unfold divAssignDigitPair
  rw [if_neg (by omega)]
  split
  · simp at hl
  · simp at hl
  · simp only []
    rw [V.maxShift L, ok_bind]
    simp only [V.spos, if_true, bind_assoc]
    obtain ⟨c, hc⟩ := V.shl L 0
    have hs0 : s ≠ 0 := by have := V.spos; omega
    simp only [List.replicate_zero, List.nil_append, shlWithin, hs0, if_false, foldDigits] at hc
    have h1 := L.shlCarry yl s 0 hd.1 V.spos V.pow (by positivity)
    have hc2 : (yl * 2 ^ s + 0) / B < 2 ^ s := by
      rw [Nat.div_lt_iff_lt_mul hB0, Nat.add_zero, Nat.mul_comm]
      exact Nat.mul_lt_mul_of_pos_left hd.1 (by positivity)
    have h2 := L.shlCarry yh s ((yl * 2 ^ s + 0) / B) hd.2 V.spos V.pow hc2
    rw [h1, ok_bind, h2, ok_bind] at hc
    simp only [ok_bind, pure_eq_ok, Except.ok.injEq, Prod.mk.injEq, List.length_cons, List.length_nil,
      List.replicate_succ, List.cons.injEq] at hc
    rw [h1, ok_bind]
    simp only []
    rw [h2, ok_bind]
    simp only [pure_bind]
    rw [hc.1.2.1]
    obtain ⟨r, c', e1, e2, -⟩ := shlWithin_spec L num s 0 hnum V.pow (by positivity)
    rw [e1, ok_bind]
    refine Sp.bind sp_true fun _ _ => ?_
    refine Sp.bind setR_any ?_
    rintro _ rfl
    have hsp : (r.set (num.length - 1) 0)
        = [] ++ (r.set (num.length - 1) 0).take (num.length - 1)
          ++ (r.set (num.length - 1) 0).drop (num.length - 1) := by
      rw [List.nil_append, List.take_append_drop]
    rw [hsp, onSlice_append (a := 0) rfl (by simp; omega), bind_assoc]
    refine Sp.bind (foldDigitsRev_snoc_error ?_ _ ?_ _) fun _ h => h.elim
    · rintro a ⟨x, y⟩
      unfold divPairStep
      exact Sp.bind (hz _ _) fun _ h => h.elim
    · intro h
      have := congrArg List.length h
      simp only [List.length_take, List.length_set, List.length_nil] at this
      omega

/-! ## Schoolbook division -/

theorem divBigLong_vanish (L : Lawful D B)
    (hz : ∀ a c, Sp (fun _ => True) (D.divCarry a 0 c) (fun _ => False))
    {y : List Nat} {d s : Nat} (V : Vanish B y d s) {num quot work : List Nat} (hnum : Digs B num)
    (hy : 0 < y.length) :
    Sp (fun _ => True) (divBigLong D dbg num y quot work) (fun _ => False) := by
  unfold divBigLong
  simp only []
  refine Sp.bind sp_true fun _ _ => ?_
  refine Sp.bind sp_true fun _ _ => ?_
  refine Sp.bind sp_true fun _ _ => ?_
  refine Sp.bind sp_true fun _ _ => ?_
  refine Sp.bind sp_true fun _ _ => ?_
  have hg : getR y (y.length - 1) = .ok d := by
    rw [getR_ok (by omega)]
    have := V.last
    rw [List.getLast?_eq_getElem?, List.getElem?_eq_getElem (by omega)] at this
    exact congrArg _ (Option.some.inj this)
  have hs0 : s ≠ 0 := by have := V.spos; omega
  obtain ⟨c, hc⟩ := V.shl L 0
  simp only [List.replicate_zero, List.nil_append, Nat.zero_add] at hc
  obtain ⟨r, c', e1, e2, -⟩ := shlWithin_spec L num s 0 hnum V.pow (by positivity)
  rw [hg, ok_bind, V.maxShift L, ok_bind, if_neg hs0, hc, ok_bind]
  simp only []
  rw [e1, ok_bind]
  simp only []
  refine Sp.bind (P := fun _ => False) ?_ fun _ h => h.elim
  unfold divBigLongScaled
  simp only [List.length_replicate]
  have hg0 : getR (List.replicate y.length 0) (y.length - 1) = .ok 0 := by
    rw [getR_ok (by simp; omega)]; simp
  rw [hg0, ok_bind]
  refine Sp.bind sp_true fun _ _ => ?_
  refine Sp.bind sp_true fun _ _ => ?_
  refine Sp.bind sp_true ?_
  rintro ⟨a, b⟩ -
  refine Sp.bind (P := fun _ => False) ?_ fun _ h => h.elim
  unfold longFirst
  simp only []
  refine Sp.bind sp_true fun _ _ => ?_
  exact Sp.bind (hz _ _) fun _ h => h.elim

/-! ## Burnikel-Ziegler division -/

theorem ltBig_zeros_false (l : List Nat) (k : Nat) (h : l.length = k) :
    ltBig l (List.replicate k 0) = false := by
  have hd : Digs (l.sum + 1) l := by
    intro a ha
    have : a ≤ l.sum := by
      clear h
      induction l with
      | nil => simp at ha
      | cons b l ih =>
        rw [List.sum_cons]
        rcases List.mem_cons.mp ha with h | h
        · omega
        · have := ih h
          omega
    omega
  have := ltBig_same_length (B := l.sum + 1) hd (ys := List.replicate k 0) (digs_replicate (by omega))
    (by simpa using h)
  rw [ltBig_dec this]
  simp

theorem slice_any (l : List Nat) (a b : Nat) :
    Sp (fun _ => True) (slice l a b) (fun r => r.length = b - a ∧ b ≤ l.length) := by
  unfold slice
  split
  · refine Sp.ok ⟨?_, by omega⟩
    simp; omega
  · trivial

/-- With a zero divisor the quotient digits are all set to the largest digit. -/
theorem divBz3n2n_zero (L : Lawful D B) {h : Nat} {div2n : DivFn} {num quot work : List Nat}
    (hnum : num.length = 3 * h) (hq : quot.length = h) :
    Sp (fun _ => True) (divBz3n2n D dbg div2n num (List.replicate (2 * h) 0) quot work)
      (fun r => r.2.1 = List.replicate h (B - 1)) := by
  unfold divBz3n2n
  simp only [List.length_replicate, show 2 * h / 2 = h by omega]
  refine Sp.bind sp_true fun _ _ => ?_
  refine Sp.bind sp_true fun _ _ => ?_
  refine Sp.bind sp_true fun _ _ => ?_
  refine Sp.bind sp_true fun _ _ => ?_
  refine Sp.bind sp_true fun _ _ => ?_
  refine Sp.bind sp_true fun _ _ => ?_
  refine Sp.bind sp_true fun _ _ => ?_
  have hs : List.replicate (2 * h) 0 = List.replicate h 0 ++ List.replicate h (0 : Nat) := by
    rw [List.replicate_append_replicate]; congr 1; omega
  rw [hs, splitAtR_append (by simp), ok_bind]
  simp only []
  rw [splitAtR_ok (by omega), ok_bind]
  simp only []
  rw [slice_ok (by simp; omega) (le_refl _), List.take_length, ok_bind,
    ltBig_zeros_false _ h (by simp; omega)]
  simp only [Bool.false_eq_true, if_false]
  refine Sp.bind (P := fun r => r.2.1 = List.replicate h (B - 1)) ?_ ?_
  · refine Sp.bind sp_true ?_
    rintro ⟨a, b⟩ -
    refine Sp.bind sp_true ?_
    rintro ⟨a', b'⟩ -
    refine Sp.bind sp_true fun _ _ => ?_
    refine Sp.pure ?_
    simp only [fillWith, hq, L.max]
  · rintro ⟨a12', quot', work', nq⟩ hq'
    simp only at hq' ⊢
    subst hq'
    obtain ⟨nd, d1, d2, d3, d4⟩ := dropLeadingZeros_spec (List.replicate h 0)
      (List.replicate h 0 : List Nat).length (le_refl _)
    have hnil : (List.replicate h 0 : List Nat).take nd = [] := by
      by_contra hc
      have := d4.pos (b := B) L.pos hc
      rw [List.take_replicate] at this
      simp at this
    rw [d1, ok_bind]
    rw [List.length_replicate] at d2
    refine Sp.bind sp_true ?_
    rintro ⟨qden, mulWork⟩ -
    simp only []
    refine Sp.bind sp_true fun sl _ => ?_
    rw [slice_ok (Nat.zero_le _) (by simpa using d2), ok_bind, List.drop_zero, hnil]
    simp only [mulFuel, mulBigIntoWithWork, or_true, if_true, pure_bind]
    refine Sp.bind sp_true fun _ _ => ?_
    rw [slice_ok (Nat.zero_le _) (Nat.zero_le _), ok_bind]
    simp only [List.take_zero, List.drop_nil]
    refine Sp.bind (P := fun r => r.2.1 = List.replicate h (B - 1)) ?_ ?_
    · unfold bzCorrect
      refine Sp.bind sp_true fun _ _ => ?_
      refine Sp.bind sp_true fun s _ => ?_
      have : ltBig s [] = false := by
        cases s <;> rfl
      rw [this]
      exact Sp.pure rfl
    · rintro ⟨a, b, c⟩ hb
      simp only at hb
      subst hb
      refine Sp.bind sp_true fun _ _ => ?_
      refine Sp.bind sp_true fun _ _ => ?_
      exact Sp.pure rfl

theorem divBz2n1n_zero (L : Lawful D B) {h fuel : Nat} {leaf : DivResFn} {num quot work : List Nat}
    (h10 : 10 ≤ h) (hnum : num.length = 4 * h) (hq : quot.length = 2 * h) :
    Sp (fun _ => True) (divBz2n1n D dbg leaf fuel num (List.replicate (2 * h) 0) quot work)
      (fun r => r.2.1 = List.replicate (2 * h) (B - 1)) := by
  cases fuel with
  | zero => trivial
  | succ fuel =>
    unfold divBz2n1n
    simp only [List.length_replicate]
    refine Sp.bind sp_true fun _ _ => ?_
    refine Sp.bind sp_true fun _ _ => ?_
    refine Sp.bind sp_true fun _ _ => ?_
    refine Sp.bind sp_true fun _ _ => ?_
    refine Sp.bind sp_true fun _ _ => ?_
    refine Sp.bind sp_true fun _ _ => ?_
    rw [if_neg (by unfold bzCutoff; omega)]
    simp only [show 2 * h / 2 = h by omega]
    refine Sp.bind (slice_any _ _ _) fun s1 h1 => ?_
    refine Sp.bind (slice_any _ _ _) fun s2 h2 => ?_
    refine Sp.bind (divBz3n2n_zero L (h := h) (by omega) (by omega)) ?_
    rintro ⟨a, qh, b, c, d⟩ hqh
    simp only at hqh ⊢
    subst hqh
    refine Sp.bind (slice_any _ _ _) fun s3 h3 => ?_
    refine Sp.bind (slice_any _ _ _) fun s4 h4 => ?_
    refine Sp.bind (divBz3n2n_zero L (h := h) (by omega) (by omega)) ?_
    rintro ⟨a', ql, b', c', d'⟩ hql
    simp only at hql ⊢
    subst hql
    refine Sp.bind sp_true fun _ _ => ?_
    refine Sp.bind sp_true fun _ _ => ?_
    refine Sp.pure ?_
    simp only []
    rw [List.drop_left' (by simp; omega), List.replicate_append_replicate]
    congr 1; omega

theorem bzBlocks_zero (L : Lawful D B) {h fuel : Nat} {leaf : DivResFn} (h10 : 10 ≤ h) (i : Nat) :
    ∀ (snum ql work : List Nat) (R : Nat), ql.length = i * (2 * h) →
    Sp (fun _ => True) (bzBlocks (divBz2n1n D dbg leaf fuel) (List.replicate (2 * h) 0) (2 * h) i snum
        (ql ++ List.replicate R (B - 1)) work)
      (fun r => r.2.1 = List.replicate (i * (2 * h) + R) (B - 1)) := by
  induction i with
  | zero =>
    intro snum ql work R hql
    have : ql = [] := List.eq_nil_of_length_eq_zero (by omega)
    subst this
    exact Sp.ok (by simp)
  | succ i ih =>
    intro snum ql work R hql
    have e1 : (i + 1) * (2 * h) = i * (2 * h) + 2 * h := by ring
    have e2 : (i + 2) * (2 * h) = i * (2 * h) + 4 * h := by ring
    rw [bzBlocks]
    rw [e1] at hql
    rw [e1, e2]
    refine Sp.bind (slice_any _ _ _) fun s1 h1 => ?_
    refine Sp.bind (slice_any _ _ _) fun s2 h2 => ?_
    refine Sp.bind (divBz2n1n_zero L h10 (by omega) (by omega)) ?_
    rintro ⟨a, qs, b, c, d⟩ hqs
    simp only at hqs ⊢
    subst hqs
    rw [List.drop_left' hql, List.append_assoc (List.take (i * (2 * h)) (ql ++ _)),
      List.replicate_append_replicate]
    refine (ih _ _ _ _ ?_).mono ?_
    · simp; omega
    · intro r hr
      rw [hr]; congr 1; omega

/-- The quotient by a vanishing divisor: all its digits are the largest digit. -/
theorem divBigBz_vanish (L : Lawful D B) {num y quot work : List Nat} {d s : Nat} (V : Vanish B y d s)
    (h20 : 20 ≤ y.length) :
    Sp (fun _ => True) (divBigBz D dbg (divBigLeaf D dbg) num y quot work)
      (fun r => ∃ k, num.length - y.length < k ∧ r.2.1.take r.2.2.2.1 = List.replicate k (B - 1)) := by
  have hB0 := L.pos
  have hBb := L.base
  obtain ⟨⟨n0, e, h10, hn20, hbl⟩, bz2⟩ := blockSize_spec h20
  unfold divBigBz
  simp only []
  refine Sp.bind sp_true fun _ _ => ?_
  refine Sp.bind sp_true fun _ _ => ?_
  refine Sp.bind sp_true fun _ _ => ?_
  refine Sp.bind sp_true fun _ _ => ?_
  obtain ⟨n, hn⟩ : ∃ n, blockSize y.length = n := ⟨_, rfl⟩
  rw [hn] at bz2 hbl ⊢
  obtain ⟨h, hh, hh10⟩ : ∃ h, n = 2 * h ∧ 10 ≤ h := by
    cases e with
    | zero => simp at hbl; omega
    | succ e => exact ⟨n0 * 2 ^ e, by rw [hbl, pow_succ]; ring,
        le_trans h10 (Nat.le_mul_of_pos_right _ (by positivity))⟩
  obtain ⟨p, hp⟩ : ∃ p, n - y.length = p := ⟨_, rfl⟩
  rw [hp]
  have hnp : n = p + y.length := by omega
  have hcp : copyInto (List.replicate n 0) p n y = .ok (List.replicate p 0 ++ y) := by
    have := copyInto_append (p := List.replicate p 0) (s := List.replicate y.length 0) (q := [])
      (src := y) (a := p) (b := n) (by simp) (by simp; omega) (by simp)
    rw [List.append_nil, List.append_nil, List.replicate_append_replicate, ← hnp] at this
    exact this
  rw [hcp, ok_bind]
  have hg : getR (List.replicate p 0 ++ y) (n - 1) = .ok d := by
    rw [getR_ok (by simp; omega)]
    have := V.last
    rw [List.getLast?_eq_getElem?, List.getElem?_eq_getElem (by omega)] at this
    rw [List.getElem_append_right (by simp; omega), ← Option.some.inj this]
    congr 2
    simp; omega
  obtain ⟨c, hc⟩ := V.shl L p
  rw [hg, ok_bind, V.maxShift L, ok_bind, hc, ok_bind, ← hnp]
  simp only []
  refine Sp.bind sp_true fun _ _ => ?_
  refine Sp.bind sp_true ?_
  rintro ⟨snum, x⟩ -
  simp only []
  have e1 : 2 + (num.length - y.length) / n - 1 = (num.length - y.length) / n + 1 := by
    generalize (num.length - y.length) / n = t
    omega
  rw [e1]
  have key := bzBlocks_zero (dbg := dbg) L (fuel := n + 1) (leaf := divBigLeaf D dbg) hh10
    ((num.length - y.length) / n + 1) snum
    (List.replicate (((num.length - y.length) / n + 1) * n) 0) work 0 (by simp [hh])
  rw [List.replicate_zero, List.append_nil, ← hh, Nat.add_zero] at key
  refine Sp.bind key ?_
  rintro ⟨sn, q, wk⟩ hq
  simp only [Nat.add_zero] at hq ⊢
  have hk : num.length - y.length < ((num.length - y.length) / n + 1) * n := by
    have h1 := Nat.div_add_mod (num.length - y.length) n
    have h2 := Nat.mod_lt (num.length - y.length) (show 0 < n by omega)
    rw [Nat.add_mul, Nat.mul_comm _ n]
    omega
  generalize ((num.length - y.length) / n + 1) * n = k at hq hk
  refine Sp.bind sp_true ?_
  rintro ⟨sn, nr, x⟩ -
  simp only []
  obtain ⟨nd, d1, d2, d3, d4⟩ := dropLeadingZeros_spec q q.length (le_refl _)
  have hnd : nd = k := by
    by_contra hne
    rw [List.take_length, hq, List.length_replicate, List.take_replicate] at d3
    rw [hq, List.length_replicate] at d2
    have hmem : (0 : Nat) ∈ List.replicate k (B - 1) := by
      rw [d3]
      simp; omega
    have := List.eq_of_mem_replicate hmem
    omega
  rw [d1, ok_bind, slice_ok (Nat.zero_le _) d2, ok_bind, List.drop_zero]
  refine Sp.bind (copyInto_any (by simp; omega)) ?_
  intro qq hqq
  refine Sp.bind sp_true fun _ _ => ?_
  refine Sp.bind sp_true fun _ _ => ?_
  refine Sp.pure ?_
  simp only []
  exact ⟨k, hk, by rw [hqq, hq, hnd, List.take_of_length_le (by simp)]⟩

/-! ## The operators -/

/-- Division by a vanishing divisor of fewer than 20 digits panics. -/
theorem divBig_vanish_short (L : Lawful D B)
    (hz : ∀ a c, Sp (fun _ => True) (D.divCarry a 0 c) (fun _ => False))
    {x y : List Nat} {m n d s : Nat} (hx : Rep B x m) (hy : Rep B y n) (V : Vanish B y d s)
    (h2 : 2 ≤ y.length) (h20 : y.length < 20) (hmn : n ≤ m) (quot : List Nat)
    (hq : x.length - y.length + 1 ≤ quot.length) :
    Sp (fun _ => True) (divBig D dbg x y quot) (fun _ => False) := by
  have hB0 := L.pos
  have hne : y ≠ [] := by rintro rfl; simp at h2
  have hlen : y.length ≤ x.length := hy.canon.length_le hB0 hx.digs (by rw [hx.val_eq, hy.val_eq]; exact hmn)
  unfold divBig divBigWithWork divBigWithWorkGen
  simp only []
  rw [if_neg hne, ltBig_dec (ltBig_canon hB0 hx.digs hy.digs hx.canon hy.canon), hx.val_eq, hy.val_eq,
    if_neg (by simp; omega), if_neg (by omega)]
  simp only [pure_bind, Bool.false_eq_true, if_false]
  rw [if_neg (by omega)]
  refine Sp.bind (P := fun _ => False) ?_ fun _ h => h.elim
  split
  · rename_i hl
    obtain ⟨yl, yh, rfl⟩ : ∃ yl yh, y = [yl, yh] := by
      match y, hl with
      | [a, b], _ => exact ⟨a, b, rfl⟩
    have hd : yh = d := by simpa using V.last
    subst hd
    have hg0 : getR [yl, yh] 0 = .ok yl := rfl
    have hg1 : getR [yl, yh] 1 = .ok yh := rfl
    rw [hg0, ok_bind, hg1, ok_bind]
    exact Sp.bind (divPair_vanish L hz V hx.digs (by simpa using hlen)) fun _ h => h.elim
  · rw [if_pos (show y.length < bzCutoff from h20)]
    refine Sp.bind sp_true fun _ _ => ?_
    exact Sp.bind (divBigLong_vanish L hz V hx.digs (by omega)) fun _ h => h.elim

/-- Division by a vanishing divisor of 20 digits or more, if it returns: all digits of the quotient are
the largest digit, and there are too many of them. -/
theorem divOp_vanish_long (L : Lawful D B)
    {x y : List Nat} {m n d s : Nat} (hx : Rep B x m) (hy : Rep B y n) (V : Vanish B y d s)
    (h20 : 20 ≤ y.length) (hmn : n ≤ m) :
    Sp (fun _ => True) (divOp D dbg x y)
      (fun r => ∃ k, x.length - y.length < k ∧ r = List.replicate k (B - 1)) := by
  have hB0 := L.pos
  have hne : y ≠ [] := by rintro rfl; simp at h20
  have hlen : y.length ≤ x.length := hy.canon.length_le hB0 hx.digs (by rw [hx.val_eq, hy.val_eq]; exact hmn)
  unfold divOp divAssignBig
  simp only []
  rw [if_neg (by omega), bind_assoc]
  unfold divBig divBigWithWork divBigWithWorkGen
  simp only []
  rw [if_neg hne, ltBig_dec (ltBig_canon hB0 hx.digs hy.digs hx.canon hy.canon), hx.val_eq, hy.val_eq,
    if_neg (by simp; omega)]
  simp only [List.length_replicate]
  rw [if_neg (by omega)]
  simp only [pure_bind, Bool.false_eq_true, if_false]
  rw [if_neg (by omega), if_neg (by omega), if_neg (by unfold bzCutoff; omega)]
  simp only [bind_assoc]
  refine Sp.bind sp_true fun _ _ => ?_
  refine Sp.bind (divBigBz_vanish (dbg := dbg) L V h20) ?_
  rintro ⟨num', quot', work', nq, nr⟩ h
  simp only [pure_bind, bind_assoc] at h ⊢
  exact Sp.bind sp_true fun _ _ => Sp.pure h

/-! ## The divisors -/

theorem dec_divCarry_zero (w : Width) (dbg : Bool) (a c : Nat) :
    Sp (fun _ => True) (((DType.dec w).ops dbg).divCarry a 0 c) (fun _ => False) := by
  have key : ∀ b rx, Sp (fun _ => True) (Dec.divCarry dbg b rx a 0 c) (fun _ => False) := by
    intro b rx
    unfold Dec.divCarry
    refine Sp.bind sp_true fun _ _ => ?_
    refine Sp.bind sp_true fun _ _ => ?_
    simp only [divW, if_true]
    trivial
  cases w <;> exact key _ _

/-- Vanishing divisors of every length. -/
theorem vanish_zeros {d l s : Nat} (hB : 2 ≤ B) (hl : l < B) (hd : 0 < d) (hs : 0 < s) (hp : 2 ^ s < B)
    (lo : d * 2 ^ s < B) (hi : B ≤ d * 2 ^ (s + 1)) (he : (l + B * d) * 2 ^ s = B * B) (i : Nat) :
    Vanish B (List.replicate i 0 ++ [l, d]) d s ∧
      Rep B (List.replicate i 0 ++ [l, d]) (val B (List.replicate i 0 ++ [l, d])) := by
  have hdB : d < B := lt_of_le_of_lt (Nat.le_mul_of_pos_right _ (by positivity)) lo
  have hdig : Digs B (List.replicate i 0 ++ [l, d]) := by
    simp [digs_replicate (show 0 < B by omega), hl, hdB]
  refine ⟨⟨by simp, hdig, hd, hs, hp, lo, hi, ?_⟩, ⟨hdig, ?_, rfl⟩⟩
  · rw [val_append, val_replicate_zero, List.length_append, List.length_replicate]
    simp only [val_cons, val_nil, List.length_cons, List.length_nil, Nat.mul_zero, Nat.add_zero,
      Nat.zero_add]
    rw [Nat.mul_assoc, he, pow_add]
    ring
  · rw [show List.replicate i 0 ++ [l, d] = (List.replicate i 0 ++ [l]) ++ [d] by simp]
    exact canon_snoc.mpr (by omega)

theorem dec_vanish (w : Width) (i : Nat) : ∃ d l s,
    Vanish (DType.dec w).radix (List.replicate i 0 ++ [l, d]) d s ∧
      Rep (DType.dec w).radix (List.replicate i 0 ++ [l, d])
        (val (DType.dec w).radix (List.replicate i 0 ++ [l, d])) := by
  cases w with
  | w8 => exact ⟨12, 50, 3, vanish_zeros (B := 100) (by norm_num) (by norm_num) (by norm_num)
      (by norm_num) (by norm_num) (by norm_num) (by norm_num) (by norm_num) i⟩
  | w16 => exact ⟨312, 5000, 5, vanish_zeros (B := 10000) (by norm_num) (by norm_num) (by norm_num)
      (by norm_num) (by norm_num) (by norm_num) (by norm_num) (by norm_num) i⟩
  | w32 => exact ⟨976562, 500000000, 10, vanish_zeros (B := 1000000000) (by norm_num) (by norm_num)
      (by norm_num) (by norm_num) (by norm_num) (by norm_num) (by norm_num) (by norm_num) i⟩
  | w64 => exact ⟨9536743164062, 5000000000000000000, 20,
      vanish_zeros (B := 10000000000000000000) (by norm_num) (by norm_num)
      (by norm_num) (by norm_num) (by norm_num) (by norm_num) (by norm_num) (by norm_num) i⟩

end Babs
