import Verif.Model.AddSub
import Verif.Proofs.Lawful

/-!
# Helper lemmas: slices, folds over digits, comparison
-/

namespace Babs

/-! ## Slices -/

theorem slice_ok {l : List Nat} {a b : Nat} (h1 : a ≤ b) (h2 : b ≤ l.length) :
    slice l a b = .ok ((l.take b).drop a) := by simp [slice, h1, h2]

theorem slice_append {p s q : List Nat} {a b : Nat} (hp : p.length = a)
    (hs : a + s.length = b) : slice (p ++ s ++ q) a b = .ok s := by
  subst hp; subst hs
  rw [slice_ok (by omega) (by simp)]
  congr 1
  rw [List.take_left' (by simp), List.drop_left' rfl]

theorem splitAtR_ok {l : List Nat} {k : Nat} (h : k ≤ l.length) :
    splitAtR l k = .ok (l.take k, l.drop k) := by simp [splitAtR, h]

theorem splitAtR_append {p q : List Nat} {k : Nat} (h : p.length = k) :
    splitAtR (p ++ q) k = .ok (p, q) := by
  subst h; simp [splitAtR]

theorem getR_ok {l : List Nat} {i : Nat} (h : i < l.length) : getR l i = .ok l[i] := by
  simp [getR, h]

theorem setR_ok {l : List Nat} {i v : Nat} (h : i < l.length) : setR l i v = .ok (l.set i v) := by
  simp [setR, h]

theorem onSlice_append {α : Type} {p s q : List Nat} {a b : Nat} {f : List Nat → R (List Nat × α)}
    (hp : p.length = a) (hs : a + s.length = b) :
    onSlice (p ++ s ++ q) a b f = (do let r ← f s; return (p ++ r.1 ++ q, r.2)) := by
  unfold onSlice
  rw [slice_append hp hs, ok_bind]
  subst hp; subst hs
  have h1 : (p ++ s ++ q).take p.length = p := by rw [List.append_assoc, List.take_left' rfl]
  have h2 : (p ++ s ++ q).drop (p.length + s.length) = q := List.drop_left' (by simp)
  rw [h1, h2]

theorem Sp.onSlice {α : Type} {E : Panic → Prop} {p s q : List Nat} {a b : Nat}
    {f : List Nat → R (List Nat × α)} {Q : List Nat → α → Prop}
    (hp : p.length = a) (hs : a + s.length = b) (h : Sp E (f s) (fun r => Q r.1 r.2)) :
    Sp E (onSlice (p ++ s ++ q) a b f) (fun r => ∃ s', r.1 = p ++ s' ++ q ∧ Q s' r.2) := by
  rw [onSlice_append hp hs]
  refine Sp.bind h ?_
  intro r hr
  exact ⟨r.1, rfl, hr⟩

/-- Split a list into the parts before, in and after a range. -/
theorem split3 (l : List Nat) {a b : Nat} (h1 : a ≤ b) (h2 : b ≤ l.length) :
    ∃ p s q, l = p ++ s ++ q ∧ p.length = a ∧ a + s.length = b ∧
      p = l.take a ∧ s = (l.take b).drop a ∧ q = l.drop b := by
  refine ⟨l.take a, (l.take b).drop a, l.drop b, ?_, by simp; omega, by simp; omega, rfl, rfl, rfl⟩
  have : l.take a ++ (l.take b).drop a = l.take b := by
    conv_rhs => rw [← List.take_append_drop a (l.take b)]
    rw [List.take_take, Nat.min_eq_left h1]
  rw [this, List.take_append_drop]

theorem copyInto_append {p s q src : List Nat} {a b : Nat} (hp : p.length = a)
    (hs : a + s.length = b) (hsrc : src.length = s.length) :
    copyInto (p ++ s ++ q) a b src = .ok (p ++ src ++ q) := by
  unfold copyInto
  rw [slice_append hp hs, ok_bind, if_pos hsrc.symm]
  subst hp; subst hs
  have h1 : (p ++ s ++ q).take p.length = p := by rw [List.append_assoc, List.take_left' rfl]
  have h2 : (p ++ s ++ q).drop (p.length + s.length) = q := List.drop_left' (by simp)
  rw [h1, h2]
  rfl

/-! ## Leading zeros -/

theorem dropLeadingZeros_spec (l : List Nat) (len : Nat) (h : len ≤ l.length) :
    ∃ nd, dropLeadingZeros l len = .ok nd ∧ nd ≤ len ∧
      l.take len = l.take nd ++ List.replicate (len - nd) 0 ∧ Canon (l.take nd) := by
  unfold dropLeadingZeros
  induction len with
  | zero => exact ⟨0, rfl, le_refl _, by simp, by simp [canon_nil]⟩
  | succ n ih =>
    obtain ⟨nd, h1, h2, h3, h4⟩ := ih (by omega)
    unfold dropZerosGo
    rw [getR_ok (by omega), ok_bind]
    have htake : l.take (n + 1) = l.take n ++ [l[n]] := by
      rw [List.take_succ_eq_append_getElem]
    by_cases h0 : l[n] = 0
    · refine ⟨nd, by rw [if_pos h0, h1], by omega, ?_, h4⟩
      rw [htake, h3, h0, List.append_assoc]
      congr 1
      rw [show n + 1 - nd = (n - nd) + 1 by omega, List.replicate_succ']
    · refine ⟨n + 1, by rw [if_neg h0]; rfl, le_refl _, by simp, ?_⟩
      rw [htake, canon_snoc]; exact h0

/-! ## Comparison -/

theorem compare_nat_eq (a b : Nat) :
    compare a b = if a < b then .lt else if a = b then .eq else .gt := Nat.compare_eq_ite_lt a b |>.trans (by
      split
      · rfl
      · split
        · rw [if_neg (by omega)]
        · rw [if_pos (by omega)])

theorem lexCmp_rev {B : Nat} {xs ys : List Nat} (hx : Digs B xs) (hy : Digs B ys)
    (hl : xs.length = ys.length) :
    lexCmp xs ys = compare (val B xs.reverse) (val B ys.reverse) := by
  induction xs generalizing ys with
  | nil =>
    cases ys with
    | nil => rfl
    | cons e es => simp at hl
  | cons d ds ih =>
    cases ys with
    | nil => simp at hl
    | cons e es =>
      rw [digs_cons] at hx hy
      have hl' : ds.length = es.length := by simpa using hl
      have h1 := val_lt hx.2.reverse
      have h2 := val_lt hy.2.reverse
      rw [lexCmp, ih hx.2 hy.2 hl', List.reverse_cons, List.reverse_cons, val_snoc, val_snoc]
      rw [List.length_reverse] at h1 h2 ⊢
      rw [List.length_reverse, hl'] at *
      generalize B ^ es.length = P at *
      generalize val B ds.reverse = u at *
      generalize val B es.reverse = v at *
      rcases Nat.lt_trichotomy d e with h | h | h
      · have h3 : P * (d + 1) ≤ P * e := Nat.mul_le_mul_left _ h
        have h4 : P * (d + 1) = P * d + P := by ring
        rw [compare_nat_eq d e, if_pos h, compare_nat_eq (u + P * d), if_pos (by omega)]; rfl
      · subst h
        have : compare d d = .eq := by simp
        rw [this]
        simp only [Ordering.then]
        rw [compare_nat_eq, compare_nat_eq]
        congr 1
        · simp
        · congr 1; simp
      · have h3 : P * (e + 1) ≤ P * d := Nat.mul_le_mul_left _ h
        have h4 : P * (e + 1) = P * e + P := by ring
        rw [compare_nat_eq d e, if_neg (by omega), if_neg (by omega), compare_nat_eq (u + P * d),
          if_neg (by omega), if_neg (by omega)]; rfl

/-- On numbers of the same length, `cmp` compares the values. -/
theorem cmpBig_same_length {B : Nat} {xs ys : List Nat} (hx : Digs B xs) (hy : Digs B ys)
    (hl : xs.length = ys.length) : cmpBig xs ys = compare (val B xs) (val B ys) := by
  unfold cmpBig
  rw [lexCmp_rev hx.reverse hy.reverse (by simpa using hl), List.reverse_reverse,
    List.reverse_reverse, hl]
  simp

/-- On normalised numbers, `cmp` compares the values. -/
theorem cmpBig_canon {B : Nat} (hB : 0 < B) {xs ys : List Nat} (hx : Digs B xs) (hy : Digs B ys)
    (cx : Canon xs) (cy : Canon ys) : cmpBig xs ys = compare (val B xs) (val B ys) := by
  rcases Nat.lt_trichotomy xs.length ys.length with h | h | h
  · have : ¬ val B ys ≤ val B xs := fun hle => by have := cy.length_le hB hx hle; omega
    unfold cmpBig
    rw [compare_nat_eq, if_pos h, compare_nat_eq, if_pos (by omega)]; rfl
  · exact cmpBig_same_length hx hy h
  · have : ¬ val B xs ≤ val B ys := fun hle => by have := cx.length_le hB hy hle; omega
    unfold cmpBig
    rw [compare_nat_eq, if_neg (by omega), if_neg (by omega), compare_nat_eq, if_neg (by omega),
      if_neg (by omega)]; rfl

theorem ltBig_iff_of_cmp {xs ys : List Nat} {a b : Nat} (h : cmpBig xs ys = compare a b) :
    ltBig xs ys = true ↔ a < b := by
  unfold ltBig
  rw [h, compare_nat_eq]
  split
  · simp [*]
  · split
    · simp [*]
    · simp [*]

theorem ltBig_canon {B : Nat} (hB : 0 < B) {xs ys : List Nat} (hx : Digs B xs) (hy : Digs B ys)
    (cx : Canon xs) (cy : Canon ys) : ltBig xs ys = true ↔ val B xs < val B ys :=
  ltBig_iff_of_cmp (cmpBig_canon hB hx hy cx cy)

theorem ltBig_same_length {B : Nat} {xs ys : List Nat} (hx : Digs B xs) (hy : Digs B ys)
    (hl : xs.length = ys.length) : ltBig xs ys = true ↔ val B xs < val B ys :=
  ltBig_iff_of_cmp (cmpBig_same_length hx hy hl)

/-- Without normal form the length comes first. -/
theorem ltBig_shorter {xs ys : List Nat} (h : xs.length < ys.length) : ltBig xs ys = true := by
  unfold ltBig cmpBig
  rw [compare_nat_eq, if_pos h]; rfl

theorem ltBig_longer {xs ys : List Nat} (h : ys.length < xs.length) : ltBig xs ys = false := by
  unfold ltBig cmpBig
  rw [compare_nat_eq, if_neg (by omega), if_neg (by omega)]; rfl

/-! ## Folds over digits -/

/-- A fold from the least significant digit, whose step is linear: the value of the result plus
the final carry times the weight of the next digit. -/
theorem foldDigits_spec {C : Type} {B : Nat} {f : Nat → C → R (Nat × C)} {P : C → Prop}
    {cv : C → ℤ} {e0 e : ℤ}
    (hstep : ∀ a c, a < B → P c → ∃ d c', f a c = .ok (d, c') ∧ d < B ∧ P c' ∧
      (d : ℤ) + e * B * cv c' = e0 * a + e * cv c)
    (l : List Nat) (c : C) (hl : Digs B l) (hc : P c) :
    ∃ r c', foldDigits f l c = .ok (r, c') ∧ r.length = l.length ∧ Digs B r ∧ P c' ∧
      (val B r : ℤ) + e * (B : ℤ) ^ l.length * cv c' = e0 * val B l + e * cv c := by
  induction l generalizing c with
  | nil => exact ⟨[], c, rfl, rfl, digs_nil B, hc, by simp⟩
  | cons a as ih =>
    rw [digs_cons] at hl
    obtain ⟨d, c1, h1, h2, h3, h4⟩ := hstep a c hl.1 hc
    obtain ⟨r, c2, h5, h6, h7, h8, h9⟩ := ih c1 hl.2 h3
    refine ⟨d :: r, c2, ?_, by simp [h6], by simp [h2, h7], h8, ?_⟩
    · simp [foldDigits, h1, h5]
    · simp only [val_cons, List.length_cons]
      push_cast
      rw [pow_succ]
      linear_combination h4 + (B : ℤ) * h9

theorem foldDigitsRev_spec {C : Type} {B : Nat} {f : Nat → C → R (Nat × C)} {P : C → Prop}
    {cv : C → ℤ} {F : ℤ}
    (hstep : ∀ a c, a < B → P c → ∃ d c', f a c = .ok (d, c') ∧ d < B ∧ P c' ∧
      (d : ℤ) * F + cv c' = cv c * B + a)
    (l : List Nat) (c : C) (hl : Digs B l) (hc : P c) :
    ∃ r c', foldDigitsRev f l c = .ok (r, c') ∧ r.length = l.length ∧ Digs B r ∧ P c' ∧
      (val B r : ℤ) * F + cv c' = cv c * (B : ℤ) ^ l.length + val B l := by
  induction l with
  | nil => exact ⟨[], c, rfl, rfl, digs_nil B, hc, by simp⟩
  | cons a as ih =>
    rw [digs_cons] at hl
    obtain ⟨r, c1, h5, h6, h7, h8, h9⟩ := ih hl.2
    obtain ⟨d, c2, h1, h2, h3, h4⟩ := hstep a c1 hl.1 h8
    refine ⟨d :: r, c2, ?_, by simp [h6], by simp [h2, h7], h3, ?_⟩
    · simp [foldDigitsRev, h1, h5]
    · simp only [val_cons, List.length_cons]
      push_cast
      rw [pow_succ]
      linear_combination h4 + (B : ℤ) * h9

theorem zipDigits_spec {C : Type} {B B1 : Nat} {f : Nat → Nat → C → R (Nat × C)} {P : C → Prop}
    {cv : C → ℤ} {e0 e1 e : ℤ}
    (hstep : ∀ a b c, a < B → b < B1 → P c → ∃ d c', f a b c = .ok (d, c') ∧ d < B ∧ P c' ∧
      (d : ℤ) + e * B * cv c' = e0 * a + e1 * b + e * cv c)
    (l0 l1 rest : List Nat) (c : C) (hlen : l0.length = l1.length) (h0 : Digs B l0)
    (hl1 : Digs B1 l1) (hc : P c) :
    ∃ r c', zipDigits f (l0 ++ rest) l1 c = .ok (r ++ rest, c') ∧ r.length = l0.length ∧
      Digs B r ∧ P c' ∧
      (val B r : ℤ) + e * (B : ℤ) ^ l0.length * cv c'
        = e0 * val B l0 + e1 * val B l1 + e * cv c := by
  induction l0 generalizing l1 c with
  | nil =>
    cases l1 with
    | cons b bs => simp at hlen
    | nil =>
      refine ⟨[], c, ?_, rfl, digs_nil B, hc, by simp⟩
      cases rest <;> simp [zipDigits]
  | cons a as ih =>
    cases l1 with
    | nil => simp at hlen
    | cons b bs =>
      rw [digs_cons] at h0 hl1
      obtain ⟨d, c1, h1, h2, h3, h4⟩ := hstep a b c h0.1 hl1.1 hc
      obtain ⟨r, c2, h5, h6, h7, h8, h9⟩ := ih bs c1 (by simpa using hlen) h0.2 hl1.2 h3
      refine ⟨d :: r, c2, ?_, by simp [h6], by simp [h2, h7], h8, ?_⟩
      · simp [zipDigits, h1, h5]
      · simp only [val_cons, List.length_cons]
        push_cast
        rw [pow_succ]
        linear_combination h4 + (B : ℤ) * h9

theorem zipInto_spec {C : Type} {B : Nat} {f : Nat → Nat → C → R (Nat × C)} {P : C → Prop}
    {cv : C → ℤ} {e0 e1 e : ℤ}
    (hstep : ∀ a b c, a < B → b < B → P c → ∃ d c', f a b c = .ok (d, c') ∧ d < B ∧ P c' ∧
      (d : ℤ) + e * B * cv c' = e0 * a + e1 * b + e * cv c)
    (l0 l1 o r0 r1 rest : List Nat) (c : C) (hlen : l0.length = l1.length)
    (ho : l0.length = o.length) (hr : r0 = [] ∨ r1 = []) (h0 : Digs B l0)
    (hl1 : Digs B l1) (hc : P c) :
    ∃ r c', zipInto f (l0 ++ r0) (l1 ++ r1) (o ++ rest) c = .ok (r ++ rest, c') ∧
      r.length = l0.length ∧ Digs B r ∧ P c' ∧
      (val B r : ℤ) + e * (B : ℤ) ^ l0.length * cv c'
        = e0 * val B l0 + e1 * val B l1 + e * cv c := by
  induction l0 generalizing l1 o c with
  | nil =>
    cases l1 with
    | cons b bs => simp at hlen
    | nil =>
      cases o with
      | cons b bs => simp at ho
      | nil =>
        refine ⟨[], c, ?_, rfl, digs_nil B, hc, by simp⟩
        rcases hr with rfl | rfl
        · simp [zipInto]
        · cases r0 <;> simp [zipInto]
  | cons a as ih =>
    cases l1 with
    | nil => simp at hlen
    | cons b bs =>
      cases o with
      | nil => simp at ho
      | cons x xs =>
        rw [digs_cons] at h0 hl1
        obtain ⟨d, c1, h1, h2, h3, h4⟩ := hstep a b c h0.1 hl1.1 hc
        obtain ⟨r, c2, h5, h6, h7, h8, h9⟩ :=
          ih bs xs c1 (by simpa using hlen) (by simpa using ho) h0.2 hl1.2 h3
        refine ⟨d :: r, c2, ?_, by simp [h6], by simp [h2, h7], h8, ?_⟩
        · simp [zipInto, h1, h5]
        · simp only [val_cons, List.length_cons]
          push_cast
          rw [pow_succ]
          linear_combination h4 + (B : ℤ) * h9

end Babs
