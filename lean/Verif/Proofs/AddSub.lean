import Verif.Model.AddSub
import Verif.Proofs.Lists

/-!
# Helper lemmas: addition, subtraction and shifts on digit slices
-/

namespace Babs

variable {D : DigitOps} {B : Nat}

/-- Carry flags as numbers. -/
def cvB (c : Bool) : ℤ := (c.toNat : ℤ)

theorem div_add_mod_cast (n B : Nat) : ((n % B : Nat) : ℤ) + 1 * B * ((n / B : Nat) : ℤ) = n := by
  have := Nat.mod_add_div n B
  exact_mod_cast (by linarith : n % B + 1 * B * (n / B) = n)

theorem addCarry_step (L : Lawful D B) (a b : Nat) (c : Bool) (ha : a < B) (hb : b < B)
    (_ : True) : ∃ d c', D.addCarry a b c = .ok (d, c') ∧ d < B ∧ True ∧
      (d : ℤ) + 1 * B * cvB c' = 1 * a + 1 * b + 1 * cvB c := by
  refine ⟨_, _, L.addCarry a b c ha hb, Nat.mod_lt _ L.pos, trivial, ?_⟩
  have hc := toNat_le_one c
  simp only [cvB]
  by_cases h : B ≤ a + b + c.toNat
  · rw [Nat.mod_eq_sub_mod h, Nat.mod_eq_of_lt (by omega)]
    simp [h]
  · rw [Nat.mod_eq_of_lt (by omega)]
    simp [h]

theorem subCarry_step (L : Lawful D B) (a b : Nat) (c : Bool) (ha : a < B) (hb : b < B)
    (_ : True) : ∃ d c', D.subCarry a b c = .ok (d, c') ∧ d < B ∧ True ∧
      (d : ℤ) + (-1) * B * cvB c' = 1 * a + (-1) * b + (-1) * cvB c := by
  refine ⟨_, _, L.subCarry a b c ha hb, Nat.mod_lt _ L.pos, trivial, ?_⟩
  have hc := toNat_le_one c
  simp only [cvB]
  by_cases h : a < b + c.toNat
  · rw [Nat.mod_eq_of_lt (by omega)]
    simp only [h, decide_true, Bool.toNat_true]
    omega
  · rw [show a + B - (b + c.toNat) = (a - (b + c.toNat)) + B by omega, Nat.add_mod_right,
      Nat.mod_eq_of_lt (by omega)]
    simp only [h, decide_false, Bool.toNat_false]
    omega

theorem rsubCarry_step (L : Lawful D B) (a b : Nat) (c : Bool) (ha : a < B) (hb : b < B)
    (_ : True) : ∃ d c', D.subCarry b a c = .ok (d, c') ∧ d < B ∧ True ∧
      (d : ℤ) + (-1) * B * cvB c' = (-1) * a + 1 * b + (-1) * cvB c := by
  obtain ⟨d, c', h1, h2, h3, h4⟩ := subCarry_step L b a c hb ha trivial
  exact ⟨d, c', h1, h2, h3, by linarith⟩

/-! ## Addition -/

theorem incAssign_spec (L : Lawful D B) (l : List Nat) (hl : Digs B l) :
    ∃ r c, incAssign D l = .ok (r, c) ∧ r.length = l.length ∧ Digs B r ∧
      val B r + B ^ l.length * c.toNat = val B l + 1 := by
  induction l with
  | nil => exact ⟨[], true, rfl, rfl, digs_nil B, by simp⟩
  | cons d ds ih =>
    rw [digs_cons] at hl
    obtain ⟨r, c, h1, h2, h3, h4⟩ := ih hl.2
    unfold incAssign
    rw [L.inc d hl.1, ok_bind]
    by_cases h : B ≤ d + 1
    · have hd : d + 1 = B := by omega
      refine ⟨0 :: r, c, ?_, by simp [h2], by simp [h3, L.pos], ?_⟩
      · simp [h1, hd]
      · simp only [val_cons, List.length_cons, pow_succ]
        have : B * (val B r + B ^ ds.length * c.toNat) = B * (val B ds + 1) := by rw [h4]
        have e1 : B ^ ds.length * B * c.toNat = B * (B ^ ds.length * c.toNat) := by ring
        rw [e1, Nat.zero_add, ← Nat.mul_add, this]
        rw [Nat.mul_add]; omega
    · refine ⟨(d + 1) :: ds, false, ?_, by simp, by simp [hl.2]; omega, ?_⟩
      · simp [h, Nat.mod_eq_of_lt (show d + 1 < B by omega)]
      · simp; omega

theorem addAssignBig_spec (L : Lawful D B) (l0 l1 : List Nat) (h0 : Digs B l0) (h1 : Digs B l1)
    (hlen : l1.length ≤ l0.length) :
    ∃ r c, addAssignBig D l0 l1 = .ok (r, c) ∧ r.length = l0.length ∧ Digs B r ∧
      val B r + B ^ l0.length * c.toNat = val B l0 + val B l1 := by
  obtain ⟨r1, c1, e1, e2, e3, -, e5⟩ := zipDigits_spec (addCarry_step L) (l0.take l1.length) l1
    (l0.drop l1.length) false (by simp [hlen]) (h0.take _) h1 trivial
  rw [List.take_append_drop] at e1
  have hlt : (l0.take l1.length).length = l1.length := by simp [hlen]
  rw [hlt] at e2 e5
  have hv := val_take_add_drop B l0 l1.length hlen
  have hd := h0.drop l1.length
  have hdl : (l0.drop l1.length).length = l0.length - l1.length := by simp
  unfold addAssignBig
  rw [assertR, if_pos (by simpa using hlen), ok_bind, e1, ok_bind]
  generalize l0.drop l1.length = rest at *
  generalize l0.take l1.length = low at *
  have e6 : val B r1 + B ^ l1.length * c1.toNat = val B low + val B l1 := by
    have : (val B r1 : ℤ) + B ^ l1.length * c1.toNat = val B low + val B l1 := by
      simp only [cvB, Bool.toNat_false] at e5; push_cast at e5; linarith
    exact_mod_cast this
  cases c1 with
  | false =>
    refine ⟨r1 ++ rest, false, rfl, by simp [e2, hdl]; omega, by simp [e3, hd], ?_⟩
    rw [val_append, e2]; simp at e6 ⊢; omega
  | true =>
    obtain ⟨r2, c2, f1, f2, f3, f4⟩ := incAssign_spec L rest hd
    refine ⟨r1 ++ r2, c2, ?_, by simp [e2, f2, hdl]; omega, by simp [e3, f3], ?_⟩
    · have hs := onSlice_append (p := r1) (s := rest) (q := []) (f := incAssign D) e2
        (b := (r1 ++ rest).length) (by simp [e2])
      simp only [List.append_nil] at hs
      simp only [if_true]
      rw [hs, f1]; rfl
    · rw [val_append, e2]
      have : l0.length = l1.length + rest.length := by omega
      rw [this, pow_add, ← hv]
      simp at e6
      have f5 : B ^ l1.length * (val B r2 + B ^ rest.length * c2.toNat)
        = B ^ l1.length * (val B rest + 1) := by rw [f4]
      linarith [f5, e6]

theorem addAssignDigit_spec (L : Lawful D B) (l : List Nat) (digit : Nat) (hl : Digs B l)
    (hd : digit < B) :
    ∃ r c, addAssignDigit D l digit = .ok (r, c) ∧ r.length = l.length ∧ Digs B r ∧
      (∀ x, c = some x → 0 < x ∧ x < B) ∧
      val B r + B ^ l.length * c.getD 0 = val B l + digit := by
  unfold addAssignDigit
  by_cases h0 : digit = 0
  · rw [if_pos h0]
    exact ⟨l, none, rfl, rfl, hl, by simp, by simp [h0]⟩
  · rw [if_neg h0]
    cases l with
    | nil => exact ⟨[], some digit, rfl, rfl, digs_nil B, by simp; omega, by simp⟩
    | cons a as =>
      rw [digs_cons] at hl
      obtain ⟨d, c, h1, h2, -, h4⟩ := addCarry_step L a digit false hl.1 hd trivial
      have h5 : d + B * c.toNat = a + digit := by
        simp only [cvB, Bool.toNat_false] at h4
        have : (d : ℤ) + B * c.toNat = a + digit := by push_cast at h4; linarith
        exact_mod_cast this
      simp only [h1, ok_bind]
      cases c with
      | false =>
        refine ⟨d :: as, none, by simp, by simp, by simp [h2, hl.2], by simp, ?_⟩
        simp at h5 ⊢; omega
      | true =>
        obtain ⟨r2, c2, f1, f2, f3, f4⟩ := incAssign_spec L as hl.2
        refine ⟨d :: r2, if c2 then some 1 else none, ?_, by simp [f2], by simp [h2, f3], ?_, ?_⟩
        · simp [f1]
        · have := L.base
          cases c2 <;> simp; omega
        · have hc2 : (if c2 = true then some 1 else none : Option Nat).getD 0 = c2.toNat := by
            cases c2 <;> rfl
          rw [hc2]
          simp only [val_cons, List.length_cons, pow_succ]
          simp at h5
          have f5 : B * (val B r2 + B ^ as.length * c2.toNat) = B * (val B as + 1) := by rw [f4]
          linarith [f5, h5]

/-- Copying the rest of the longer operand. -/
theorem addBigInto_spec (L : Lawful D B) (l0 l1 sum : List Nat) (h0 : Digs B l0) (h1 : Digs B l1)
    (hlen : max l0.length l1.length ≤ sum.length) :
    ∃ r c, r.length = max l0.length l1.length ∧ Digs B r ∧ c ≤ 1 ∧
      val B r + B ^ (max l0.length l1.length) * c = val B l0 + val B l1 ∧
      ((c = 0 ∧ addBigInto D l0 l1 sum
          = .ok (r ++ sum.drop (max l0.length l1.length), .ok (max l0.length l1.length))) ∨
       (c = 1 ∧ sum.length = max l0.length l1.length ∧
          addBigInto D l0 l1 sum = .ok (r, .error .noSpace)) ∨
       (c = 1 ∧ max l0.length l1.length < sum.length ∧ addBigInto D l0 l1 sum
          = .ok (r ++ 1 :: sum.drop (max l0.length l1.length + 1),
              .ok (max l0.length l1.length + 1)))) := by
  generalize hnmax : max l0.length l1.length = nmax at *
  generalize hnmin : min l0.length l1.length = nmin at *
  have hle : nmin ≤ nmax := by omega
  -- the three parts of `sum`
  obtain ⟨p, s, q, hsum, hp, hs, -, -, hq⟩ := split3 sum hle hlen
  -- the common part
  have hr : l0.drop nmin = [] ∨ l1.drop nmin = [] := by
    rcases Nat.le_total l0.length l1.length with h | h
    · left; simp; omega
    · right; simp; omega
  obtain ⟨r1, c1, e1, e2, e3, -, e5⟩ := zipInto_spec (addCarry_step L) (l0.take nmin)
    (l1.take nmin) p (l0.drop nmin) (l1.drop nmin) (s ++ q) false
    (by simp; omega) (by simp; omega) hr (h0.take _) (h1.take _) trivial
  rw [List.take_append_drop, List.take_append_drop, ← List.append_assoc, ← hsum] at e1
  have hlt : (l0.take nmin).length = nmin := by simp; omega
  rw [hlt] at e2 e5
  have e6 : val B r1 + B ^ nmin * c1.toNat = val B (l0.take nmin) + val B (l1.take nmin) := by
    have : (val B r1 : ℤ) + B ^ nmin * c1.toNat
        = val B (l0.take nmin) + val B (l1.take nmin) := by
      simp only [cvB, Bool.toNat_false] at e5; push_cast at e5; linarith
    exact_mod_cast this
  -- the rest of the longer operand
  obtain ⟨hi, hhi1, hhi2, hhi3, hhi4⟩ : ∃ hi : List Nat, hi.length = s.length ∧ Digs B hi ∧
      (∀ f : List Nat → R (List Nat × Res Nat),
        (if l0.length = l1.length then pure (r1 ++ s ++ q) >>= f
        else if l0.length < l1.length then copyInto (r1 ++ s ++ q) nmin nmax (l1.drop nmin) >>= f
        else copyInto (r1 ++ s ++ q) nmin nmax (l0.drop nmin) >>= f) = f (r1 ++ hi ++ q)) ∧
      val B l0 + val B l1
        = val B (l0.take nmin) + val B (l1.take nmin) + B ^ nmin * val B hi := by
    have hv0 := val_take_add_drop B l0 nmin (by omega)
    have hv1 := val_take_add_drop B l1 nmin (by omega)
    by_cases heq : l0.length = l1.length
    · have hs0 : s = [] := by
        apply List.eq_nil_of_length_eq_zero; omega
      have z0 : l0.drop nmin = [] := by simp; omega
      have z1 : l1.drop nmin = [] := by simp; omega
      refine ⟨[], by simp [hs0], digs_nil B, ?_, ?_⟩
      · intro _; rw [if_pos heq, hs0]; rfl
      · rw [z0] at hv0; rw [z1] at hv1; simp at hv0 hv1 ⊢; omega
    · by_cases hlt : l0.length < l1.length
      · have z0 : l0.drop nmin = [] := by simp; omega
        refine ⟨l1.drop nmin, by simp; omega, h1.drop _, ?_, ?_⟩
        · intro _
          rw [if_neg heq, if_pos hlt, copyInto_append e2 (by omega) (by simp; omega)]; rfl
        · rw [z0] at hv0; simp at hv0; omega
      · have z1 : l1.drop nmin = [] := by simp; omega
        refine ⟨l0.drop nmin, by simp; omega, h0.drop _, ?_, ?_⟩
        · intro _
          rw [if_neg heq, if_neg hlt, copyInto_append e2 (by omega) (by simp; omega)]; rfl
        · rw [z1] at hv1; simp at hv1; omega
  have hmain : addBigInto D l0 l1 sum =
      (if c1 then do
        let (sum, carry) ← onSlice (r1 ++ hi ++ q) nmin nmax (incAssign D)
        if carry then
          if sum.length ≤ nmax then return (sum, .error .noSpace)
          else return (← setR sum nmax 1, .ok (nmax + 1))
        else return (sum, .ok nmax)
      else return (r1 ++ hi ++ q, .ok nmax)) := by
    unfold addBigInto
    simp only [hnmax, hnmin]
    rw [if_neg (by omega), e1, ok_bind]
    simp only [← List.append_assoc]
    rw [hhi3]
  have hhl : (r1 ++ hi).length = nmax := by simp [e2]; omega
  cases c1 with
  | false =>
    refine ⟨r1 ++ hi, 0, hhl, by simp [e3, hhi2], by omega, ?_, Or.inl ⟨rfl, ?_⟩⟩
    · rw [val_append, e2, hhi4]; simp at e6 ⊢; omega
    · rw [hmain, ← hq]; rfl
  | true =>
    obtain ⟨r2, c2, f1, f2, f3, f4⟩ := incAssign_spec L hi hhi2
    have hrl : (r1 ++ r2).length = nmax := by simp [e2]; omega
    have hval : val B (r1 ++ r2) + B ^ nmax * c2.toNat = val B l0 + val B l1 := by
      have hn : nmax = nmin + hi.length := by omega
      rw [val_append, e2, hhi4, hn, pow_add]
      simp at e6
      have f5 : B ^ nmin * (val B r2 + B ^ hi.length * c2.toNat)
        = B ^ nmin * (val B hi + 1) := by rw [f4]
      linarith [f5, e6]
    refine ⟨r1 ++ r2, c2.toNat, hrl, by simp [e3, f3], toNat_le_one c2, hval, ?_⟩
    simp only [if_true] at hmain
    rw [onSlice_append e2 (by omega), f1, ok_bind] at hmain
    simp only [pure_eq_ok, ok_bind] at hmain
    cases c2 with
    | false => left; exact ⟨rfl, by rw [hmain, ← hq]; rfl⟩
    | true =>
      right
      simp only [if_true] at hmain
      by_cases hsl : sum.length ≤ nmax
      · left
        have hq0 : q = [] := by rw [hq]; simp; omega
        refine ⟨rfl, by omega, ?_⟩
        rw [hmain, hq0, if_pos (by simp at hrl ⊢; omega), List.append_nil]
      · right
        refine ⟨rfl, by omega, ?_⟩
        have hql : q.length = sum.length - nmax := by rw [hq]; simp
        obtain ⟨x, q', rfl⟩ : ∃ x q', q = x :: q' := by
          cases q with
          | nil => simp at hql; omega
          | cons x q' => exact ⟨x, q', rfl⟩
        have hq' : sum.drop (nmax + 1) = q' := by
          rw [← List.drop_drop, ← hq]; rfl
        rw [hmain, hq', if_neg (by simp at hrl hql ⊢; omega), setR_ok (by simp at hrl ⊢; omega),
          ok_bind, List.set_append_right _ _ (by omega), hrl]
        simp

/-! ## Subtraction -/

/-- `dec_assign`: subtracts one; reports underflow exactly for zero; the returned length drops by
one if the top digit became zero on account of the borrow. -/
theorem decGo_spec (L : Lawful D B) (n : Nat) (l : List Nat) (hl : Digs B l) (hn : l.length ≤ n) :
    ∃ r res, decGo D n l = .ok (r, res) ∧ r.length = l.length ∧ Digs B r ∧
      ((val B l = 0 ∧ res = .error .underflow ∧ val B r + 1 = B ^ l.length) ∨
       (0 < val B l ∧ val B r + 1 = val B l ∧ (res = .ok n ∨
          (res = .ok (n - 1) ∧ 0 < l.length ∧ r.drop (l.length - 1) = [0] ∧
            val B r + 1 = B ^ (l.length - 1))) ∧
          (res = .ok n → Canon l → Canon r))) := by
  induction l with
  | nil => exact ⟨[], .error .underflow, rfl, rfl, digs_nil B, Or.inl ⟨rfl, rfl, by simp⟩⟩
  | cons d ds ih =>
    rw [digs_cons] at hl
    have hBpos := L.pos
    have hB := L.base
    cases ds with
    | nil =>
      unfold decGo
      rw [L.dec d hl.1, ok_bind]
      by_cases h0 : d = 0
      · refine ⟨[B - 1], .error .underflow, ?_, rfl, by simp; omega, Or.inl ⟨by simp [h0], rfl, ?_⟩⟩
        · subst h0
          simp only [decide_true, Nat.zero_add]
          rw [Nat.mod_eq_of_lt (by omega)]; rfl
        · simp; omega
      · have hm : (d + (B - 1)) % B = d - 1 := by
          rw [show d + (B - 1) = (d - 1) + B by omega, Nat.add_mod_right, Nat.mod_eq_of_lt (by omega)]
        rw [hm]
        by_cases h1 : d - 1 = 0
        · refine ⟨[d - 1], .ok (n - 1), by simp [h0, h1], rfl, by simp; omega,
            Or.inr ⟨by simp; omega, by simp; omega,
              Or.inr ⟨rfl, by simp, by simp [h1], by simp [h1]⟩, ?_⟩⟩
          intro he
          simp at hn
          injection he with he
          omega
        · refine ⟨[d - 1], .ok n, by simp [h0, h1], rfl, by simp; omega,
            Or.inr ⟨by simp; omega, by simp; omega, Or.inl rfl, ?_⟩⟩
          intro _ _
          exact canon_singleton.mpr h1
    | cons e es =>
      obtain ⟨r, res, h1, h2, h3, h4⟩ := ih hl.2 (by simp at hn ⊢; omega)
      unfold decGo
      rw [L.dec d hl.1, ok_bind]
      generalize hds : (e :: es) = ds at *
      have hdl : 0 < ds.length := by rw [← hds]; simp
      by_cases h0 : d = 0
      · have hm : (d + (B - 1)) % B = B - 1 := by
          rw [h0, Nat.zero_add, Nat.mod_eq_of_lt (by omega)]
        rw [hm]
        refine ⟨(B - 1) :: r, res, by simp [h0, h1], by simp [h2],
          by simp [h3]; omega, ?_⟩
        have hmul : B * (val B r + 1) = B * val B r + B := by ring
        have hr0 : r ≠ [] := by rintro rfl; simp at h2; omega
        rcases h4 with ⟨a1, a2, a3⟩ | ⟨a1, a2, a3, a4⟩
        · left
          refine ⟨by simp [h0, a1], a2, ?_⟩
          simp only [val_cons, List.length_cons, pow_succ]
          rw [← a3]
          have : (val B r + 1) * B = B * val B r + B := by ring
          omega
        · right
          refine ⟨?_, ?_, ?_, ?_⟩
          · simp only [val_cons]
            have := Nat.mul_pos hBpos a1
            omega
          · simp only [val_cons]; rw [← a2]; omega
          · rcases a3 with a3 | ⟨a3, a5, a6, a7⟩
            · exact Or.inl a3
            · right
              refine ⟨a3, by simp, ?_, ?_⟩
              · simp only [List.length_cons, Nat.add_sub_cancel]
                rw [show ds.length = (ds.length - 1) + 1 by omega, List.drop_succ_cons]; exact a6
              · simp only [val_cons, List.length_cons, Nat.add_sub_cancel]
                rw [show ds.length = (ds.length - 1) + 1 by omega, pow_succ, ← a7]
                have : (val B r + 1) * B = B * val B r + B := by ring
                omega
          · intro b1 b2
            have b3 : Canon ds := by
              subst hds; exact canon_cons_cons.mp b2
            have := a4 b1 b3
            obtain ⟨x, xs, rfl⟩ : ∃ x xs, r = x :: xs := List.exists_cons_of_ne_nil hr0
            exact canon_cons_cons.mpr this
      · have hm : (d + (B - 1)) % B = d - 1 := by
          rw [show d + (B - 1) = (d - 1) + B by omega, Nat.add_mod_right, Nat.mod_eq_of_lt (by omega)]
        rw [hm]
        refine ⟨(d - 1) :: ds, .ok n, by simp [h0], by simp, by simp [hl.2]; omega,
          Or.inr ⟨by simp; omega, by simp; omega, Or.inl rfl, ?_⟩⟩
        intro _ b2
        subst hds
        exact canon_cons_cons.mpr (canon_cons_cons.mp b2)

/-- The common result of the subtractions: `r` holds the new content of the `n0` digits. -/
structure SubPost (B : Nat) (l0 l1 : List Nat) (r : List Nat) (res : Res Nat) : Prop where
  len : r.length = l0.length
  digs : Digs B r
  cases : (val B l0 < val B l1 ∧ res = .error .underflow ∧
      val B r + val B l1 = val B l0 + B ^ l0.length) ∨
    (val B l1 ≤ val B l0 ∧ ∃ nd, res = .ok nd ∧ nd ≤ l0.length ∧ val B r + val B l1 = val B l0 ∧
      r = r.take nd ++ List.replicate (l0.length - nd) 0 ∧
      (l0.length = l1.length ∨
        (Canon l0 ∧ (l0.length = l1.length + 1 →
          nd = l0.length ∨ val B l1 + B ^ (l1.length - 1) ≤ val B l0))
        → Canon (r.take nd)) ∧
      (l1.length < l0.length → Canon l0 → l0.length - 1 ≤ nd))

/-- Finish a subtraction: the common part `r1` with borrow `c1`, and the rest `hi` of the minuend. -/
theorem sub_finish (L : Lawful D B) (l0 l1 r1 hi q : List Nat) (c1 : Bool)
    (hlen : l1.length ≤ l0.length) (h0 : Digs B l0)
    (hhi : hi = l0.drop l1.length) (e2 : r1.length = l1.length) (e3 : Digs B r1)
    (e6 : val B r1 + val B l1 = val B (l0.take l1.length) + B ^ l1.length * c1.toNat) :
    ∃ r res, SubPost B l0 l1 r res ∧
      (if c1 then do
        let (diff, r) ← onSlice (r1 ++ hi ++ q) l1.length l0.length (decAssign D)
        match r with
        | .error e => return (diff, .error e)
        | .ok nd => return (diff, .ok (l1.length + nd))
      else do return (r1 ++ hi ++ q, .ok (← dropLeadingZeros (r1 ++ hi ++ q) l0.length))
      : R (List Nat × Res Nat)) = .ok (r ++ q, res) := by
  have hv := val_take_add_drop B l0 l1.length hlen
  rw [← hhi] at hv
  have hhil : hi.length = l0.length - l1.length := by rw [hhi]; simp
  have hhid : Digs B hi := by rw [hhi]; exact h0.drop _
  have hBpos := L.pos
  cases c1 with
  | false =>
    simp only [Bool.toNat_false, Nat.mul_zero, Nat.add_zero] at e6
    obtain ⟨nd, d1, d2, d3, d4⟩ := dropLeadingZeros_spec (r1 ++ hi ++ q) l0.length
      (by simp; omega)
    have hl : (r1 ++ hi).length = l0.length := by simp; omega
    rw [List.take_left' hl] at d3
    have htk : (r1 ++ hi ++ q).take nd = (r1 ++ hi).take nd :=
      List.take_append_of_le_length (by omega)
    rw [htk] at d3 d4
    have hval : val B (r1 ++ hi) + val B l1 = val B l0 := by
      rw [val_append, e2]; omega
    have hnd : l1.length < l0.length → Canon l0 → l0.length - 1 ≤ nd := by
      intro hlt hc
      have hhine : hi ≠ [] := by rintro rfl; simp at hhil; omega
      have e : l0 = l0.take l1.length ++ hi := by rw [hhi, List.take_append_drop]
      rw [e, canon_append_of hhine] at hc
      rw [← canon_append_of (xs := r1) hhine] at hc
      by_contra hcon
      rw [d3, show l0.length - nd = (l0.length - nd - 1) + 1 by omega, List.replicate_succ',
        ← List.append_assoc, canon_snoc] at hc
      exact hc rfl
    refine ⟨r1 ++ hi, .ok nd, ⟨hl, by simp [e3, hhid], Or.inr ⟨by omega, nd, rfl, d2, hval, d3,
      fun _ => d4, hnd⟩⟩, ?_⟩
    simp only [Bool.false_eq_true, if_false]
    rw [d1]; rfl
  | true =>
    simp only [Bool.toNat_true, Nat.mul_one] at e6
    obtain ⟨r2, res, f1, f2, f3, f4⟩ := decGo_spec L hi.length hi hhid (le_refl _)
    have hl : (r1 ++ r2).length = l0.length := by simp; omega
    have hrun : ∀ X : R (List Nat × Res Nat), (if true = true then do
        let (diff, r) ← onSlice (r1 ++ hi ++ q) l1.length l0.length (decAssign D)
        match r with
        | .error e => return (diff, .error e)
        | .ok nd => return (diff, .ok (l1.length + nd))
      else X : R (List Nat × Res Nat)) = .ok (r1 ++ r2 ++ q,
        res.map (fun nd => l1.length + nd)) := by
      intro X
      rw [if_pos rfl, onSlice_append e2 (by omega)]
      unfold decAssign
      rw [f1]
      cases res <;> rfl
    rcases f4 with ⟨g1, g2, g3⟩ | ⟨g1, g2, g3, g4⟩
    · refine ⟨r1 ++ r2, .error .underflow, ⟨hl, by simp [e3, f3], Or.inl ⟨?_, rfl, ?_⟩⟩, ?_⟩
      · rw [g1] at hv
        have := val_lt e3
        rw [e2] at this
        simp at hv
        omega
      · rw [val_append, e2, show l0.length = l1.length + hi.length by omega, pow_add, ← g3, ← hv, g1]
        have : B ^ l1.length * (val B r2 + 1) = B ^ l1.length * val B r2 + B ^ l1.length := by ring
        simp; omega
      · rw [hrun, g2]; rfl
    · have hval : val B (r1 ++ r2) + val B l1 = val B l0 := by
        rw [val_append, e2, ← hv, ← g2]
        have : B ^ l1.length * (val B r2 + 1) = B ^ l1.length * val B r2 + B ^ l1.length := by ring
        omega
      have hhine : hi ≠ [] := by rintro rfl; simp at g1
      have hhipos : 0 < hi.length := List.length_pos_iff.mpr hhine
      rcases g3 with g3 | ⟨g3, g5, g6, g7⟩
      · refine ⟨r1 ++ r2, .ok l0.length, ⟨hl, by simp [e3, f3], Or.inr ⟨by omega, l0.length, rfl,
          le_refl _, hval, ?_, ?_, by omega⟩⟩, ?_⟩
        · rw [Nat.sub_self]
          simp only [List.replicate_zero, List.append_nil]
          rw [List.take_of_length_le (by omega)]
        · rw [List.take_of_length_le (by omega)]
          rintro (h | ⟨h, -⟩)
          · omega
          · have hc : Canon hi := by
              have e : l0 = l0.take l1.length ++ hi := by rw [hhi, List.take_append_drop]
              rw [e, canon_append_of hhine] at h
              exact h
            have hr2 : r2 ≠ [] := by rintro rfl; simp at f2; omega
            rw [canon_append_of hr2]
            exact g4 g3 hc
        · rw [hrun, g3]
          simp only [Except.map]
          congr 3; omega
      · have hr2 : r2 = r2.take (hi.length - 1) ++ [0] := by
          conv_lhs => rw [← List.take_append_drop (hi.length - 1) r2, g6]
        have htk : (r1 ++ r2).take (l0.length - 1) = r1 ++ r2.take (hi.length - 1) := by
          rw [List.take_append, List.take_of_length_le (by omega), e2]
          congr 2; omega
        refine ⟨r1 ++ r2, .ok (l0.length - 1), ⟨hl, by simp [e3, f3], Or.inr ⟨by omega,
          l0.length - 1, rfl, by omega, hval, ?_, ?_, by omega⟩⟩, ?_⟩
        · rw [htk, show l0.length - (l0.length - 1) = 1 by omega, List.append_assoc]
          simp only [List.replicate_one]
          rw [← hr2]
        · rw [htk]
          rintro (h | ⟨h, h'⟩)
          · omega
          · have hvt : val B (r2.take (hi.length - 1)) = val B r2 := by
              conv_rhs => rw [hr2]
              rw [val_snoc]; simp
            have hlt : (r2.take (hi.length - 1)).length = hi.length - 1 := by simp; omega
            apply Canon.of_ge (b := B) (by
              rw [digs_append]; exact ⟨e3, f3.take _⟩)
            intro _
            rw [val_append, e2, hvt]
            by_cases hh1 : hi.length = 1
            · have h'' := (h' (by omega)).resolve_left (by omega)
              have : (r1 ++ r2.take (hi.length - 1)).length - 1 = l1.length - 1 := by
                simp [hh1, e2]
              rw [this]
              rw [hh1] at g7
              simp at g7
              rw [g7]
              rw [val_append, e2, g7] at hval
              simp at hval ⊢
              omega
            · have : (r1 ++ r2.take (hi.length - 1)).length - 1
                  = l1.length + (hi.length - 1 - 1) := by simp; omega
              rw [this, pow_add]
              have h3 : B ^ (hi.length - 1 - 1) ≤ val B r2 := by
                have e4 : B ^ (hi.length - 1) = B * B ^ (hi.length - 1 - 1) := by
                  rw [← pow_succ']; congr 1; omega
                have h5 : 0 < B ^ (hi.length - 1 - 1) := Nat.pow_pos hBpos
                have h6 : 2 * B ^ (hi.length - 1 - 1) ≤ B * B ^ (hi.length - 1 - 1) :=
                  Nat.mul_le_mul_right _ (by have := L.base; omega)
                omega
              have := Nat.mul_le_mul_left (B ^ l1.length) h3
              omega
        · rw [hrun, g3]
          simp only [Except.map]
          congr 3; omega

theorem sub_common (l0 l1 : List Nat) (r1 : List Nat) (c1 : Bool)
    (e5 : (val B r1 : ℤ) + (-1) * (B : ℤ) ^ l1.length * cvB c1
        = 1 * val B (l0.take l1.length) + (-1) * val B l1 + (-1) * cvB false) :
    val B r1 + val B l1 = val B (l0.take l1.length) + B ^ l1.length * c1.toNat := by
  have : (val B r1 : ℤ) + val B l1 = val B (l0.take l1.length) + B ^ l1.length * c1.toNat := by
    simp only [cvB, Bool.toNat_false] at e5; push_cast at e5; linarith
  exact_mod_cast this

theorem subAssignBig_short {l0 l1 : List Nat} (h : l0.length < l1.length) :
    subAssignBig D l0 l1 = .ok (l0, .error .underflow) := by
  unfold subAssignBig; simp [h]

theorem subAssignBig_spec (L : Lawful D B) (l0 l1 : List Nat) (h0 : Digs B l0) (h1 : Digs B l1)
    (hlen : l1.length ≤ l0.length) :
    ∃ r res, subAssignBig D l0 l1 = .ok (r, res) ∧ SubPost B l0 l1 r res := by
  obtain ⟨r1, c1, e1, e2, e3, -, e5⟩ := zipDigits_spec (subCarry_step L) (l0.take l1.length) l1
    (l0.drop l1.length) false (by simp [hlen]) (h0.take _) h1 trivial
  rw [List.take_append_drop] at e1
  have hlt : (l0.take l1.length).length = l1.length := by simp [hlen]
  rw [hlt] at e2 e5
  obtain ⟨r, res, f1, f2⟩ := sub_finish L l0 l1 r1 (l0.drop l1.length) [] c1 hlen h0 rfl e2 e3
    (sub_common l0 l1 r1 c1 e5)
  refine ⟨r, res, ?_, f1⟩
  unfold subAssignBig
  simp only [List.append_nil] at f2
  rw [← f2]
  simp only [if_neg (show ¬ l0.length < l1.length by omega), e1, ok_bind]
  all_goals rfl

theorem subBigInto_spec (L : Lawful D B) (l0 l1 diff : List Nat) (h0 : Digs B l0) (h1 : Digs B l1)
    (hlen : l1.length ≤ l0.length) (hd : l0.length ≤ diff.length) :
    ∃ r res, subBigInto D l0 l1 diff = .ok (r ++ diff.drop l0.length, res) ∧
      SubPost B l0 l1 r res := by
  obtain ⟨p, s, q, hdiff, hp, hs, -, -, hq⟩ := split3 diff hlen hd
  obtain ⟨r1, c1, e1, e2, e3, -, e5⟩ := zipInto_spec (subCarry_step L) (l0.take l1.length)
    l1 p (l0.drop l1.length) [] (s ++ q) false
    (by simp [hlen]) (by simp; omega) (Or.inr rfl) (h0.take _) h1 trivial
  rw [List.take_append_drop, List.append_nil, ← List.append_assoc, ← hdiff] at e1
  have hlt : (l0.take l1.length).length = l1.length := by simp [hlen]
  rw [hlt] at e2 e5
  obtain ⟨r, res, f1, f2⟩ := sub_finish L l0 l1 r1 (l0.drop l1.length) q c1 hlen h0 rfl e2 e3
    (sub_common l0 l1 r1 c1 e5)
  refine ⟨r, res, ?_, f1⟩
  rw [← hq, ← f2]
  unfold subBigInto
  simp only [if_neg (show ¬ l0.length < l1.length by omega),
    if_neg (show ¬ diff.length < l0.length by omega), e1, ok_bind]
  rw [← List.append_assoc, copyInto_append e2 (by omega) (by simp; omega), ok_bind]
  all_goals rfl

theorem rsubAssignBig_spec (L : Lawful D B) (l0 l1 : List Nat) (h0 : Digs B l0) (h1 : Digs B l1)
    (hlen : l0.length = l1.length) :
    ∃ r res, rsubAssignBig D l0 l1 = .ok (r, res) ∧ SubPost B l1 l0 r res := by
  obtain ⟨r1, c1, e1, e2, e3, -, e5⟩ := zipDigits_spec (rsubCarry_step L) l0 l1
    [] false hlen h0 h1 trivial
  simp only [List.append_nil] at e1
  have e6 : val B r1 + val B l0 = val B l1 + B ^ l0.length * c1.toNat := by
    have : (val B r1 : ℤ) + val B l0 = val B l1 + B ^ l0.length * c1.toNat := by
      simp only [cvB, Bool.toNat_false] at e5; push_cast at e5; linarith
    exact_mod_cast this
  have hlt := val_lt e3
  unfold rsubAssignBig rsubGo
  have hassert : assertR (decide (l1.length = l0.length)) = .ok () := by simp [assertR, hlen]
  simp only [hassert, ok_bind, e1]
  cases c1 with
  | true =>
    refine ⟨r1, .error .underflow, rfl, ⟨by omega, e3, Or.inl ⟨?_, rfl, ?_⟩⟩⟩
    · rw [e2] at hlt; simp at e6; omega
    · rw [← hlen]; simp at e6; omega
  | false =>
    obtain ⟨nd, d1, d2, d3, d4⟩ := dropLeadingZeros_spec r1 l0.length (by omega)
    rw [List.take_of_length_le (by omega)] at d3
    simp at e6
    refine ⟨r1, .ok nd, ?_, ⟨by omega, e3, Or.inr ⟨by omega, nd, rfl, by omega, by omega, ?_,
      fun _ => d4, by omega⟩⟩⟩
    · simp [d1]
    · rw [← hlen]; exact d3

/-! ## Shifts within digits -/

theorem shlWithin_spec (L : Lawful D B) (l : List Nat) (s c : Nat) (hl : Digs B l) (hs : 2 ^ s < B)
    (hc : c < 2 ^ s) :
    ∃ r c', shlWithin D l s c = .ok (r, c') ∧ r.length = l.length ∧ Digs B r ∧ c' < 2 ^ s ∧
      val B r + B ^ l.length * c' = val B l * 2 ^ s + c := by
  unfold shlWithin
  by_cases h0 : s = 0
  · subst h0
    have : c = 0 := by simpa using hc
    exact ⟨l, 0, by simp, rfl, hl, by simp, by simp [this]⟩
  · rw [if_neg h0]
    have hstep : ∀ a c, a < B → c < 2 ^ s → ∃ d c', D.shlCarry a s c = .ok (d, c') ∧ d < B ∧
        c' < 2 ^ s ∧ (d : ℤ) + 1 * B * ((c' : Nat) : ℤ) = (2 : ℤ) ^ s * a + 1 * ((c : Nat) : ℤ) := by
      intro a c ha hc
      refine ⟨_, _, L.shlCarry a s c ha (by omega) hs hc, Nat.mod_lt _ L.pos, ?_, ?_⟩
      · rw [Nat.div_lt_iff_lt_mul L.pos]
        have := carry_mul_add_lt hc ha
        rw [Nat.mul_comm (2 ^ s)]; exact this
      · rw [div_add_mod_cast]; push_cast; ring
    obtain ⟨r, c', h1, h2, h3, h4, h5⟩ :=
      foldDigits_spec (cv := fun c : Nat => (c : ℤ)) hstep l c hl hc
    refine ⟨r, c', h1, h2, h3, h4, ?_⟩
    have : (val B r : ℤ) + B ^ l.length * c' = val B l * 2 ^ s + c := by linarith
    exact_mod_cast this

theorem shrWithin_spec (L : Lawful D B) (l : List Nat) (s c : Nat) (hl : Digs B l) (hs : 2 ^ s < B)
    (hc : c < 2 ^ s) :
    ∃ r nd c', shrWithin D l s c = .ok (r, nd, c') ∧ r.length = l.length ∧ Digs B r ∧ c' < 2 ^ s ∧
      val B r * 2 ^ s + c' = c * B ^ l.length + val B l ∧ nd ≤ l.length ∧
      r = r.take nd ++ List.replicate (l.length - nd) 0 ∧ Canon (r.take nd) := by
  unfold shrWithin
  by_cases h0 : s = 0
  · subst h0
    have : c = 0 := by simpa using hc
    obtain ⟨nd, d1, d2, d3, d4⟩ := dropLeadingZeros_spec l l.length (le_refl _)
    rw [List.take_length] at d3
    exact ⟨l, nd, 0, by simp [d1], rfl, hl, by simp, by simp [this], d2, d3, d4⟩
  · rw [if_neg h0]
    have hstep : ∀ a c, a < B → c < 2 ^ s → ∃ d c', D.shrCarry a s c = .ok (d, c') ∧ d < B ∧
        c' < 2 ^ s ∧ (d : ℤ) * 2 ^ s + ((c' : Nat) : ℤ) = ((c : Nat) : ℤ) * B + a := by
      intro a c ha hc
      refine ⟨_, _, L.shrCarry a s c ha (by omega) hs hc, ?_, Nat.mod_lt _ (Nat.two_pow_pos _), ?_⟩
      · exact div_carry_lt a (2 ^ s) c ha hc
      · have := Nat.div_add_mod (c * B + a) (2 ^ s)
        have h2 : (c * B + a) / 2 ^ s * 2 ^ s + (c * B + a) % 2 ^ s = c * B + a := by
          rw [Nat.mul_comm]; exact this
        exact_mod_cast h2
    obtain ⟨r, c', h1, h2, h3, h4, h5⟩ :=
      foldDigitsRev_spec (cv := fun c : Nat => (c : ℤ)) hstep l c hl hc
    obtain ⟨nd, d1, d2, d3, d4⟩ := dropLeadingZeros_spec r r.length (le_refl _)
    rw [List.take_length] at d3
    refine ⟨r, nd, c', by simp [h1, d1], h2, h3, h4, ?_, by omega, ?_, d4⟩
    · exact_mod_cast h5
    · rw [← h2]; exact d3

end Babs
