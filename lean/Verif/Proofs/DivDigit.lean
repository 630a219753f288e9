import Verif.Model.UBig
import Verif.Proofs.MulDigit
import Mathlib.Tactic.Zify
import Mathlib.Tactic.LinearCombination

/-!
# Helper lemmas: quotient digits

The estimate of a quotient digit from two digits of the dividend and one of the divisor, and the
arithmetic with quotient digits that exceed the base, which occurs for decimal digits when the
leading digits of remainder and divisor are equal.
-/

namespace Babs

variable {D : DigitOps} {B : Nat}

/-- The laws for decimal digits that hold for a quotient digit of up to `B + 1`.  For binary digits,
such a quotient digit is cut off. -/
structure TieLaw (D : DigitOps) (B : Nat) : Prop where
  divTie : ∀ a f, a < B → f < B → B ≤ 2 * f → D.divCarry a f f = .ok ((f * B + a) / f, (f * B + a) % f)
  mulTie : ∀ a q c, a < B → q ≤ B + 1 → c ≤ B →
    D.mulCarry a q c = .ok ((a * q + c) % B, (a * q + c) / B)
  decTie : ∀ d, 0 < d → D.dec d = .ok (d - 1, false)

theorem tie_quot_le {a f : Nat} (ha : a < B) (hf : B ≤ 2 * f) : (f * B + a) / f ≤ B + 1 := by
  rw [Nat.div_le_iff_le_mul_add_pred (by omega)]
  have : f * (B + 1) = f * B + f := by ring
  omega

theorem dec_tieLaw (w : Width) (dbg : Bool) : TieLaw ((DType.dec w).ops dbg) (DType.dec w).radix := by
  have gen : ∀ {w rx : Nat}, 100 ≤ rx → rx + 1 < 2 ^ w → TieLaw (decOps dbg w rx) rx := by
    intro w rx h1 h2
    refine ⟨?_, dec_mulCarry h2, fun d hd => dec_dec_wide d hd⟩
    intro a f ha hf h
    exact dec_divCarry h2 a f f ha hf (le_refl _) (by omega) (tie_quot_le ha h)
  cases w with
  | w8 => exact gen (by norm_num) (by norm_num)
  | w16 => exact gen (by norm_num) (by norm_num)
  | w32 => exact gen (by norm_num) (by norm_num)
  | w64 =>
    have hw1 : 10000000000000000000 + 1 < 2 ^ 64 := by norm_num
    refine ⟨?_, ?_, fun d hd => dec_dec_wide d hd⟩
    · intro a f ha hf h
      exact dec_divCarry hw1 a f f ha hf (le_refl _)
        (by simp only [DType.radix, Width.decRadix] at h; omega) (tie_quot_le ha h)
    · intro a q c ha hq hc
      simp only [DType.radix, Width.decRadix] at ha hq hc ⊢
      have h1 : a * q ≤ (10000000000000000000 - 1) * (10000000000000000000 + 1) :=
        Nat.mul_le_mul (by omega) hq
      simp only [DType.ops, dec64Ops, Dec64.mulCarry]
      rw [mulW_ok (by norm_num; omega), ok_bind, addW_ok (by norm_num; omega), ok_bind,
        divRemBase_ok (by omega), ok_bind]
      rfl

/-- A quotient digit the digit operations can work with. -/
def QOk (D : DigitOps) (B q : Nat) : Prop := q < B ∨ (TieLaw D B ∧ q ≤ B + 1)

/-- The estimate. -/
theorem divCarry_est (L : Lawful D B) {a f c : Nat} (ha : a < B) (hf : f < B) (hB : B ≤ 2 * f)
    (hc : c < f ∨ (c = f ∧ TieLaw D B)) :
    ∃ r, D.divCarry a f c = .ok ((c * B + a) / f, r) ∧ QOk D B ((c * B + a) / f) := by
  rcases hc with h | ⟨rfl, T⟩
  · exact ⟨_, L.divCarry a f c ha hf h, Or.inl (div_carry_lt a f c ha h)⟩
  · exact ⟨_, T.divTie a c ha hf hB, Or.inr ⟨T, tie_quot_le ha hB⟩⟩

/-- Knuth's bound: the estimate is at most two too large, and never too small.  The dividend is
`(c * B + a) * P + n`, the divisor `f * P + y`. -/
theorem knuth_est {a f c P n y : Nat} (ha : a < B) (hB : B ≤ 2 * f)
    (hn : n < P) (hy : y < P) (hlt : (c * B + a) * P + n < (f * P + y) * B) :
    ((c * B + a) * P + n) / (f * P + y) ≤ (c * B + a) / f ∧
    (c * B + a) / f ≤ ((c * B + a) * P + n) / (f * P + y) + 2 := by
  have hP : 0 < P := by omega
  have hB0 : 0 < B := by omega
  have hf0 : 0 < f := by omega
  have hY : 0 < f * P + y := by have := Nat.mul_pos hf0 hP; omega
  have hcf : c ≤ f := by
    by_contra h
    have h1 : (f + 1) * B ≤ c * B + a := by
      have : (f + 1) * B ≤ c * B := Nat.mul_le_mul_right _ (by omega)
      omega
    have h2 : ((f + 1) * B) * P ≤ (c * B + a) * P := Nat.mul_le_mul_right _ h1
    have h3 : (f * P + y) * B < ((f + 1) * B) * P := by
      have : (f * P + y) * B < (f * P + P) * B := Nat.mul_lt_mul_of_pos_right (by omega) hB0
      calc _ < _ := this
        _ = _ := by ring
    omega
  generalize hN2 : c * B + a = N2 at *
  have hq1 := Nat.div_mul_le_self N2 f
  have hq2 := Nat.lt_div_mul_add hf0 (a := N2)
  generalize hqh : N2 / f = qh at *
  constructor
  · rw [← Nat.lt_succ_iff, Nat.div_lt_iff_lt_mul hY]
    have h1 : N2 + 1 ≤ (qh + 1) * f := by
      have : (qh + 1) * f = qh * f + f := by ring
      omega
    have h2 : (N2 + 1) * P ≤ (qh + 1) * f * P := Nat.mul_le_mul_right _ h1
    have h3 : (qh + 1) * f * P + (qh + 1) * y = (qh + 1) * (f * P + y) := by ring
    have h4 : (N2 + 1) * P = N2 * P + P := by ring
    simp only [Nat.succ_eq_add_one]
    omega
  · have hqle : qh ≤ B + 1 := by
      rw [← hqh, ← hN2, Nat.div_le_iff_le_mul_add_pred hf0]
      have h1 : c * B ≤ f * B := Nat.mul_le_mul_right _ hcf
      have : f * (B + 1) = f * B + f := by ring
      omega
    rw [← Nat.sub_le_iff_le_add, Nat.le_div_iff_mul_le hY]
    have h1 : qh * f * P ≤ N2 * P := Nat.mul_le_mul_right _ hq1
    rcases Nat.lt_or_ge qh 2 with h | h
    · have : qh - 2 = 0 := by omega
      rw [this]; omega
    obtain ⟨k, rfl⟩ : ∃ k, qh = k + 2 := ⟨qh - 2, by omega⟩
    rw [Nat.add_sub_cancel]
    -- k * Y ≤ (k + 2) * f * P
    have h2 : k * y ≤ k * P := Nat.mul_le_mul_left _ hy.le
    have h3 : k * P ≤ 2 * f * P := Nat.mul_le_mul_right _ (by omega)
    have h4 : k * (f * P + y) = k * f * P + k * y := by ring
    have h5 : (k + 2) * f * P = k * f * P + 2 * f * P := by ring
    omega

/-! ## Numbers whose top digit may be too large -/

theorem ltBig_top {l1 l2 : List Nat} {a b : Nat} (h1 : Digs B l1) (h2 : Digs B l2)
    (hl : l1.length = l2.length) :
    ltBig (l1 ++ [a]) (l2 ++ [b]) = true ↔
      val B l1 + B ^ l1.length * a < val B l2 + B ^ l1.length * b := by
  have hv1 := val_lt h1
  have hv2 := val_lt h2
  rw [← hl] at hv2
  have hmul : ∀ {x y : Nat}, x < y → B ^ l1.length * x + B ^ l1.length ≤ B ^ l1.length * y := by
    intro x y h
    calc _ = B ^ l1.length * (x + 1) := by ring
      _ ≤ _ := Nat.mul_le_mul_left _ h
  have hc : cmpBig (l1 ++ [a]) (l2 ++ [b]) =
      if a < b then .lt else if a = b then compare (val B l1) (val B l2) else .gt := by
    have := lexCmp_rev h1.reverse h2.reverse (by simpa using hl)
    rw [List.reverse_reverse, List.reverse_reverse] at this
    unfold cmpBig
    simp only [List.length_append, List.length_singleton, hl, List.reverse_append,
      List.reverse_cons, List.reverse_nil, List.nil_append, List.singleton_append, lexCmp, this]
    rw [compare_nat_eq a b]
    simp only [Nat.compare_eq_eq.mpr]
    split_ifs <;> rfl
  unfold ltBig
  rw [hc]
  rcases Nat.lt_trichotomy a b with h | h | h
  · have := hmul h
    rw [if_pos h]
    simp only [beq_self_eq_true, true_iff]
    omega
  · subst h
    rw [if_neg (lt_irrefl _), if_pos rfl, beq_iff_eq, Nat.compare_eq_lt]
    omega
  · have := hmul h
    rw [if_neg (by omega), if_neg (by omega)]
    constructor
    · intro h; cases h
    · intro h; omega

/-- Multiply by a quotient digit. -/
theorem mulCarry_q (L : Lawful D B) {a q c : Nat} (ha : a < B) (hq : QOk D B q) (hc : c < q ∨ c = 0) :
    ∃ d c', D.mulCarry a q c = .ok (d, c') ∧ d < B ∧ (c' < q ∨ c' = 0) ∧ d + B * c' = a * q + c := by
  have hB := L.pos
  have hcar : (a * q + c) / B < q ∨ (a * q + c) / B = 0 := by
    rcases Nat.eq_zero_or_pos q with h | h
    · subst h
      right
      have : c = 0 := by omega
      subst this; simp
    · left
      rw [Nat.div_lt_iff_lt_mul hB]
      have h1 : (a + 1) * q ≤ B * q := Nat.mul_le_mul_right _ ha
      have h2 : (a + 1) * q = a * q + q := by ring
      have h3 : q * B = B * q := Nat.mul_comm _ _
      omega
  refine ⟨_, _, ?_, Nat.mod_lt _ hB, hcar, Nat.mod_add_div _ _⟩
  rcases hq with h | ⟨T, h⟩
  · exact L.mulCarry a q c ha h (by omega)
  · exact T.mulTie a q c ha h (by omega)

theorem mulDigitGo_q (L : Lawful D B) {q : Nat} (hq : QOk D B q) (l p rest : List Nat) (c : Nat)
    (hl : Digs B l) (hp : p.length = l.length) (hc : c < q ∨ c = 0) :
    ∃ r c', mulDigitGo D q l (p ++ rest) c = .ok (r ++ rest, c') ∧ r.length = l.length ∧
      Digs B r ∧ (c' < q ∨ c' = 0) ∧ val B r + B ^ l.length * c' = val B l * q + c := by
  induction l generalizing p c with
  | nil =>
    have : p = [] := List.eq_nil_of_length_eq_zero (by simpa using hp)
    subst this
    exact ⟨[], c, by simp [mulDigitGo], rfl, digs_nil B, hc, by simp⟩
  | cons a l ih =>
    obtain ⟨x, p, rfl⟩ : ∃ x p', p = x :: p' := by
      cases p with
      | nil => simp at hp
      | cons x p => exact ⟨x, p, rfl⟩
    rw [digs_cons] at hl
    obtain ⟨d, c1, e1, e2, e3, e4⟩ := mulCarry_q L hl.1 hq hc
    obtain ⟨r, c2, f1, f2, f3, f4, f5⟩ := ih p c1 hl.2 (by simpa using hp) e3
    refine ⟨d :: r, c2, ?_, by simp [f2], by simp [e2, f3], f4, ?_⟩
    · rw [List.cons_append, mulDigitGo, e1, ok_bind]
      simp only []
      rw [f1]; rfl
    · simp only [val_cons, List.length_cons]
      calc d + B * val B r + B ^ (l.length + 1) * c2
          = d + B * (val B r + B ^ l.length * c2) := by ring
        _ = (d + B * c1) + B * (val B l * q) := by rw [f5]; ring
        _ = _ := by rw [e4]; ring

/-- `mul_digit_into` with a quotient digit: all digits but the top one are proper digits. -/
theorem mulDigitInto_q {dbg : Bool} (L : Lawful D B) {q : Nat} (hq : QOk D B q) (l p : List Nat)
    (hl : Digs B l) (hp : p.length = l.length + 1) :
    ∃ r top, mulDigitInto D dbg l q p = .ok (r ++ [top]) ∧ r.length = l.length ∧ Digs B r ∧
      (top < q ∨ top = 0) ∧ val B r + B ^ l.length * top = val B l * q := by
  obtain ⟨r, c, e1, e2, e3, e4, e5⟩ := mulDigitGo_q L hq l (p.take l.length) (p.drop l.length) 0 hl
    (by simp; omega) (Or.inr rfl)
  rw [List.take_append_drop] at e1
  obtain ⟨x, hx⟩ : ∃ x, p.drop l.length = [x] := by
    have : (p.drop l.length).length = 1 := by simp; omega
    exact List.length_eq_one_iff.mp this
  rw [hx] at e1
  refine ⟨r, c, ?_, e2, e3, e4, by simpa using e5⟩
  unfold mulDigitInto
  have hd : debugAssertR dbg (decide (l.length + 1 ≤ p.length)) = .ok () := by
    simp [debugAssertR, hp]
  rw [hd, ok_bind, e1, ok_bind]
  simp only []
  rw [setR_ok (by simp; omega), ← e2]
  simp

/-- Subtract the divisor from a product with a quotient digit. -/
theorem subTop (L : Lawful D B) {r den : List Nat} {top q : Nat} (hr : Digs B r) (hd : Digs B den)
    (hl : r.length = den.length) (hq : QOk D B q) (htop : top < q ∨ top = 0)
    (hle : val B den ≤ val B r + B ^ den.length * top) :
    ∃ r' top' res, subAssignBig D (r ++ [top]) den = .ok (r' ++ [top'], res) ∧
      r'.length = den.length ∧ Digs B r' ∧ top' ≤ top ∧
      val B r' + B ^ den.length * top' + val B den = val B r + B ^ den.length * top := by
  obtain ⟨r1, c1, e1, e2, e3, -, e5⟩ := zipDigits_spec (subCarry_step L) r den [top] false hl hr hd
    trivial
  have e6 : val B r1 + val B den = val B r + B ^ den.length * c1.toNat := by
    rw [hl] at e5
    have : (val B r1 : ℤ) + val B den = val B r + B ^ den.length * c1.toNat := by
      simp only [cvB, Bool.toNat_false] at e5; push_cast at e5; linarith
    exact_mod_cast this
  unfold subAssignBig
  have hnl : ¬ (r ++ [top]).length < den.length := by simp; omega
  simp only [hnl, if_false]
  rw [e1, ok_bind]
  simp only []
  cases c1 with
  | false =>
    obtain ⟨nd, h1, -⟩ := dropLeadingZeros_spec (r1 ++ [top]) (r ++ [top]).length (by simp; omega)
    refine ⟨r1, top, .ok nd, ?_, by omega, e3, le_refl _, ?_⟩
    · simp only [Bool.false_eq_true, if_false]
      rw [h1]; rfl
    · simp at e6; omega
  | true =>
    simp only [Bool.toNat_true, Nat.mul_one] at e6
    have htop0 : 0 < top := by
      by_contra h
      have h0 : top = 0 := by omega
      subst h0
      have := val_lt e3
      rw [e2, hl] at this
      simp at hle
      omega
    have hdec : D.dec top = .ok (top - 1, false) := by
      rcases hq with h | ⟨T, h⟩
      · rw [L.dec top (by omega)]
        congr 2
        · rw [show top + (B - 1) = (top - 1) + B by omega, Nat.add_mod_right,
            Nat.mod_eq_of_lt (by omega)]
        · simp; omega
      · exact T.decTie top htop0
    have hrun : decAssign D [top] = .ok ([top - 1], if top - 1 = 0 then .ok 0 else .ok 1) := by
      unfold decAssign decGo
      rw [hdec, ok_bind]
      simp only [Bool.false_eq_true, if_false, List.length_singleton, Nat.sub_self]
      split_ifs <;> rfl
    have hos := onSlice_append (p := r1) (s := [top]) (q := []) (a := den.length)
      (b := (r ++ [top]).length) (f := decAssign D) (by omega) (by simp; omega)
    rw [List.append_nil] at hos
    have hv : val B r1 + B ^ den.length * (top - 1) + val B den = val B r + B ^ den.length * top := by
      obtain ⟨t, rfl⟩ : ∃ t, top = t + 1 := ⟨top - 1, by omega⟩
      have : B ^ den.length * (t + 1) = B ^ den.length * t + B ^ den.length := by ring
      rw [Nat.add_sub_cancel]
      omega
    simp only [if_true]
    rw [hos, hrun]
    simp only [ok_bind, pure_eq_ok, List.append_nil]
    split_ifs
    · exact ⟨r1, top - 1, _, rfl, by omega, e3, by omega, hv⟩
    · exact ⟨r1, top - 1, _, rfl, by omega, e3, by omega, hv⟩

end Babs
