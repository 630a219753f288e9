import Verif.Model.UBigMul
import Verif.Proofs.UBigAdd

/-!
# Helper lemmas: multiplication by one or two digits, division by three
-/

namespace Babs

variable {D : DigitOps} {B : Nat}

/-! ## Multiplication by a digit -/

theorem mulCarry_step (L : Lawful D B) {fac : Nat} (hf : fac < B) (a c : Nat) (ha : a < B)
    (hc : c < B) : ∃ d c', D.mulCarry a fac c = .ok (d, c') ∧ d < B ∧ c' < B ∧
      d + B * c' = a * fac + c := by
  have h := mul_pred_lt ha hf
  refine ⟨_, _, L.mulCarry a fac c ha hf hc, Nat.mod_lt _ L.pos, ?_, Nat.mod_add_div _ _⟩
  rw [Nat.div_lt_iff_lt_mul L.pos]; omega

theorem mulAddAssignDigit_spec (L : Lawful D B) (l : List Nat) (fac off : Nat) (hl : Digs B l)
    (hf : fac < B) (ho : off < B) :
    ∃ r c, mulAddAssignDigit D l fac off = .ok (r, c) ∧ r.length = l.length ∧ Digs B r ∧ c < B ∧
      val B r + B ^ l.length * c = val B l * fac + off := by
  obtain ⟨r, c, h1, h2, h3, h4, h5⟩ := foldDigits_spec (B := B)
    (f := fun d c => D.mulCarry d fac c) (P := fun c => c < B) (cv := fun c => (c : ℤ))
    (e0 := fac) (e := 1) (by
      intro a c ha hc
      obtain ⟨d, c', e1, e2, e3, e4⟩ := mulCarry_step L hf a c ha hc
      refine ⟨d, c', e1, e2, e3, ?_⟩
      zify at e4
      linarith) l off hl ho
  refine ⟨r, c, h1, h2, h3, h4, ?_⟩
  zify
  linarith

theorem doubleCarryAssign_spec (L : Lawful D B) (l : List Nat) (c0 : Bool) (hl : Digs B l) :
    ∃ r c, doubleCarryAssign D l c0 = .ok (r, c) ∧ r.length = l.length ∧ Digs B r ∧
      val B r + B ^ l.length * c.toNat = 2 * val B l + c0.toNat := by
  obtain ⟨r, c, h1, h2, h3, h4, h5⟩ := foldDigits_spec (B := B)
    (f := D.doubleCarry) (P := fun _ => True) (cv := cvB)
    (e0 := 2) (e := 1) (by
      intro a c ha _
      refine ⟨_, _, L.doubleCarry a c ha, Nat.mod_lt _ L.pos, trivial, ?_⟩
      have hc := toNat_le_one c
      simp only [cvB]
      by_cases h : B ≤ 2 * a + c.toNat
      · simp only [h, decide_true, Bool.toNat_true]
        rw [Nat.mod_eq_sub_mod h, Nat.mod_eq_of_lt (by omega)]; omega
      · simp only [h, decide_false, Bool.toNat_false]
        rw [Nat.mod_eq_of_lt (by omega)]; omega) l c0 hl trivial
  refine ⟨r, c, h1, h2, h3, ?_⟩
  zify
  simp only [cvB] at h5
  linarith

theorem mulDigitGo_spec (L : Lawful D B) (fac : Nat) (hf : fac < B) (l p rest : List Nat) (c : Nat)
    (hl : Digs B l) (hp : p.length = l.length) (hc : c < B) :
    ∃ r c', mulDigitGo D fac l (p ++ rest) c = .ok (r ++ rest, c') ∧ r.length = l.length ∧
      Digs B r ∧ c' < B ∧ val B r + B ^ l.length * c' = val B l * fac + c := by
  induction l generalizing p c with
  | nil =>
    have : p = [] := List.eq_nil_of_length_eq_zero (by simpa using hp)
    subst this
    exact ⟨[], c, by cases rest <;> simp [mulDigitGo], rfl, digs_nil B, hc, by simp⟩
  | cons a as ih =>
    cases p with
    | nil => simp at hp
    | cons q qs =>
      rw [digs_cons] at hl
      obtain ⟨d, c1, e1, e2, e3, e4⟩ := mulCarry_step L hf a c hl.1 hc
      obtain ⟨r, c2, f1, f2, f3, f4, f5⟩ := ih qs c1 hl.2 (by simpa using hp) e3
      refine ⟨d :: r, c2, by simp [mulDigitGo, e1, f1], by simp [f2], by simp [e2, f3], f4, ?_⟩
      simp only [val_cons, List.length_cons, pow_succ]
      zify at e4 f5 ⊢
      linear_combination e4 + (B : ℤ) * f5

theorem mulDigitInto_spec {dbg : Bool} (L : Lawful D B) (l : List Nat) (fac : Nat)
    (p : List Nat) (hl : Digs B l) (hf : fac < B) (hp : l.length + 1 ≤ p.length) :
    ∃ r, mulDigitInto D dbg l fac p = .ok (r ++ p.drop (l.length + 1)) ∧
      r.length = l.length + 1 ∧ Digs B r ∧ val B r = val B l * fac := by
  unfold mulDigitInto
  have h0 := L.pos
  obtain ⟨r, c, e1, e2, e3, e4, e5⟩ := mulDigitGo_spec L fac hf l (p.take l.length)
    (p.drop l.length) 0 hl (by simp; omega) h0
  rw [List.take_append_drop] at e1
  have hd : debugAssertR dbg (decide (l.length + 1 ≤ p.length)) = .ok () := by
    simp [debugAssertR, hp]
  rw [hd, ok_bind, e1, ok_bind]
  simp only []
  rw [setR_ok (by simp; omega)]
  refine ⟨r ++ [c], ?_, by simp [e2], by simp [e3, e4], ?_⟩
  · have hne : p.drop l.length = p[l.length] :: p.drop (l.length + 1) := by
      rw [List.drop_eq_getElem_cons]
    rw [List.set_append_right _ _ (by omega), e2, Nat.sub_self]
    rw [hne, List.set_cons_zero, List.append_assoc]
    rfl
  · rw [val_snoc, e2]; simpa using e5

theorem mulAddDigit_spec (L : Lawful D B) (x : List Nat) (fac off : Nat) (hx : Digs B x)
    (hf : fac < B) (ho : off < B) :
    ∃ z, mulAddDigit D x fac off = .ok z ∧ Digs B z ∧ val B z = val B x * fac + off ∧
      (Canon x → Canon z) := by
  unfold mulAddDigit
  by_cases h0 : fac = 0
  · subst h0
    simp only [if_true, pure_eq_ok, ok_bind]
    refine ⟨_, rfl, ?_, ?_, ?_⟩
    · split
      · exact digs_nil B
      · simp [ho]
    · split
      · simp [*]
      · simp
    · intro _
      split
      · exact canon_nil
      · simpa [canon_singleton] using ‹_›
  · obtain ⟨r, c, h1, h2, h3, h4, h5⟩ := mulAddAssignDigit_spec L x fac off hx hf ho
    rw [if_neg h0, h1, ok_bind]
    by_cases hc : c = 0
    · subst hc
      refine ⟨r, rfl, h3, by simpa using h5, fun cx => ?_⟩
      apply canon_of_max (x := x) (y := []) L.pos h3 cx canon_nil _ (by simp [h2])
      have : val B x * 1 ≤ val B x * fac := Nat.mul_le_mul_left _ (by omega)
      simp at h5 ⊢; omega
    · refine ⟨r ++ [c], by simp [hc], by simp [h3, h4], ?_, fun _ => canon_snoc.mpr hc⟩
      rw [val_snoc, h2]; exact h5

/-! ## Multiplication by a pair of digits -/

theorem inc_if_step (L : Lawful D B) (a : Nat) (b : Bool) (ha : a < B) :
    ∃ d c, (if b then D.inc a else pure (a, b)) = (.ok (d, c) : R (Nat × Bool)) ∧ d < B ∧
      d + B * c.toNat = a + b.toNat := by
  cases b with
  | false => exact ⟨a, false, by simp, ha, by simp⟩
  | true =>
    refine ⟨_, _, by simp only [if_true]; exact L.inc a ha, Nat.mod_lt _ L.pos, ?_⟩
    by_cases h : B ≤ a + 1
    · have : a + 1 = B := by omega
      simp [this]
    · simp [h, Nat.mod_eq_of_lt (show a + 1 < B by omega)]

theorem addCarry_step' (L : Lawful D B) (a b : Nat) (ha : a < B) (hb : b < B) :
    ∃ d c', D.addCarry a b false = .ok (d, c') ∧ d < B ∧ d + B * c'.toNat = a + b := by
  obtain ⟨d, c, h1, h2, -, h4⟩ := addCarry_step L a b false ha hb trivial
  refine ⟨d, c, h1, h2, ?_⟩
  simp [cvB] at h4
  exact_mod_cast h4

/-- The continuation of a `do` block is moved into the branches of an `if`. -/
theorem ite_bind_eq {α β : Type} {c : Prop} [Decidable c] {x y : R α} {a : α}
    (h : (if c then x else y) = .ok a) (k : α → R β) :
    (if c then x >>= k else y >>= k) = k a := by
  split_ifs at * <;> simp [h]

/-- The loop of `mul_pair_add_assign_digit`: `addOne` has the weight of the digit after `carry0`. -/
theorem mulPairGo_spec (L : Lawful D B) (fl fh : Nat) (hl : fl < B) (hh : fh < B) (ds : List Nat)
    (prev c0 : Nat) (ao : Bool) (hds : Digs B ds) (hp : prev < B) (hc : c0 < B)
    (hw : c0 + B * ao.toNat ≤ 2 * B - 2) :
    ∃ r p c1 bo, mulPairGo D fl fh ds prev c0 ao = .ok (r, p, c1, bo) ∧ r.length = ds.length ∧
      Digs B r ∧ p < B ∧ c1 < B ∧ c1 + B * bo.toNat ≤ 2 * B - 2 ∧
      val B r + B ^ ds.length * (c1 + B * bo.toNat + fh * p)
        = fl * val B ds + fh * (prev + B * val B ds) + (c0 + B * ao.toNat) := by
  have hB := L.base
  induction ds generalizing prev c0 ao with
  | nil =>
    refine ⟨[], prev, c0, ao, rfl, rfl, hds, hp, hc, hw, ?_⟩
    simp; ring
  | cons d ds ih =>
    rw [digs_cons] at hds
    obtain ⟨p1, k1, e1, e2, e3, e4⟩ := mulCarry_step L hh prev c0 hp hc
    obtain ⟨k2, b2, f1, f2, f3⟩ := inc_if_step L k1 ao e3
    obtain ⟨d', k3, g1, g2, g3, g4⟩ := mulCarry_step L hl d p1 hds.1 e2
    obtain ⟨k4, b4, i1, i2, i3⟩ := addCarry_step' L k2 k3 f2 g3
    have hprod : d * fl ≤ (B - 1) * (B - 1) := Nat.mul_le_mul (by omega) (by omega)
    have hprod2 : prev * fh ≤ (B - 1) * (B - 1) := Nat.mul_le_mul (by omega) (by omega)
    -- the weight of the carries stays small
    have hW : d' + B * (k4 + B * b4.toNat + B * b2.toNat)
        = d * fl + prev * fh + (c0 + B * ao.toNat) := by
      have : B * (k4 + B * b4.toNat + B * b2.toNat) = B * (k2 + k3) + B * (B * b2.toNat) := by
        rw [← i3]; ring
      rw [this]
      have h2 : B * (k2 + k3) + B * (B * b2.toNat) = B * k3 + B * (k1 + ao.toNat) := by
        rw [← f3]; ring
      rw [h2]
      linarith
    have hW2 : k4 + B * b4.toNat + B * b2.toNat ≤ 2 * B - 2 := by
      by_contra hcon
      have h1 : B * (2 * B - 1) ≤ B * (k4 + B * b4.toNat + B * b2.toNat) :=
        Nat.mul_le_mul_left _ (by omega)
      have h2 : 2 * ((B - 1) * (B - 1)) + (2 * B - 2) < B * (2 * B - 1) := by
        obtain ⟨m, rfl⟩ : ∃ m, B = m + 1 := ⟨B - 1, by omega⟩
        simp only [Nat.add_sub_cancel]
        have : 2 * (m + 1) - 2 = 2 * m := by omega
        rw [this]
        have : 2 * (m + 1) - 1 = 2 * m + 1 := by omega
        rw [this]
        nlinarith
      omega
    have hor : (b2 || b4).toNat = b2.toNat + b4.toNat := by
      cases b2 <;> cases b4 <;> simp at hW2 ⊢
      omega
    have hmul : B * b4.toNat + B * b2.toNat = B * (b2 || b4).toNat := by rw [hor]; ring
    obtain ⟨r, p, c1, bo, j1, j2, j3, j4, j5, j6, j7⟩ := ih d k4 (b2 || b4) hds.2 hds.1 i2 (by omega)
    refine ⟨d' :: r, p, c1, bo, ?_, by simp [j2], by simp [g2, j3], j4, j5, j6, ?_⟩
    · unfold mulPairGo
      rw [e1, ok_bind]
      refine (ite_bind_eq f1 _).trans ?_
      simp only [g1, ok_bind, i1, j1]
      rfl
    · simp only [val_cons, List.length_cons, pow_succ]
      have h1 : d' + B * (k4 + B * (b2 || b4).toNat)
          = d * fl + prev * fh + (c0 + B * ao.toNat) := by
        rw [← hW]; congr 2; omega
      zify at h1 j7 ⊢
      linear_combination h1 + (B : ℤ) * j7

theorem mulPairAddAssignDigit_spec (L : Lawful D B) (l : List Nat) (fl fh off : Nat)
    (hl : Digs B l) (hfl : fl < B) (hfh : fh < B) (ho : off < B) :
    ∃ r c0 c1, mulPairAddAssignDigit D l fl fh off = .ok (r, c0, c1) ∧ r.length = l.length ∧
      Digs B r ∧ c0 < B ∧ c1 < B ∧
      val B r + B ^ l.length * (c0 + B * c1) = val B l * (fl + B * fh) + off := by
  have hB := L.base
  unfold mulPairAddAssignDigit
  cases l with
  | nil => exact ⟨[], off, 0, rfl, rfl, hl, ho, by omega, by simp⟩
  | cons d ds =>
    rw [digs_cons] at hl
    obtain ⟨d', c, e1, e2, e3, e4⟩ := mulCarry_step L hfl d off hl.1 ho
    obtain ⟨r, p, c1, bo, j1, j2, j3, j4, j5, j6, j7⟩ := mulPairGo_spec L fl fh hfl hfh ds d c false
      hl.2 hl.1 e3 (by simp; omega)
    obtain ⟨p', c2, f1, f2, f3, f4⟩ := mulCarry_step L hfh p c1 j4 j5
    obtain ⟨c3, bo3, g1, g2, g3⟩ := inc_if_step L c2 bo f3
    have hb3 : bo3 = false := by
      cases bo3 with
      | false => rfl
      | true =>
        exfalso
        simp only [Bool.toNat_true, Nat.mul_one] at g3
        have h1 : p * fh ≤ (B - 1) * (B - 1) := Nat.mul_le_mul (by omega) (by omega)
        have h2 : B * c2 + B * bo.toNat = B * (c3 + B) := by rw [g3]; ring
        have h3 : B * B ≤ B * (c3 + B) := Nat.mul_le_mul_left _ (by omega)
        obtain ⟨m, rfl⟩ : ∃ m, B = m + 1 := ⟨B - 1, by omega⟩
        simp only [Nat.add_sub_cancel] at h1
        have h4 : (m + 1) * (m + 1) = m * m + 2 * m + 1 := by ring
        omega
    subst hb3
    refine ⟨d' :: r, p', c3, ?_, by simp [j2], by simp [e2, j3], f2, g2, ?_⟩
    · simp only [e1, ok_bind, j1, f1]
      exact ite_bind_eq g1 _
    · simp only [val_cons, List.length_cons, pow_succ]
      simp at g3 j7
      zify at e4 j7 f4 g3 ⊢
      linear_combination e4 + (B : ℤ) * j7 + (B : ℤ) ^ ds.length * B * (f4 + B * g3)

theorem mulPairAddDigit_spec (L : Lawful D B) (x : List Nat) (fl fh off : Nat)
    (hx : Digs B x) (hfl : fl < B) (hfh : fh < B) (ho : off < B) :
    ∃ z, mulPairAddDigit D x fl fh off = .ok z ∧
      Rep B z (val B x * (fl + B * fh) + off) := by
  obtain ⟨r, c0, c1, h1, h2, h3, h4, h5, h6⟩ :=
    mulPairAddAssignDigit_spec L x fl fh off hx hfl hfh ho
  unfold mulPairAddDigit
  rw [h1, ok_bind]
  simp only []
  have key : Digs B (if c0 ≠ 0 ∨ c1 ≠ 0 then
        if c1 ≠ 0 then r ++ [c0] ++ [c1] else r ++ [c0] else r) ∧
      val B (if c0 ≠ 0 ∨ c1 ≠ 0 then
        if c1 ≠ 0 then r ++ [c0] ++ [c1] else r ++ [c0] else r) = val B x * (fl + B * fh) + off := by
    rw [← h6, ← h2]
    split_ifs with a b
    · refine ⟨by simp [h3, h4, h5], ?_⟩
      rw [val_snoc, val_snoc]
      simp [pow_succ]; ring
    · refine ⟨by simp [h3, h4], ?_⟩
      rw [val_snoc]
      simp at b; simp [b]
    · simp at a; exact ⟨h3, by simp [a]⟩
  obtain ⟨z, e1, e2, -⟩ := normalise_rep key.1
  rw [key.2] at e2
  exact ⟨z, e1, e2⟩

theorem mulWordDec_spec (L : Lawful D B) (x : List Nat) (n : Nat) (hx : Digs B x) (cx : Canon x)
    (hn : n < B * B) :
    ∃ z, mulWordDec D B x n = .ok z ∧ Rep B z (val B x * n) := by
  have hB := L.pos
  unfold mulWordDec
  by_cases h : n < B
  · rw [if_pos h]
    obtain ⟨z, h1, h2, h3, h4⟩ := mulAddDigit_spec L x n 0 hx h hB
    exact ⟨z, h1, h2, h4 cx, by rw [h3]; simp⟩
  · rw [if_neg h]
    have hlow : n % B < B := Nat.mod_lt _ hB
    have hhigh : n / B < B := by rw [Nat.div_lt_iff_lt_mul hB]; exact hn
    obtain ⟨z, h1, h2⟩ := mulPairAddDigit_spec L x (n % B) (n / B) 0 hx hlow hhigh hB
    rw [Nat.mod_add_div] at h2
    exact ⟨z, h1, by simpa using h2⟩

/-! ## Division by a digit -/

theorem div3CarryAssign_spec (L : Lawful D B) (l : List Nat) (c : Nat) (hl : Digs B l)
    (hc : c < 3) :
    ∃ r nd rem, div3CarryAssign D l c = .ok (r, nd, rem) ∧ r.length = l.length ∧ Digs B r ∧
      rem < 3 ∧ val B r * 3 + rem = c * B ^ l.length + val B l ∧ nd ≤ l.length ∧
      r = r.take nd ++ List.replicate (l.length - nd) 0 ∧ Canon (r.take nd) := by
  obtain ⟨r, rem, h1, h2, h3, h4, h5⟩ := foldDigitsRev_spec (B := B)
    (f := D.div3Carry) (P := fun c => c < 3) (cv := fun c => (c : ℤ)) (F := 3) (by
      intro a c ha hc
      refine ⟨_, _, L.div3Carry a c ha hc, div_carry_lt a 3 c ha hc, Nat.mod_lt _ (by omega), ?_⟩
      have := Nat.div_add_mod (c * B + a) 3
      zify at this ⊢
      linarith) l c hl hc
  obtain ⟨nd, e1, e2, e3, e4⟩ := dropLeadingZeros_spec r r.length (le_refl _)
  rw [List.take_length, h2] at e3
  refine ⟨r, nd, rem, ?_, h2, h3, h4, by exact_mod_cast h5, by omega, e3, e4⟩
  unfold div3CarryAssign
  rw [h1, ok_bind]
  simp only []
  rw [e1]; rfl

end Babs
