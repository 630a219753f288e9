import Verif.Proofs.Lawful

/-!
# C31, C32: digit arithmetic

Every operation of the trait `Digit`, for all eight digit types and both build profiles: the
operation returns (so no machine arithmetic overflows in a debug build), and its result is the
mathematical one.  A digit `d` is valid if `d < t.radix`.
-/

namespace Babs.Props

variable (t : DType) (dbg : Bool)

/-- C31: `MAX` is the largest digit. -/
theorem digit_max : (t.ops dbg).max + 1 = t.radix := by
  have h := (ops_lawful t dbg).max
  have h2 := (ops_lawful t dbg).base
  omega

/-- C31: `max_shift` of a nonzero digit is the largest shift that does not overflow the digit. -/
theorem digit_maxShift (d : Nat) (h0 : 0 < d) (hd : d < t.radix) :
    Returns ((t.ops dbg).maxShift d) fun s => d * 2 ^ s < t.radix ∧ t.radix ≤ d * 2 ^ (s + 1) := by
  obtain ⟨s, h1, h2, h3⟩ := (ops_lawful t dbg).maxShift d h0 hd
  exact ⟨s, h1, h2, h3⟩

/-- C31: `inc` adds one and reports the carry. -/
theorem digit_inc (d : Nat) (hd : d < t.radix) :
    Returns ((t.ops dbg).inc d) fun r => r.1 < t.radix ∧ r.1 + t.radix * r.2.toNat = d + 1 := by
  have L := ops_lawful t dbg
  refine ⟨_, L.inc d hd, Nat.mod_lt _ L.pos, ?_⟩
  by_cases h : t.radix ≤ d + 1
  · have : d + 1 = t.radix := by omega
    simp [this]
  · simp [h, Nat.mod_eq_of_lt (show d + 1 < t.radix by omega)]

/-- C31: `dec` subtracts one and reports the borrow. -/
theorem digit_dec (d : Nat) (hd : d < t.radix) :
    Returns ((t.ops dbg).dec d) fun r => r.1 < t.radix ∧ r.1 + 1 = d + t.radix * r.2.toNat := by
  have L := ops_lawful t dbg
  have hB := L.base
  refine ⟨_, L.dec d hd, Nat.mod_lt _ L.pos, ?_⟩
  by_cases h : d = 0
  · subst h
    simp only [Nat.zero_add, decide_true, Bool.toNat_true]
    rw [Nat.mod_eq_of_lt (by omega)]; omega
  · rw [show d + (t.radix - 1) = (d - 1) + t.radix by omega, Nat.add_mod_right,
      Nat.mod_eq_of_lt (by omega)]
    simp [h]; omega

/-- C31: `add_carry_assign` is exact. -/
theorem digit_addCarry (a b : Nat) (c : Bool) (ha : a < t.radix) (hb : b < t.radix) :
    Returns ((t.ops dbg).addCarry a b c) fun r =>
      r.1 < t.radix ∧ r.1 + t.radix * r.2.toNat = a + b + c.toNat := by
  have L := ops_lawful t dbg
  have hc := toNat_le_one c
  refine ⟨_, L.addCarry a b c ha hb, Nat.mod_lt _ L.pos, ?_⟩
  by_cases h : t.radix ≤ a + b + c.toNat
  · simp only [h, decide_true, Bool.toNat_true]
    rw [Nat.mod_eq_sub_mod h, Nat.mod_eq_of_lt (by omega)]; omega
  · simp only [h, decide_false, Bool.toNat_false]
    rw [Nat.mod_eq_of_lt (by omega)]; omega

/-- C31: `sub_carry_assign` is exact. -/
theorem digit_subCarry (a b : Nat) (c : Bool) (ha : a < t.radix) (hb : b < t.radix) :
    Returns ((t.ops dbg).subCarry a b c) fun r =>
      r.1 < t.radix ∧ r.1 + b + c.toNat = a + t.radix * r.2.toNat := by
  have L := ops_lawful t dbg
  have hc := toNat_le_one c
  refine ⟨_, L.subCarry a b c ha hb, Nat.mod_lt _ L.pos, ?_⟩
  by_cases h : a < b + c.toNat
  · simp only [h, decide_true, Bool.toNat_true]
    rw [Nat.mod_eq_of_lt (by omega)]; omega
  · simp only [h, decide_false, Bool.toNat_false]
    rw [show a + t.radix - (b + c.toNat) = (a - (b + c.toNat)) + t.radix by omega,
      Nat.add_mod_right, Nat.mod_eq_of_lt (by omega)]; omega

/-- C31: `shl_carry_assign` by less than a digit is exact. -/
theorem digit_shlCarry (a s c : Nat) (ha : a < t.radix) (h0 : 0 < s) (hs : 2 ^ s < t.radix)
    (hc : c < 2 ^ s) :
    Returns ((t.ops dbg).shlCarry a s c) fun r =>
      r.1 < t.radix ∧ r.2 < 2 ^ s ∧ r.1 + t.radix * r.2 = a * 2 ^ s + c := by
  have L := ops_lawful t dbg
  refine ⟨_, L.shlCarry a s c ha h0 hs hc, Nat.mod_lt _ L.pos, ?_, Nat.mod_add_div _ _⟩
  rw [Nat.div_lt_iff_lt_mul L.pos, Nat.mul_comm (2 ^ s)]
  exact carry_mul_add_lt hc ha

/-- C31: `shr_carry_assign` by less than a digit is exact. -/
theorem digit_shrCarry (a s c : Nat) (ha : a < t.radix) (h0 : 0 < s) (hs : 2 ^ s < t.radix)
    (hc : c < 2 ^ s) :
    Returns ((t.ops dbg).shrCarry a s c) fun r =>
      r.1 < t.radix ∧ r.2 < 2 ^ s ∧ r.1 * 2 ^ s + r.2 = c * t.radix + a := by
  have L := ops_lawful t dbg
  refine ⟨_, L.shrCarry a s c ha h0 hs hc, div_carry_lt a _ c ha hc,
    Nat.mod_lt _ (Nat.two_pow_pos _), ?_⟩
  rw [Nat.mul_comm]; exact Nat.div_add_mod _ _

/-- C31: `double_carry_assign` is exact. -/
theorem digit_doubleCarry (a : Nat) (c : Bool) (ha : a < t.radix) :
    Returns ((t.ops dbg).doubleCarry a c) fun r =>
      r.1 < t.radix ∧ r.1 + t.radix * r.2.toNat = 2 * a + c.toNat := by
  have L := ops_lawful t dbg
  have hc := toNat_le_one c
  refine ⟨_, L.doubleCarry a c ha, Nat.mod_lt _ L.pos, ?_⟩
  by_cases h : t.radix ≤ 2 * a + c.toNat
  · simp only [h, decide_true, Bool.toNat_true]
    rw [Nat.mod_eq_sub_mod h, Nat.mod_eq_of_lt (by omega)]; omega
  · simp only [h, decide_false, Bool.toNat_false]
    rw [Nat.mod_eq_of_lt (by omega)]; omega

/-- C31: `mul_carry_assign` is exact. -/
theorem digit_mulCarry (a f c : Nat) (ha : a < t.radix) (hf : f < t.radix) (hc : c < t.radix) :
    Returns ((t.ops dbg).mulCarry a f c) fun r =>
      r.1 < t.radix ∧ r.2 < t.radix ∧ r.1 + t.radix * r.2 = a * f + c := by
  have L := ops_lawful t dbg
  have h := mul_pred_lt ha hf
  refine ⟨_, L.mulCarry a f c ha hf hc, Nat.mod_lt _ L.pos, ?_, Nat.mod_add_div _ _⟩
  rw [Nat.div_lt_iff_lt_mul L.pos]; omega

/-- C31: `rem_carry` is exact. -/
theorem digit_remCarry (a f c : Nat) (ha : a < t.radix) (hf : f < t.radix) (hc : c < f) :
    (t.ops dbg).remCarry a f c = .ok ((c * t.radix + a) % f) :=
  (ops_lawful t dbg).remCarry a f c ha hf hc

/-- C31: `div_carry_assign` is exact. -/
theorem digit_divCarry (a f c : Nat) (ha : a < t.radix) (hf : f < t.radix) (hc : c < f) :
    Returns ((t.ops dbg).divCarry a f c) fun r =>
      r.1 < t.radix ∧ r.2 < f ∧ r.1 * f + r.2 = c * t.radix + a := by
  refine ⟨_, (ops_lawful t dbg).divCarry a f c ha hf hc, div_carry_lt a f c ha hc,
    Nat.mod_lt _ (by omega), ?_⟩
  rw [Nat.mul_comm]; exact Nat.div_add_mod _ _

/-- C31: `div3_carry_assign` is exact. -/
theorem digit_div3Carry (a c : Nat) (ha : a < t.radix) (hc : c < 3) :
    Returns ((t.ops dbg).div3Carry a c) fun r =>
      r.1 < t.radix ∧ r.2 < 3 ∧ r.1 * 3 + r.2 = c * t.radix + a := by
  refine ⟨_, (ops_lawful t dbg).div3Carry a c ha hc, div_carry_lt a 3 c ha hc,
    Nat.mod_lt _ (by omega), ?_⟩
  rw [Nat.mul_comm]; exact Nat.div_add_mod _ _

/-- C31: `add_prod_carry_assign` is exact. -/
theorem digit_addProd (a f g c : Nat) (ha : a < t.radix) (hf : f < t.radix) (hg : g < t.radix)
    (hc : c < t.radix) :
    Returns ((t.ops dbg).addProd a f g c) fun r =>
      r.1 < t.radix ∧ r.2 < t.radix ∧ r.1 + t.radix * r.2 = a + f * g + c := by
  have L := ops_lawful t dbg
  have h := mul_pred_lt hf hg
  refine ⟨_, L.addProd a f g c ha hf hg hc, Nat.mod_lt _ L.pos, ?_, Nat.mod_add_div _ _⟩
  rw [Nat.div_lt_iff_lt_mul L.pos]; omega

/-- C31: `sub_prod_carry_assign` is exact: the carry is what has to be taken from the next
digit. -/
theorem digit_subProd (a f g c : Nat) (ha : a < t.radix) (hf : f < t.radix) (hg : g < t.radix)
    (hc : c < t.radix) :
    Returns ((t.ops dbg).subProd a f g c) fun r =>
      r.1 < t.radix ∧ r.2 < t.radix ∧ r.1 + f * g + c = a + t.radix * r.2 := by
  have L := ops_lawful t dbg
  refine ⟨_, L.subProd a f g c ha hf hg hc, Nat.mod_lt _ L.pos, subProd_carry_lt hf hg hc, ?_⟩
  have hdm := Nat.mod_add_div (f * g + c) t.radix
  have hm := Nat.mod_lt (f * g + c) L.pos
  by_cases h : a < (f * g + c) % t.radix
  · simp only [h, decide_true, Bool.toNat_true]
    rw [Nat.mod_eq_of_lt (by omega), Nat.mul_add]; omega
  · simp only [h, decide_false, Bool.toNat_false]
    rw [show a + t.radix - (f * g + c) % t.radix = (a - (f * g + c) % t.radix) + t.radix by omega,
      Nat.add_mod_right, Nat.mod_eq_of_lt (by omega), Nat.add_zero]; omega

/-- C32: the division of a double word by `10^19` through multiplication by a reciprocal gives the
true quotient and remainder, and none of its 128 bit operations overflows. -/
theorem div_rem_base_exact (n : Nat) (hn : n < 10 ^ 38) :
    Dec64.divRemBase dbg n = .ok (n / 10 ^ 19, n % 10 ^ 19) := by
  have := divRemBase_ok (dbg := dbg) (n := n) (by norm_num at hn ⊢; omega)
  norm_num at this ⊢
  exact this

/-! ## The hypotheses can be met: the largest digits of the largest types -/

example : (DType.ops (.dec .w64) true).addProd 9999999999999999999 9999999999999999999
    9999999999999999999 9999999999999999999 = .ok (9999999999999999999, 9999999999999999999) := by
  decide +kernel
example : 9999999999999999999 < (DType.dec .w64).radix := by decide
example : (DType.ops (.bin .w8) true).subProd 0 255 255 255 = .ok (0, 255) := by decide +kernel
example : Dec64.divRemBase true (10 ^ 38 - 1) = .ok (10 ^ 19 - 1, 10 ^ 19 - 1) := by decide +kernel
example : (DType.ops (.dec .w8) true).maxShift 12 = .ok 3 := by decide +kernel
example : (DType.ops (.dec .w64) true).shlCarry (10 ^ 19 - 1) 63 (2 ^ 63 - 1)
    = .ok (10 ^ 19 - 1, 2 ^ 63 - 1) := by decide +kernel

end Babs.Props
