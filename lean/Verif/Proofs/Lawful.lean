import Verif.Model.Digit
import Verif.Proofs.Basic
import Mathlib.Data.Nat.Bitwise

/-!
# Helper lemmas: the digit operations of all eight types obey the same arithmetic laws
-/

namespace Babs

theorem addW_ok {dbg : Bool} {w a b : Nat} (h : a + b < 2 ^ w) : addW dbg w a b = .ok (a + b) := by
  simp [addW, h]

theorem subW_ok {dbg : Bool} {w a b : Nat} (h : b ≤ a) : subW dbg w a b = .ok (a - b) := by
  simp [subW, h]

theorem mulW_ok {dbg : Bool} {w a b : Nat} (h : a * b < 2 ^ w) : mulW dbg w a b = .ok (a * b) := by
  simp [mulW, h]

theorem shlW_ok' {dbg : Bool} {w a s : Nat} (h : s < w) :
    shlW dbg w a s = .ok ((a * 2 ^ s) % 2 ^ w) := by
  simp [shlW, h, Nat.shiftLeft_eq]

theorem shlW_ok {dbg : Bool} {w a s : Nat} (h : s < w) (h' : a * 2 ^ s < 2 ^ w) :
    shlW dbg w a s = .ok (a * 2 ^ s) := by
  rw [shlW_ok' h, Nat.mod_eq_of_lt h']

theorem shrW_ok {dbg : Bool} {w a s : Nat} (h : s < w) :
    shrW dbg w a s = .ok (a / 2 ^ s) := by
  simp [shrW, h, Nat.shiftRight_eq_div_pow]

theorem divW_ok {a b : Nat} (h : 0 < b) : divW a b = .ok (a / b) := by
  simp [divW, Nat.pos_iff_ne_zero.mp h]

theorem remW_ok {a b : Nat} (h : 0 < b) : remW a b = .ok (a % b) := by
  simp [remW, Nat.pos_iff_ne_zero.mp h]

theorem castW_ok {w a : Nat} (h : a < 2 ^ w) : castW w a = a := Nat.mod_eq_of_lt h

/-- `hi * 2^s | lo` is addition if `lo` has at most `s` bits. -/
theorem mul_or_eq_add {hi lo s : Nat} (h : lo < 2 ^ s) : hi * 2 ^ s ||| lo = hi * 2 ^ s + lo := by
  have := Nat.shiftLeft_add_eq_or_of_lt h hi
  rw [Nat.shiftLeft_eq] at this
  exact this.symm

theorem or_pred_mask {s : Nat} (hs : 0 < s) :
    2 ^ (s - 1) ||| (2 ^ (s - 1) - 1) = 2 ^ s - 1 := by
  have h := mul_or_eq_add (hi := 1) (lo := 2 ^ (s - 1) - 1) (s := s - 1)
    (Nat.sub_lt (Nat.two_pow_pos _) Nat.one_pos)
  rw [Nat.one_mul] at h
  rw [h]
  have h2 : 2 ^ s = 2 * 2 ^ (s - 1) := by rw [← pow_succ']; congr 1; omega
  have := Nat.two_pow_pos (s - 1)
  omega

theorem log2_bounds {d : Nat} (hd : 0 < d) : 2 ^ Nat.log2 d ≤ d ∧ d < 2 ^ (Nat.log2 d + 1) :=
  ⟨Nat.log2_self_le (by omega), Nat.lt_log2_self⟩

/-- What all digit types have in common: the operations on valid digits (storage less than the
base `B`) are the textbook operations of base `B`, and do not panic, in either build profile. -/
structure Lawful (D : DigitOps) (B : Nat) : Prop where
  base : 100 ≤ B
  max : D.max = B - 1
  maxShift : ∀ d, 0 < d → d < B → ∃ s, D.maxShift d = .ok s ∧ d * 2 ^ s < B ∧ B ≤ d * 2 ^ (s + 1)
  inc : ∀ d, d < B → D.inc d = .ok ((d + 1) % B, decide (B ≤ d + 1))
  dec : ∀ d, d < B → D.dec d = .ok ((d + (B - 1)) % B, decide (d = 0))
  addCarry : ∀ a b c, a < B → b < B →
    D.addCarry a b c = .ok ((a + b + c.toNat) % B, decide (B ≤ a + b + c.toNat))
  subCarry : ∀ a b c, a < B → b < B →
    D.subCarry a b c = .ok ((a + B - (b + c.toNat)) % B, decide (a < b + c.toNat))
  shlCarry : ∀ a s c, a < B → 0 < s → 2 ^ s < B → c < 2 ^ s →
    D.shlCarry a s c = .ok ((a * 2 ^ s + c) % B, (a * 2 ^ s + c) / B)
  shrCarry : ∀ a s c, a < B → 0 < s → 2 ^ s < B → c < 2 ^ s →
    D.shrCarry a s c = .ok ((c * B + a) / 2 ^ s, (c * B + a) % 2 ^ s)
  doubleCarry : ∀ a c, a < B →
    D.doubleCarry a c = .ok ((2 * a + c.toNat) % B, decide (B ≤ 2 * a + c.toNat))
  mulCarry : ∀ a f c, a < B → f < B → c < B →
    D.mulCarry a f c = .ok ((a * f + c) % B, (a * f + c) / B)
  remCarry : ∀ a f c, a < B → f < B → c < f → D.remCarry a f c = .ok ((c * B + a) % f)
  divCarry : ∀ a f c, a < B → f < B → c < f →
    D.divCarry a f c = .ok ((c * B + a) / f, (c * B + a) % f)
  div3Carry : ∀ a c, a < B → c < 3 → D.div3Carry a c = .ok ((c * B + a) / 3, (c * B + a) % 3)
  addProd : ∀ a f g c, a < B → f < B → g < B → c < B →
    D.addProd a f g c = .ok ((a + f * g + c) % B, (a + f * g + c) / B)
  subProd : ∀ a f g c, a < B → f < B → g < B → c < B →
    D.subProd a f g c = .ok ((a + B - (f * g + c) % B) % B,
      (f * g + c) / B + (decide (a < (f * g + c) % B)).toNat)

theorem Lawful.pos {D : DigitOps} {B : Nat} (h : Lawful D B) : 0 < B := by have := h.base; omega

theorem toNat_le_one (c : Bool) : c.toNat ≤ 1 := by cases c <;> simp

theorem mul_pred_lt {B f g : Nat} (hf : f < B) (hg : g < B) : f * g + 2 * (B - 1) < B * B := by
  obtain ⟨n, rfl⟩ : ∃ n, B = n + 1 := ⟨B - 1, by omega⟩
  have h1 : f * g ≤ n * n := Nat.mul_le_mul (by omega) (by omega)
  have h2 : (n + 1) * (n + 1) = n * n + 2 * n + 1 := by ring
  rw [h2, Nat.add_sub_cancel]; omega

theorem carry_mul_add_lt {B a c f : Nat} (ha : a < B) (hc : c < f) : c * B + a < f * B := by
  have : (c + 1) * B ≤ f * B := Nat.mul_le_mul_right _ hc
  have h2 : (c + 1) * B = c * B + B := by ring
  omega

/-- The carry of a multiply and subtract step is a digit. -/
theorem subProd_carry_lt {B a f g c : Nat} (hf : f < B) (hg : g < B) (hc : c < B) :
    (f * g + c) / B + (decide (a < (f * g + c) % B)).toNat < B := by
  have h := mul_pred_lt hf hg
  have hdm := Nat.div_add_mod (f * g + c) B
  have hle := toNat_le_one (decide (a < (f * g + c) % B))
  rcases Nat.lt_or_ge ((f * g + c) / B + 1) B with h1 | h1
  · omega
  · have h2 : B * (B - 1) ≤ B * ((f * g + c) / B) := Nat.mul_le_mul_left _ (by omega)
    have h3 : B * (B - 1) = B * B - B := by rw [Nat.mul_sub, Nat.mul_one]
    have h4 : (f * g + c) % B = 0 := by omega
    rw [h4]
    simp only [Nat.not_lt_zero, decide_false, Bool.toNat_false, Nat.add_zero]
    rw [Nat.div_lt_iff_lt_mul (by omega)]; omega

/-! ## Binary digits -/

theorem bin_lawful (dbg : Bool) (w : Nat) (hw : 8 ≤ w) : Lawful (binOps dbg w) (2 ^ w) := by
  have hB : 256 ≤ 2 ^ w := by
    calc 256 = 2 ^ 8 := by norm_num
      _ ≤ 2 ^ w := Nat.pow_le_pow_right (by norm_num) hw
  have hBB : (2 : Nat) ^ (2 * w) = 2 ^ w * 2 ^ w := by rw [Nat.two_mul, pow_add]
  have hsplit : ∀ tmp, tmp &&& Bin.max w = tmp % 2 ^ w := fun tmp =>
    Nat.and_two_pow_sub_one_eq_mod tmp w
  refine ⟨by omega, rfl, ?_, ?_, ?_, ?_, ?_, ?_, ?_, ?_, ?_, ?_, ?_, ?_, ?_, ?_⟩
  · -- maxShift
    intro d hd hdB
    refine ⟨w - 1 - Nat.log2 d, ?_, ?_, ?_⟩
    · simp [binOps, Bin.maxShift, leadingZeros, Nat.pos_iff_ne_zero.mp hd]
    · obtain ⟨h1, h2⟩ := log2_bounds hd
      have h3 : Nat.log2 d < w := (Nat.log2_lt (by omega)).mpr hdB
      calc d * 2 ^ (w - 1 - Nat.log2 d) < 2 ^ (Nat.log2 d + 1) * 2 ^ (w - 1 - Nat.log2 d) :=
            Nat.mul_lt_mul_of_pos_right h2 (Nat.two_pow_pos _)
        _ = 2 ^ w := by rw [← pow_add]; congr 1; omega
    · obtain ⟨h1, h2⟩ := log2_bounds hd
      have h3 : Nat.log2 d < w := (Nat.log2_lt (by omega)).mpr hdB
      calc 2 ^ w = 2 ^ (Nat.log2 d) * 2 ^ (w - 1 - Nat.log2 d + 1) := by
            rw [← pow_add]; congr 1; omega
        _ ≤ _ := Nat.mul_le_mul_right _ h1
  · intro d _; rfl
  · intro d hd
    simp only [binOps, Bin.dec, overflowingSub]
    congr 3
    · omega
    · simp
  · -- addCarry
    intro a b c ha hb
    have hc := toNat_le_one c
    have e : (binOps dbg w).addCarry a b c = .ok (((a + b) % 2 ^ w + c.toNat) % 2 ^ w,
      decide (2 ^ w ≤ a + b) || decide (2 ^ w ≤ (a + b) % 2 ^ w + c.toNat)) := rfl
    rw [e]
    congr 2
    · rw [Nat.mod_add_mod]
    · rw [Bool.eq_iff_iff]
      simp only [Bool.or_eq_true, decide_eq_true_eq]
      rcases Nat.lt_or_ge (a + b) (2 ^ w) with h | h
      · rw [Nat.mod_eq_of_lt h]; omega
      · have : (a + b) % 2 ^ w = a + b - 2 ^ w := by
          rw [Nat.mod_eq_sub_mod h, Nat.mod_eq_of_lt (by omega)]
        omega
  · -- subCarry
    intro a b c ha hb
    have hc := toNat_le_one c
    have e : (binOps dbg w).subCarry a b c =
      .ok (((a + 2 ^ w - b) % 2 ^ w + 2 ^ w - c.toNat) % 2 ^ w,
      decide (a < b) || decide ((a + 2 ^ w - b) % 2 ^ w < c.toNat)) := rfl
    rw [e]
    rcases Nat.lt_or_ge a b with h | h
    · have h1 : (a + 2 ^ w - b) % 2 ^ w = a + 2 ^ w - b := Nat.mod_eq_of_lt (by omega)
      rw [h1]
      congr 2
      · have h2 : a + 2 ^ w - b + 2 ^ w - c.toNat = (a + 2 ^ w - (b + c.toNat)) + 2 ^ w := by omega
        rw [h2, Nat.add_mod_right]
      · rw [Bool.eq_iff_iff]; simp; omega
    · have h1 : (a + 2 ^ w - b) % 2 ^ w = a - b := by
        rw [show a + 2 ^ w - b = (a - b) + 2 ^ w by omega, Nat.add_mod_right,
          Nat.mod_eq_of_lt (by omega)]
      rw [h1]
      congr 2
      · congr 1; omega
      · rw [Bool.eq_iff_iff]; simp; omega
  · -- shlCarry
    intro a s c ha hs hsB hc
    have hsw : s < w := (Nat.pow_lt_pow_iff_right (by norm_num)).mp hsB
    have e : 2 ^ w = 2 ^ (w - s) * 2 ^ s := by rw [← pow_add]; congr 1; omega
    simp only [binOps, Bin.shlCarry]
    rw [subW_ok (by omega), ok_bind, shrW_ok (by omega), ok_bind, shlW_ok' hsw, ok_bind,
      pure_eq_ok]
    have h1 : (a * 2 ^ s) % 2 ^ w = a % 2 ^ (w - s) * 2 ^ s := by rw [e, Nat.mul_mod_mul_right]
    have h2 : a * 2 ^ s + c = 2 ^ w * (a / 2 ^ (w - s)) + (a % 2 ^ (w - s) * 2 ^ s + c) := by
      conv_lhs => rw [← Nat.div_add_mod a (2 ^ (w - s))]
      rw [e]; ring
    have h3 : a % 2 ^ (w - s) * 2 ^ s + c < 2 ^ w := by
      have h4 : a % 2 ^ (w - s) < 2 ^ (w - s) := Nat.mod_lt _ (Nat.two_pow_pos _)
      calc _ < (a % 2 ^ (w - s)) * 2 ^ s + 2 ^ s := by omega
        _ = (a % 2 ^ (w - s) + 1) * 2 ^ s := by ring
        _ ≤ 2 ^ (w - s) * 2 ^ s := Nat.mul_le_mul_right _ h4
        _ = 2 ^ w := e.symm
    rw [h1, mul_or_eq_add hc, h2, Nat.mul_add_mod, Nat.mod_eq_of_lt h3,
      Nat.mul_add_div (Nat.two_pow_pos _), Nat.div_eq_of_lt h3, Nat.add_zero]
  · -- shrCarry
    intro a s c ha hs hsB hc
    have hsw : s < w := (Nat.pow_lt_pow_iff_right (by norm_num)).mp hsB
    have e : 2 ^ w = 2 ^ (w - s) * 2 ^ s := by rw [← pow_add]; congr 1; omega
    simp only [binOps, Bin.shrCarry]
    have hp : 1 * 2 ^ (s - 1) < 2 ^ w := by
      rw [Nat.one_mul]; exact Nat.pow_lt_pow_right (by norm_num) (by omega)
    have hcw : c * 2 ^ (w - s) < 2 ^ w := by
      calc c * 2 ^ (w - s) < 2 ^ s * 2 ^ (w - s) :=
            Nat.mul_lt_mul_of_pos_right hc (Nat.two_pow_pos _)
        _ = 2 ^ w := by rw [e, Nat.mul_comm]
    rw [subW_ok (by omega), ok_bind, shlW_ok (by omega) hp, ok_bind, Nat.one_mul,
      subW_ok (Nat.two_pow_pos _), ok_bind, subW_ok (by omega), ok_bind, shlW_ok (by omega) hcw,
      ok_bind, shrW_ok hsw, ok_bind, pure_eq_ok, or_pred_mask hs, Nat.and_two_pow_sub_one_eq_mod]
    have h1 : a / 2 ^ s < 2 ^ (w - s) := by
      rw [Nat.div_lt_iff_lt_mul (Nat.two_pow_pos _), ← e]; exact ha
    have h2 : c * 2 ^ w + a = 2 ^ s * (c * 2 ^ (w - s)) + a := by rw [e]; ring
    rw [mul_or_eq_add h1, h2, Nat.mul_add_mod, Nat.mul_add_div (Nat.two_pow_pos _)]
  · -- doubleCarry
    intro a c ha
    have hc := toNat_le_one c
    simp only [binOps, Bin.doubleCarry]
    have e : 2 ^ w = 2 * 2 ^ (w - 1) := by rw [← pow_succ']; congr 1; omega
    have hp : 1 * 2 ^ (w - 1) < 2 ^ w := by
      rw [Nat.one_mul]; exact Nat.pow_lt_pow_right (by norm_num) (by omega)
    rw [shlW_ok (by omega) hp, ok_bind, shlW_ok' (by omega), ok_bind, pure_eq_ok, Nat.one_mul]
    have hor : ∀ x, (x * 2 ^ 1) ||| c.toNat = x * 2 ^ 1 + c.toNat := fun x =>
      mul_or_eq_add (by omega)
    rw [Nat.and_two_pow]
    have hlt : a < 2 ^ (w - 1) ∨ 2 ^ (w - 1) ≤ a := by omega
    rcases hlt with h | h
    · have : a.testBit (w - 1) = false := Nat.testBit_lt_two_pow h
      rw [this, Nat.mod_eq_of_lt (by omega), hor]
      congr 2
      · rw [Nat.mod_eq_of_lt (by omega)]; omega
      · simp; omega
    · have : a.testBit (w - 1) = true := by
        rw [Nat.testBit_eq_decide_div_mod_eq]
        have : a / 2 ^ (w - 1) = 1 := by
          rw [Nat.div_eq_iff (Nat.two_pow_pos _)]
          constructor <;> omega
        simp [this]
      rw [this]
      have hm : a * 2 ^ 1 % 2 ^ w = (a - 2 ^ (w - 1)) * 2 ^ 1 := by
        rw [Nat.mod_eq_sub_mod (by omega), Nat.mod_eq_of_lt (by omega)]; omega
      rw [hm, hor]
      congr 2
      · rw [Nat.mod_eq_sub_mod (by omega), Nat.mod_eq_of_lt (by omega)]; omega
      · have h5 : 2 ^ w ≤ 2 * a + c.toNat := by omega
        simp [h5]
  · -- mulCarry
    intro a f c ha hf hc
    have h := mul_pred_lt ha hf
    simp only [binOps, Bin.mulCarry]
    rw [mulW_ok (by rw [hBB]; omega), ok_bind, addW_ok (by rw [hBB]; omega), ok_bind,
      shrW_ok (by omega), ok_bind, pure_eq_ok, hsplit, castW_ok (Nat.mod_lt _ (by omega)),
      castW_ok (by rw [Nat.div_lt_iff_lt_mul (by omega)]; omega)]
  · -- remCarry
    intro a f c ha hf hc
    simp only [binOps, Bin.remCarry]
    have h1 : c * 2 ^ w < 2 ^ (2 * w) := by
      rw [hBB]; exact Nat.mul_lt_mul_of_pos_right (by omega) (by omega)
    rw [shlW_ok (by omega) h1, ok_bind, remW_ok (by omega), ok_bind, pure_eq_ok, mul_or_eq_add ha,
      castW_ok (lt_trans (Nat.mod_lt _ (by omega)) hf)]
  · -- divCarry
    intro a f c ha hf hc
    simp only [binOps, Bin.divCarry]
    have h1 : c * 2 ^ w < 2 ^ (2 * w) := by
      rw [hBB]; exact Nat.mul_lt_mul_of_pos_right (by omega) (by omega)
    have h2 := carry_mul_add_lt ha hc
    rw [shlW_ok (by omega) h1, ok_bind, divW_ok (by omega), ok_bind, remW_ok (by omega), ok_bind,
      pure_eq_ok, mul_or_eq_add ha,
      castW_ok (lt_trans (Nat.mod_lt _ (by omega)) hf),
      castW_ok (by rw [Nat.div_lt_iff_lt_mul (by omega), Nat.mul_comm (2 ^ w)]; exact h2)]
  · -- div3Carry
    intro a c ha hc
    simp only [binOps]
    by_cases h64 : w = 64
    · subst h64
      simp only [if_pos, Bin.div3Carry64]
      norm_num at ha ⊢
      have hr : a % 3 < 3 := Nat.mod_lt _ (by norm_num)
      have hcast : castW 8 (a % 3) = a % 3 := castW_ok (by norm_num; omega)
      rw [mulW_ok (by norm_num; omega), ok_bind, addW_ok (by norm_num; omega), ok_bind,
        addW_ok (by norm_num; omega), ok_bind, addW_ok (by norm_num; omega), ok_bind, hcast,
        addW_ok (by norm_num; omega), ok_bind]
      congr 2 <;> omega
    · simp only [if_neg h64, Bin.div3Carry]
      have h1 : c * 2 ^ w < 2 ^ (2 * w) := by
        rw [hBB]; exact Nat.mul_lt_mul_of_pos_right (by omega) (by omega)
      have h2 := carry_mul_add_lt ha hc
      rw [shlW_ok (by omega) h1, ok_bind, divW_ok (by omega), ok_bind, remW_ok (by omega), ok_bind,
        pure_eq_ok, mul_or_eq_add ha,
        castW_ok (w := 8) (lt_trans (Nat.mod_lt _ (by omega)) (by norm_num)),
        castW_ok (by rw [Nat.div_lt_iff_lt_mul (by omega), Nat.mul_comm (2 ^ w)]; exact h2)]
  · -- addProd
    intro a f g c ha hf hg hc
    have h := mul_pred_lt hf hg
    simp only [binOps, Bin.addProd]
    rw [mulW_ok (by rw [hBB]; omega), ok_bind, addW_ok (by rw [hBB]; omega), ok_bind,
      addW_ok (by rw [hBB]; omega), ok_bind,
      shrW_ok (by omega), ok_bind, pure_eq_ok, hsplit, castW_ok (Nat.mod_lt _ (by omega)),
      castW_ok (by rw [Nat.div_lt_iff_lt_mul (by omega)]; omega)]
  · -- subProd
    intro a f g c ha hf hg hc
    have h := mul_pred_lt hf hg
    simp only [binOps, Bin.subProd]
    have hq := subProd_carry_lt (a := a) hf hg hc
    rw [mulW_ok (by rw [hBB]; omega), ok_bind, addW_ok (by rw [hBB]; omega), ok_bind]
    simp only [overflowingSub]
    rw [shrW_ok (by omega), ok_bind, hsplit, castW_ok (Nat.mod_lt _ (by omega)),
      castW_ok (w := w) (by omega : (f * g + c) / 2 ^ w < 2 ^ w),
      addW_ok hq, ok_bind,
      pure_eq_ok]

/-! ## Decimal digits -/

section Dec
variable {dbg : Bool} {w rx : Nat}

theorem dec_maxShift (h100 : 100 ≤ rx) (hw : rx < 2 ^ w) (d : Nat) (hd : 0 < d) (hdr : d < rx) :
    ∃ s, Dec.maxShift dbg w rx d = .ok s ∧ d * 2 ^ s < rx ∧ rx ≤ d * 2 ^ (s + 1) := by
  obtain ⟨h1, h2⟩ := log2_bounds hd
  obtain ⟨h3, h4⟩ := log2_bounds (d := rx - 1) (by omega)
  generalize hl : Nat.log2 d = l at *
  generalize hL : Nat.log2 (rx - 1) = L at *
  have hLw : L < w := by
    have : 2 ^ L < 2 ^ w := by omega
    exact (Nat.pow_lt_pow_iff_right (by norm_num)).mp this
  have hlL : l ≤ L := by
    have : 2 ^ l < 2 ^ (L + 1) := by omega
    have := (Nat.pow_lt_pow_iff_right (by norm_num)).mp this
    omega
  have hlz1 : leadingZeros w d = w - 1 - l := by simp [leadingZeros, hl]; omega
  have hlz2 : leadingZeros w (rx - 1) = w - 1 - L := by simp [leadingZeros, hL]; omega
  have hup : d * 2 ^ (L - l) < 2 ^ (L + 1) := by
    calc _ < 2 ^ (l + 1) * 2 ^ (L - l) := Nat.mul_lt_mul_of_pos_right h2 (Nat.two_pow_pos _)
      _ = _ := by rw [← pow_add]; congr 1; omega
  have hLw2 : 2 ^ (L + 1) ≤ 2 ^ w := Nat.pow_le_pow_right (by norm_num) (by omega)
  unfold Dec.maxShift
  rw [hlz1, hlz2, subW_ok (by omega), ok_bind, show w - 1 - l - (w - 1 - L) = L - l by omega,
    shlW_ok (by omega) (by omega), ok_bind]
  by_cases hle : d * 2 ^ (L - l) ≤ rx - 1
  · refine ⟨L - l, by simp [hle], by omega, ?_⟩
    have : 2 ^ (L + 1) ≤ d * 2 ^ (L - l + 1) := by
      calc 2 ^ (L + 1) = 2 ^ l * 2 ^ (L - l + 1) := by rw [← pow_add]; congr 1; omega
        _ ≤ _ := Nat.mul_le_mul_right _ h1
    omega
  · have hlt : l < L := by
      rcases Nat.lt_or_ge l L with h | h
      · exact h
      · exfalso; apply hle
        rw [show L - l = 0 by omega]; omega
    refine ⟨L - l - 1, ?_, ?_, ?_⟩
    · rw [if_neg hle, subW_ok (by omega)]
    · have e : d * 2 ^ (L - l) = 2 * (d * 2 ^ (L - l - 1)) := by
        rw [Nat.mul_left_comm, ← pow_succ']; congr 2; omega
      have e2 : 2 ^ (L + 1) = 2 * 2 ^ L := pow_succ' 2 L
      omega
    · rw [show L - l - 1 + 1 = L - l by omega]; omega

theorem dec_inc (h100 : 100 ≤ rx) (hw : rx + 1 < 2 ^ w) (d : Nat) (hd : d < rx) :
    Dec.inc dbg w rx d = .ok ((d + 1) % rx, decide (rx ≤ d + 1)) := by
  unfold Dec.inc
  split
  · have : d + 1 = rx := by omega
    simp [this]
  · rw [addW_ok (by omega), ok_bind, pure_eq_ok, Nat.mod_eq_of_lt (by omega)]
    simp; omega

theorem dec_dec (h100 : 100 ≤ rx) (d : Nat) (hd : d < rx) :
    Dec.dec dbg w rx d = .ok ((d + (rx - 1)) % rx, decide (d = 0)) := by
  unfold Dec.dec
  split
  · subst d; simp only [Nat.zero_add, decide_true]; rw [Nat.mod_eq_of_lt (by omega)]
  · rw [subW_ok (by omega), ok_bind, pure_eq_ok, show d + (rx - 1) = (d - 1) + rx by omega,
      Nat.add_mod_right, Nat.mod_eq_of_lt (by omega)]
    simp [*]

theorem dec_dec_wide (d : Nat) (hd : 0 < d) : Dec.dec dbg w rx d = .ok (d - 1, false) := by
  unfold Dec.dec
  rw [if_neg (by omega), subW_ok (by omega)]; rfl

theorem dec_subCarry (hw : rx + 1 < 2 ^ w) (a b : Nat) (c : Bool) (ha : a < rx) (hb : b < rx) :
    Dec.subCarry dbg w rx a b c
      = .ok ((a + rx - (b + c.toNat)) % rx, decide (a < b + c.toNat)) := by
  have hc := toNat_le_one c
  unfold Dec.subCarry
  rw [addW_ok (by omega), ok_bind]
  split
  · rw [subW_ok (by omega), ok_bind, addW_ok (by omega), ok_bind, pure_eq_ok]
    congr 2
    · rw [Nat.mod_eq_of_lt (by omega)]; omega
    · simp [*]
  · rw [subW_ok (by omega), ok_bind, pure_eq_ok]
    congr 2
    · rw [show a + rx - (b + c.toNat) = (a - (b + c.toNat)) + rx by omega, Nat.add_mod_right,
        Nat.mod_eq_of_lt (by omega)]
    · simp; omega

theorem wide_lt (hw : rx + 1 < 2 ^ w) : rx * rx + 2 * rx < 2 ^ (2 * w) := by
  rw [Nat.two_mul w, pow_add]
  nlinarith

theorem dec_shrCarry (hw : rx + 1 < 2 ^ w) (a s c : Nat) (ha : a < rx) (hs : 0 < s)
    (hsB : 2 ^ s < rx) (hc : c < 2 ^ s) :
    Dec.shrCarry dbg w rx a s c = .ok ((c * rx + a) / 2 ^ s, (c * rx + a) % 2 ^ s) := by
  have hsw : s < w := (Nat.pow_lt_pow_iff_right (by norm_num : 1 < 2)).mp (by omega)
  have hp : 1 * 2 ^ (s - 1) < 2 ^ (2 * w) := by
    rw [Nat.one_mul]; exact Nat.pow_lt_pow_right (by norm_num) (by omega)
  have hwide := wide_lt hw
  have h1 := carry_mul_add_lt ha hc
  have h2 : 2 ^ s * rx ≤ rx * rx := Nat.mul_le_mul_right _ hsB.le
  have hq : (c * rx + a) / 2 ^ s < 2 ^ w := by
    have : (c * rx + a) / 2 ^ s < rx := by
      rw [Nat.div_lt_iff_lt_mul (Nat.two_pow_pos _), Nat.mul_comm rx]; exact h1
    omega
  have hr : (c * rx + a) % 2 ^ s < 2 ^ w := by
    have := Nat.mod_lt (c * rx + a) (Nat.two_pow_pos s)
    omega
  unfold Dec.shrCarry
  rw [subW_ok (by omega), ok_bind, shlW_ok (by omega) hp, ok_bind, Nat.one_mul,
    subW_ok (Nat.two_pow_pos _), ok_bind, mulW_ok (by omega), ok_bind, addW_ok (by omega), ok_bind,
    shrW_ok (by omega), ok_bind, pure_eq_ok, or_pred_mask hs, Nat.and_two_pow_sub_one_eq_mod,
    castW_ok hq, castW_ok hr]

theorem dec_remCarry (hw : rx + 1 < 2 ^ w) (a f c : Nat) (ha : a < rx) (hf : f < rx) (hc : c < f) :
    Dec.remCarry dbg w rx a f c = .ok ((c * rx + a) % f) := by
  have hwide := wide_lt hw
  have h1 := carry_mul_add_lt ha hc
  have h2 : f * rx ≤ rx * rx := Nat.mul_le_mul_right _ hf.le
  have := Nat.mod_lt (c * rx + a) (show 0 < f by omega)
  unfold Dec.remCarry
  rw [mulW_ok (by omega), ok_bind, addW_ok (by omega), ok_bind, remW_ok (by omega), ok_bind,
    pure_eq_ok, castW_ok (by omega)]

/-- Division of two digits by one; the quotient may exceed the base by one (`carry = fac`). -/
theorem dec_divCarry (hw : rx + 1 < 2 ^ w) (a f c : Nat) (ha : a < rx) (hf : f < rx) (hc : c ≤ f)
    (hf0 : 0 < f) (hq : (c * rx + a) / f ≤ rx + 1) :
    Dec.divCarry dbg w rx a f c = .ok ((c * rx + a) / f, (c * rx + a) % f) := by
  have hwide := wide_lt hw
  have h1 : c * rx ≤ f * rx := Nat.mul_le_mul_right _ hc
  have h2 : f * rx ≤ rx * rx := Nat.mul_le_mul_right _ hf.le
  have := Nat.mod_lt (c * rx + a) hf0
  unfold Dec.divCarry
  rw [mulW_ok (by omega), ok_bind, addW_ok (by omega), ok_bind, divW_ok hf0, ok_bind, remW_ok hf0,
    ok_bind, pure_eq_ok, castW_ok (w := w) (a := _ % f) (by omega), castW_ok (by omega)]

theorem div_carry_lt (a f c : Nat) (ha : a < rx) (hc : c < f) : (c * rx + a) / f < rx := by
  rw [Nat.div_lt_iff_lt_mul (by omega), Nat.mul_comm rx]; exact carry_mul_add_lt ha hc

/-- Multiplication; the factor may exceed the base by one, and the carry may be the base. -/
theorem dec_mulCarry (hw : rx + 1 < 2 ^ w) (a f c : Nat) (ha : a < rx) (hf : f ≤ rx + 1)
    (hc : c ≤ rx) :
    Dec.mulCarry dbg w rx a f c = .ok ((a * f + c) % rx, (a * f + c) / rx) := by
  have hwide := wide_lt hw
  have h1 : a * f ≤ (rx - 1) * (rx + 1) := Nat.mul_le_mul (by omega) hf
  have h2 : (rx - 1) * (rx + 1) + 1 = rx * rx := by
    obtain ⟨n, rfl⟩ : ∃ n, rx = n + 1 := ⟨rx - 1, by omega⟩
    simp; ring
  have hr := Nat.mod_lt (a * f + c) (show 0 < rx by omega)
  have hq : (a * f + c) / rx < rx + 1 := by
    rw [Nat.div_lt_iff_lt_mul (by omega)]
    have : (rx + 1) * rx = rx * rx + rx := by ring
    omega
  unfold Dec.mulCarry
  rw [mulW_ok (by omega), ok_bind, addW_ok (by omega), ok_bind, remW_ok (by omega), ok_bind,
    divW_ok (by omega), ok_bind, pure_eq_ok, castW_ok (by omega), castW_ok (by omega)]

theorem dec_lawful (h100 : 100 ≤ rx) (hw : 2 * rx ≤ 2 ^ w) : Lawful (decOps dbg w rx) rx := by
  have hw1 : rx + 1 < 2 ^ w := by omega
  have hwide := wide_lt hw1
  have hr : ∀ x, x % rx < 2 ^ w := fun x => by
    have := Nat.mod_lt x (show 0 < rx by omega)
    omega
  refine ⟨h100, rfl, fun d hd hd' => dec_maxShift h100 (by omega) d hd hd', dec_inc h100 hw1,
    dec_dec h100, ?_, dec_subCarry hw1, ?_, dec_shrCarry hw1, ?_,
    fun a f c ha hf hc => dec_mulCarry hw1 a f c ha (by omega) (by omega),
    dec_remCarry hw1,
    fun a f c ha hf hc => dec_divCarry hw1 a f c ha hf (by omega) (by omega)
      (by have := div_carry_lt a f c ha hc; omega), ?_, ?_, ?_⟩
  · -- addCarry
    intro a b c ha hb
    have hc := toNat_le_one c
    simp only [decOps, Dec.addCarry]
    rw [addW_ok (by omega), ok_bind, addW_ok (by omega), ok_bind, ← Nat.add_assoc]
    split
    · rw [subW_ok (by omega), ok_bind, pure_eq_ok, Nat.mod_eq_sub_mod (by omega),
        Nat.mod_eq_of_lt (by omega)]
      simp [*]
    · rw [Nat.mod_eq_of_lt (by omega)]
      simp; omega
  · -- shlCarry
    intro a s c ha hs hsB hc
    have hsw : s < w := (Nat.pow_lt_pow_iff_right (by norm_num : 1 < 2)).mp (by omega)
    have h1 : a * 2 ^ s + c < rx * 2 ^ s := carry_mul_add_lt hc ha
    have h2 : rx * 2 ^ s ≤ rx * rx := Nat.mul_le_mul_left _ hsB.le
    have hq : (a * 2 ^ s + c) / rx < 2 ^ w := by
      have : (a * 2 ^ s + c) / rx < rx := by
        rw [Nat.div_lt_iff_lt_mul (by omega)]; omega
      omega
    simp only [decOps, Dec.shlCarry]
    rw [shlW_ok (by omega) (by omega), ok_bind, addW_ok (by omega), ok_bind, remW_ok (by omega),
      ok_bind, divW_ok (by omega), ok_bind, pure_eq_ok, castW_ok hq, castW_ok (hr _)]
  · -- doubleCarry
    intro a c ha
    have hc := toNat_le_one c
    have hw0 : 1 < w := by
      by_contra h
      have : 2 ^ w ≤ 2 ^ 1 := Nat.pow_le_pow_right (by norm_num) (by omega)
      omega
    simp only [decOps, Dec.doubleCarry]
    rw [shlW_ok (by omega) (by omega), ok_bind, mul_or_eq_add (by omega),
      show a * 2 ^ 1 + c.toNat = 2 * a + c.toNat by omega]
    split
    · rw [subW_ok (by omega), ok_bind, pure_eq_ok, Nat.mod_eq_sub_mod (by omega),
        Nat.mod_eq_of_lt (by omega)]
      simp [*]
    · rw [Nat.mod_eq_of_lt (by omega)]
      simp; omega
  · -- div3Carry
    intro a c ha hc
    have h1 := carry_mul_add_lt ha hc
    have h2 : 3 * rx ≤ rx * rx := Nat.mul_le_mul_right _ (by omega)
    simp only [decOps, Dec.div3Carry]
    rw [mulW_ok (by omega), ok_bind, addW_ok (by omega), ok_bind, divW_ok (by omega), ok_bind,
      remW_ok (by omega), ok_bind, pure_eq_ok,
      castW_ok (w := 8) (lt_trans (Nat.mod_lt _ (by omega)) (by norm_num)), castW_ok (by omega)]
  · -- addProd
    intro a f g c ha hf hg hc
    have h := mul_pred_lt hf hg
    have hq : (a + f * g + c) / rx < rx := by rw [Nat.div_lt_iff_lt_mul (by omega)]; omega
    simp only [decOps, Dec.addProd]
    rw [mulW_ok (by omega), ok_bind, addW_ok (by omega), ok_bind, addW_ok (by omega), ok_bind,
      remW_ok (by omega), ok_bind, divW_ok (by omega), ok_bind, pure_eq_ok, castW_ok (hr _),
      castW_ok (by omega)]
  · -- subProd
    intro a f g c ha hf hg hc
    have h := mul_pred_lt hf hg
    have hq : (f * g + c) / rx < rx := by rw [Nat.div_lt_iff_lt_mul (by omega)]; omega
    have hm := Nat.mod_lt (f * g + c) (show 0 < rx by omega)
    simp only [decOps, Dec.subProd]
    rw [mulW_ok (by omega), ok_bind, addW_ok (by omega), ok_bind, remW_ok (by omega), ok_bind,
      castW_ok (hr _), dec_subCarry hw1 _ _ _ ha hm, ok_bind]
    simp only [Bool.toNat_false, Nat.add_zero]
    rw [divW_ok (by omega), ok_bind, castW_ok (by omega),
      addW_ok (by have := toNat_le_one (decide (a < (f * g + c) % rx)); omega), ok_bind, pure_eq_ok]

end Dec

/-! ## 64 bit decimal digits -/

/-- `div_rem_base` computes quotient and remainder by `10^19` for all products of two digits. -/
theorem divRemBase_ok {dbg : Bool} {n : Nat}
    (hn : n < 10000000000000000000 * 10000000000000000000 + 2 * 10000000000000000000) :
    Dec64.divRemBase dbg n = .ok (n / 10000000000000000000, n % 10000000000000000000) := by
  have hsplit : n &&& 0xffffffffffffffff = n % 2 ^ 64 := Nat.and_two_pow_sub_one_eq_mod n 64
  have hdm := Nat.div_add_mod n (2 ^ 64)
  have hl : n % 2 ^ 64 < 2 ^ 64 := Nat.mod_lt _ (by norm_num)
  unfold Dec64.divRemBase
  simp only [Dec64.scaleLow, Dec64.scaleHigh, Dec64.radix]
  rw [hsplit, shrW_ok (by norm_num), ok_bind]
  generalize n / 2 ^ 64 = h at *
  generalize n % 2 ^ 64 = l at *
  norm_num at hl hdm
  rw [mulW_ok (by norm_num; omega), ok_bind, shrW_ok (by norm_num), ok_bind,
    mulW_ok (by norm_num; omega), ok_bind, mulW_ok (by norm_num; omega), ok_bind,
    addW_ok (by norm_num; omega), ok_bind,
    addW_ok (by norm_num; omega), ok_bind, shrW_ok (by norm_num), ok_bind,
    mulW_ok (by norm_num; omega), ok_bind, addW_ok (by norm_num; omega), ok_bind,
    addW_ok (by norm_num; omega), ok_bind, shrW_ok (by norm_num), ok_bind,
    addW_ok (by norm_num; omega), ok_bind]
  have hq : (15581492618384294730 * h + (6225051964306646475 * h + 15581492618384294730 * l
      + 6225051964306646475 * l / 2 ^ 64) / 2 ^ 64 + l) / 2 ^ 64 + h
      = n / 10000000000000000000 := by
    norm_num
    omega
  rw [hq]
  rw [mulW_ok (by norm_num; omega), ok_bind, subW_ok (by omega), ok_bind, pure_eq_ok,
    castW_ok (by norm_num; omega), castW_ok (by norm_num; omega)]
  congr 2
  omega

theorem dec64_lawful (dbg : Bool) : Lawful (dec64Ops dbg) 10000000000000000000 := by
  have hw1 : 10000000000000000000 + 1 < 2 ^ 64 := by norm_num
  refine ⟨by norm_num, rfl, fun d hd hd' => dec_maxShift (rx := 10000000000000000000) (by norm_num) (by norm_num) d hd hd',
    dec_inc (by norm_num) hw1, dec_dec (by norm_num), ?_, dec_subCarry hw1, ?_, dec_shrCarry hw1,
    ?_, ?_, dec_remCarry hw1,
    fun a f c ha hf hc => dec_divCarry hw1 a f c ha hf (by omega) (by omega)
      (by have := div_carry_lt a f c ha hc; omega), ?_, ?_, ?_⟩
  · -- addCarry
    intro a b c ha hb
    have hc := toNat_le_one c
    simp only [dec64Ops, Dec64.addCarry]
    rw [addW_ok (by norm_num; omega), ok_bind]
    simp only [overflowingAdd, Dec64.radix, wrappingSub, Bool.or_eq_true, decide_eq_true_eq]
    norm_num
    split
    · simp only [Except.ok.injEq, Prod.mk.injEq]
      exact ⟨by omega, (decide_eq_true (by omega)).symm⟩
    · simp only [Except.ok.injEq, Prod.mk.injEq]
      exact ⟨by omega, (decide_eq_false (by omega)).symm⟩
  · -- shlCarry
    intro a s c ha hs hsB hc
    have hsw : s < 64 := (Nat.pow_lt_pow_iff_right (by norm_num : 1 < 2)).mp (by omega)
    have h1 : a * 2 ^ s + c < 10000000000000000000 * 2 ^ s := carry_mul_add_lt hc ha
    simp only [dec64Ops, Dec64.shlCarry]
    rw [shlW_ok (by omega) (by norm_num; omega), ok_bind, addW_ok (by norm_num; omega), ok_bind,
      divRemBase_ok (by omega), ok_bind]
    rfl
  · -- doubleCarry
    intro a c ha
    have hc := toNat_le_one c
    simp only [dec64Ops, Dec64.doubleCarry]
    rw [shlW_ok (by omega) (by norm_num), ok_bind, shlW_ok' (by omega), ok_bind, Nat.one_mul,
      Nat.and_two_pow]
    have h2 : a * 2 ^ 1 % 2 ^ 64 = (a % 2 ^ 63) * 2 ^ 1 := by norm_num; omega
    rw [h2, mul_or_eq_add (by omega)]
    have hb : (a.testBit 63).toNat * 2 ^ 63 != 0 ↔ 2 ^ 63 ≤ a := by
      rw [Nat.testBit_eq_decide_div_mod_eq]
      norm_num
      omega
    simp only [Dec64.radix, wrappingSub, Bool.or_eq_true, hb]
    norm_num
    split
    · simp only [Except.ok.injEq, Prod.mk.injEq]
      exact ⟨by omega, (decide_eq_true (by omega)).symm⟩
    · simp only [Except.ok.injEq, Prod.mk.injEq]
      exact ⟨by omega, (decide_eq_false (by omega)).symm⟩
  · -- mulCarry
    intro a f c ha hf hc
    have h := mul_pred_lt ha hf
    simp only [dec64Ops, Dec64.mulCarry]
    rw [mulW_ok (by norm_num; omega), ok_bind, addW_ok (by norm_num; omega), ok_bind,
      divRemBase_ok (by omega), ok_bind]
    rfl
  · -- div3Carry
    intro a c ha hc
    simp only [dec64Ops, Dec64.div3Carry, Dec64.radix]
    rw [addW_ok (by norm_num; omega), ok_bind, mulW_ok (by norm_num; omega), ok_bind,
      addW_ok (by norm_num; omega), ok_bind, pure_eq_ok, castW_ok (by norm_num; omega)]
    congr 2 <;> omega
  · -- addProd
    intro a f g c ha hf hg hc
    have h := mul_pred_lt hf hg
    simp only [dec64Ops, Dec64.addProd]
    rw [mulW_ok (by norm_num; omega), ok_bind, addW_ok (by norm_num; omega), ok_bind,
      addW_ok (by norm_num; omega), ok_bind, divRemBase_ok (by omega), ok_bind]
    rfl
  · -- subProd
    intro a f g c ha hf hg hc
    have h := mul_pred_lt hf hg
    have hm := Nat.mod_lt (f * g + c) (show 0 < 10000000000000000000 by omega)
    simp only [dec64Ops, Dec64.subProd]
    rw [mulW_ok (by norm_num; omega), ok_bind, addW_ok (by norm_num; omega), ok_bind,
      divRemBase_ok (by omega), ok_bind]
    simp only [Dec64.radix]
    rw [dec_subCarry hw1 _ _ _ ha hm, ok_bind]
    simp only [Bool.toNat_false, Nat.add_zero]
    rw [addW_ok (by
      have := toNat_le_one (decide (a < (f * g + c) % 10000000000000000000))
      norm_num; omega), ok_bind, pure_eq_ok]

/-! ## All types -/

/-- The laws hold for every digit type, in debug and in release builds. -/
theorem ops_lawful (t : DType) (dbg : Bool) : Lawful (t.ops dbg) t.radix := by
  rcases t with w | w
  · exact bin_lawful dbg w.bits (by cases w <;> simp [Width.bits])
  · cases w with
    | w8 => exact dec_lawful (by norm_num) (by norm_num)
    | w16 => exact dec_lawful (by norm_num) (by norm_num)
    | w32 => exact dec_lawful (by norm_num) (by norm_num)
    | w64 => exact dec64_lawful dbg

end Babs
