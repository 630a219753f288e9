import Verif.Model.DigitArith
import Verif.Props.Div
import Verif.Props.Mul

/-!
# C44, C45: operators on digits, and the number of digits
-/

namespace Babs.Props

variable (t : DType) (dbg : Bool)

theorem radix_le_word : t.radix ≤ 2 ^ UBig.bits t := by
  rcases t with w | w <;> cases w <;> decide +kernel

/-- C44 (in part): the sum and product of two digits are exact digits if they are less than the radix.
Missing: larger results, where `digit_add_wrong` shows that the result need not be a digit. -/
theorem digit_add_mul_exact_partial (a b : Nat) :
    (a + b < t.radix → digitAdd t dbg a b = .ok (a + b)) ∧
    (a * b < t.radix → digitMul t dbg a b = .ok (a * b)) := by
  have := radix_le_word t
  constructor
  · intro h; unfold digitAdd addW; rw [if_pos (by omega)]
  · intro h; unfold digitMul mulW; rw [if_pos (by omega)]

/-- C44: for binary digits, a result that is too large is a panic in a debug build, and is reduced
modulo the radix in a release build. -/
theorem digit_add_mul_binary (w : Width) (a b : Nat) :
    ((DType.bin w).radix ≤ a + b → Panics (digitAdd (.bin w) true a b) .overflow ∧
      digitAdd (.bin w) false a b = .ok ((a + b) % (DType.bin w).radix)) ∧
    ((DType.bin w).radix ≤ a * b → Panics (digitMul (.bin w) true a b) .overflow ∧
      digitMul (.bin w) false a b = .ok ((a * b) % (DType.bin w).radix)) := by
  have e : (DType.bin w).radix = 2 ^ UBig.bits (.bin w) := rfl
  rw [e]
  constructor
  · intro h
    simp only [Panics, digitAdd, addW, if_neg (show ¬ a + b < 2 ^ UBig.bits (.bin w) by omega)]
    exact ⟨rfl, rfl⟩
  · intro h
    simp only [Panics, digitMul, mulW, if_neg (show ¬ a * b < 2 ^ UBig.bits (.bin w) by omega)]
    exact ⟨rfl, rfl⟩

/-- C44: zero and one are neutral, as the traits `Zero` and `One` ask for. -/
theorem digit_neutral (a : Nat) (ha : a < t.radix) :
    digitAdd t dbg a 0 = .ok a ∧ digitAdd t dbg 0 a = .ok a ∧
    digitMul t dbg a 1 = .ok a ∧ digitMul t dbg 1 a = .ok a := by
  have h := digit_add_mul_exact_partial t dbg
  refine ⟨?_, ?_, ?_, ?_⟩
  · simpa using (h a 0).1 (by omega)
  · simpa using (h 0 a).1 (by omega)
  · simpa using (h a 1).2 (by omega)
  · simpa using (h 1 a).2 (by omega)

/-- C44, refuted for decimal digits: the sum of the largest digit and one is returned, in debug and
release builds, and is not a digit.  `UBig::new` accepts it; the number it makes is not equal to the same
number converted from a word. -/
theorem digit_add_wrong (w : Width) :
    digitAdd (.dec w) dbg (w.decRadix - 1) 1 = .ok w.decRadix ∧
    UBig.new [w.decRadix] = .ok [w.decRadix] ∧ ¬ Digs (DType.dec w).radix [w.decRadix] ∧
    Rep (DType.dec w).radix (UBig.ofWord (.dec w) w.decRadix) w.decRadix ∧
    UBig.eq [w.decRadix] (UBig.ofWord (.dec w) w.decRadix) = false ∧
    UBig.cmp [w.decRadix] (UBig.ofWord (.dec w) w.decRadix) = .lt := by
  cases w <;> cases dbg <;> decide +kernel

/-- C45: the number of digits. -/
theorem nrDigits_exact (x : List Nat) (m : Nat) (hx : Rep t.radix x m) :
    m < t.radix ^ nrDigits x ∧ (m = 0 → nrDigits x = 0) ∧
    (m ≠ 0 → t.radix ^ (nrDigits x - 1) ≤ m) := by
  have hB := (ops_lawful t true).pos
  refine ⟨by rw [← hx.val_eq]; exact val_lt hx.digs, ?_, Rep.pow_le hB hx⟩
  rintro rfl
  rw [hx.unique (rep_zero _)]; rfl

/-- C45: the number of digits of a sum is that of the larger term, or one more. -/
theorem nrDigits_add (x y : List Nat) (m n : Nat) (hx : Rep t.radix x m) (hy : Rep t.radix y n) :
    Returns (UBig.add t dbg x y) fun z =>
      max (nrDigits x) (nrDigits y) ≤ nrDigits z ∧ nrDigits z ≤ max (nrDigits x) (nrDigits y) + 1 := by
  have L := ops_lawful t dbg
  obtain ⟨z, h1, h2, h3, h4, h5⟩ := addBig_spec L x y hx.digs hy.digs
  refine ⟨z, h1, ?_, h5⟩
  have a := hx.canon.length_le L.pos h2 (by rw [h3]; omega)
  have b := hy.canon.length_le L.pos h2 (by rw [h3]; omega)
  exact max_le a b

/-- C45: the number of digits of a nonzero product that is returned is the sum of those of the factors,
or one less. -/
theorem nrDigits_mul (x y z : List Nat) (m n : Nat) (hx : Rep t.radix x m) (hy : Rep t.radix y n)
    (h0 : m ≠ 0) (h1 : n ≠ 0) (h : UBig.mul t dbg x y = .ok z) :
    nrDigits x + nrDigits y ≤ nrDigits z + 1 ∧ nrDigits z ≤ nrDigits x + nrDigits y := by
  have hB := (ops_lawful t dbg).base
  have hz := mul_exact_or_unwrap t dbg x y m n hx hy
  rw [h] at hz
  obtain ⟨a1, -, a3⟩ := nrDigits_exact t x m hx
  obtain ⟨b1, -, b3⟩ := nrDigits_exact t y n hy
  obtain ⟨c1, -, c3⟩ := nrDigits_exact t z _ hz
  have a3 := a3 h0
  have b3 := b3 h1
  have c3 := c3 (Nat.mul_ne_zero h0 h1)
  have lt : ∀ {a b : Nat}, t.radix ^ a < t.radix ^ b → a < b := fun h =>
    (Nat.pow_lt_pow_iff_right (by omega)).mp h
  have p1 := Nat.mul_le_mul a3 b3
  rw [← pow_add] at p1
  have p2 := lt (lt_of_le_of_lt p1 c1)
  have p3 : m * n < t.radix ^ nrDigits x * t.radix ^ nrDigits y :=
    Nat.mul_lt_mul'' a1 b1
  rw [← pow_add] at p3
  have p4 := lt (lt_of_le_of_lt c3 p3)
  omega

/-! ## The hypotheses can be met -/

example : digitAdd (.dec .w8) true 45 54 = .ok 99 ∧ digitMul (.dec .w8) true 9 11 = .ok 99 := by decide
example : digitAdd (.bin .w8) false 200 100 = .ok 44 ∧ digitAdd (.bin .w8) true 200 100 = .error .overflow := by
  decide
example : UBig.mul (.dec .w8) true [10, 5] [20, 6] = .ok [0, 62, 31] ∧ nrDigits [0, 62, 31] = 3 := by
  decide +kernel

end Babs.Props
