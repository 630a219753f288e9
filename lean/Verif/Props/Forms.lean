import Verif.Model.Forms
import Verif.Props.Word
import Verif.Props.Div
import Verif.Props.MulSafe

/-!
# The forms of the operators (C50), and what a panic leaves behind (C51)
-/

namespace Babs.Props

open After

variable (t : DType) (dbg : Bool)

theorem lost_result {α : Type} (r : R α) (f : α → After) :
    (lost r f).result = r >>= fun a => (f a).result := by
  cases r <;> rfl

theorem kept_result {α : Type} (x : List Nat) (r : R α) (f : α → After) :
    (kept x r f).result = r >>= fun a => (f a).result := by
  cases r <;> rfl

theorem bind_ok {α : Type} (r : R α) : (r >>= fun a => (.ok a : R α)) = r := by
  cases r <;> rfl

/-! ## C50: all forms of an operator do the same -/

theorem addAssignRef_result (x y : List Nat) :
    (Forms.addAssignRef t dbg x y).result = UBig.add t dbg x y := by
  unfold Forms.addAssignRef
  rw [lost_result]
  exact bind_ok _

theorem subAssignRef_result (x y : List Nat) :
    (Forms.subAssignRef t dbg x y).result = UBig.sub t dbg x y := by
  unfold Forms.subAssignRef UBig.sub subBig
  rw [lost_result]
  congr 1
  funext ⟨z, r⟩
  cases r <;> rfl

theorem mulAssignRef_result (x y : List Nat) :
    (Forms.mulAssignRef t dbg x y).result = UBig.mul t dbg x y := by
  unfold Forms.mulAssignRef
  rw [kept_result]
  exact bind_ok _

theorem divAssignRef_result (x y : List Nat) :
    (Forms.divAssignRef t dbg x y).result = UBig.div t dbg x y := by
  unfold Forms.divAssignRef UBig.div divOp
  rcases divAssignBig (t.ops dbg) dbg x y with p | ⟨z, _ | _⟩ <;> rfl

theorem remAssignRef_result (x y : List Nat) :
    (Forms.remAssignRef t dbg x y).result = UBig.rem t dbg x y := by
  unfold Forms.remAssignRef UBig.rem remOp
  rcases remAssignBig (t.ops dbg) dbg x y with p | ⟨z, _ | _⟩ <;> rfl

/-- C50: for any two lists of digits, the six forms of each operator on big numbers return the same
digits or panic in the same way. -/
theorem big_forms_agree (f : Forms.Big) (x y : List Nat) :
    Forms.add t dbg f x y = UBig.add t dbg x y ∧
    Forms.sub t dbg f x y = UBig.sub t dbg x y ∧
    Forms.mul t dbg f x y = UBig.mul t dbg x y ∧
    Forms.div t dbg f x y = UBig.div t dbg x y ∧
    Forms.rem t dbg f x y = UBig.rem t dbg x y := by
  have h1 := addAssignRef_result t dbg x y
  have h2 := subAssignRef_result t dbg x y
  have h3 := mulAssignRef_result t dbg x y
  have h4 := divAssignRef_result t dbg x y
  have h5 := remAssignRef_result t dbg x y
  cases f <;> exact ⟨by first | exact h1, by first | exact h2, by first | exact h3 | rfl,
    by first | exact h4, by first | exact h5⟩

theorem addAssignDigit_result (x : List Nat) (d : Nat) :
    (Forms.addAssignDigit t dbg x d).result = UBig.addDigit t dbg x d := by
  unfold Forms.addAssignDigit UBig.addDigit Babs.addDigit
  rw [lost_result]
  congr 1
  funext ⟨z, r⟩
  cases r <;> rfl

theorem subAssignDigit_result (x : List Nat) (d : Nat) :
    (Forms.subAssignDigit t dbg x d).result = UBig.subDigit t dbg x d := by
  unfold Forms.subAssignDigit UBig.subDigit Babs.subDigit
  rw [lost_result]
  congr 1
  funext ⟨z, r⟩
  cases r <;> rfl

theorem mulAssignDigit_result (x : List Nat) (d : Nat) :
    (Forms.mulAssignDigit t dbg x d).result = UBig.mulDigit t dbg x d := by
  unfold Forms.mulAssignDigit
  rw [lost_result]
  exact bind_ok _

theorem divAssignDigit_result (x : List Nat) (d : Nat) :
    (Forms.divAssignDigit t dbg x d).result = UBig.divDigit t dbg x d := by
  unfold Forms.divAssignDigit UBig.divDigit Babs.divDigit
  rw [lost_result]
  congr 1
  funext ⟨z, r⟩
  cases r <;> rfl

theorem ubigNew_single (d : Nat) : ubigNew [d] = .ok (if d = 0 then [] else [d]) := by
  by_cases h : d = 0
  · subst h; rfl
  · simp [ubigNew, normalise, dropLeadingZeros, dropZerosGo, getR, h]

theorem remAssignDigit_result (x : List Nat) (d : Nat) :
    (Forms.remAssignDigit t dbg x d).result = UBig.remDigit t dbg x d := by
  unfold Forms.remAssignDigit UBig.remDigit remDigitOp
  rw [kept_result]
  congr 1
  funext r
  cases r with
  | error e => rfl
  | ok d => exact (ubigNew_single d).symm

/-- C50: for any list of digits and any digit, the three forms of each operator return the same digits
or panic in the same way. -/
theorem digit_forms_agree (f : Forms.Small) (x : List Nat) (d : Nat) :
    Forms.addDigit t dbg f x d = UBig.addDigit t dbg x d ∧
    Forms.subDigit t dbg f x d = UBig.subDigit t dbg x d ∧
    Forms.mulDigit t dbg f x d = UBig.mulDigit t dbg x d ∧
    Forms.divDigit t dbg f x d = UBig.divDigit t dbg x d ∧
    Forms.remDigit t dbg f x d = UBig.remDigit t dbg x d := by
  have h1 := addAssignDigit_result t dbg x d
  have h2 := subAssignDigit_result t dbg x d
  have h3 := mulAssignDigit_result t dbg x d
  have h4 := divAssignDigit_result t dbg x d
  have h5 := remAssignDigit_result t dbg x d
  cases f <;> exact ⟨h1, h2, h3, h4, by first | exact h5 | rfl⟩

theorem addAssignWord_result (x : List Nat) (n : Nat) :
    (Forms.addAssignWord t dbg x n).result = UBig.addWord t dbg x n := by
  cases t with
  | bin w => exact addAssignDigit_result _ dbg x n
  | dec w =>
    unfold Forms.addAssignWord UBig.addWord addWordDec
    simp only
    by_cases h : n < w.decRadix
    · rw [if_pos h, if_pos h]
      exact addAssignDigit_result _ dbg x n
    · rw [if_neg h, if_neg h]
      have h1 := addAssignDigit_result (.dec w) dbg x (n % w.decRadix)
      unfold UBig.addDigit at h1
      rw [← h1]
      cases Forms.addAssignDigit (.dec w) dbg x (n % w.decRadix) with
      | panicked left p => rfl
      | done z =>
        refine (lost_result _ _).trans ?_
        rw [show (After.done z).result = .ok z from rfl, ok_bind]
        congr 1
        funext ⟨y, c⟩
        cases c <;> rfl

theorem subAssignWord_result (x : List Nat) (n : Nat) :
    (Forms.subAssignWord t dbg x n).result = UBig.subWord t dbg x n := by
  cases t with
  | bin w => exact subAssignDigit_result _ dbg x n
  | dec w =>
    unfold Forms.subAssignWord UBig.subWord subWordDec
    simp only
    by_cases h : n < w.decRadix
    · rw [if_pos h, if_pos h]
      exact subAssignDigit_result _ dbg x n
    · rw [if_neg h, if_neg h]
      have h1 := subAssignDigit_result (.dec w) dbg x (n % w.decRadix)
      unfold UBig.subDigit at h1
      rw [← h1]
      cases Forms.subAssignDigit (.dec w) dbg x (n % w.decRadix) with
      | panicked left p => rfl
      | done z =>
        cases z with
        | nil => rfl
        | cons d s =>
          refine (lost_result _ _).trans ?_
          rw [show (After.done (d :: s)).result = .ok (d :: s) from rfl, ok_bind, onSlice_tail]
          cases Babs.subAssignDigit ((DType.dec w).ops dbg) s (n / w.decRadix) with
          | error p => rfl
          | ok a =>
            obtain ⟨y, c⟩ := a
            cases c <;> rfl

theorem mulAssignWord_result (x : List Nat) (n : Nat) :
    (Forms.mulAssignWord t dbg x n).result = UBig.mulWord t dbg x n := by
  cases t with
  | bin w => exact mulAssignDigit_result _ dbg x n
  | dec w =>
    unfold Forms.mulAssignWord UBig.mulWord mulWordDec
    simp only
    by_cases h : n < w.decRadix
    · rw [if_pos h, if_pos h]
      exact mulAssignDigit_result _ dbg x n
    · rw [if_neg h, if_neg h, lost_result]
      exact bind_ok _

theorem divAssignWord_result (x : List Nat) (n : Nat) :
    (Forms.divAssignWord t dbg x n).result = UBig.divWord t dbg x n := by
  cases t with
  | bin w => exact divAssignDigit_result _ dbg x n
  | dec w =>
    unfold Forms.divAssignWord UBig.divWord divWordDec
    simp only
    by_cases h : n < w.decRadix
    · rw [if_pos h, if_pos h]
      exact divAssignDigit_result _ dbg x n
    · rw [if_neg h, if_neg h]
      unfold Forms.pairInPlace
      rcases divPairAssign ((DType.dec w).ops dbg) x (n % w.decRadix) (n / w.decRadix) with _ | ⟨q, _ | r⟩ <;> rfl

theorem remAssignWord_result (x : List Nat) (n : Nat) :
    (Forms.remAssignWord t dbg x n).result = UBig.remWord t dbg x n := by
  cases t with
  | bin w => exact remAssignDigit_result _ dbg x n
  | dec w =>
    unfold Forms.remAssignWord UBig.remWord remWordDec
    simp only
    by_cases h : n < w.decRadix
    · rw [if_pos h, if_pos h]
      unfold Forms.remAssignDigit remDigitAssign
      rw [kept_result]
      congr 1
      funext r
      cases r <;> rfl
    · rw [if_neg h, if_neg h]
      unfold Forms.pairInPlace
      rcases divPairAssign ((DType.dec w).ops dbg) x (n % w.decRadix) (n / w.decRadix) with _ | ⟨q, _ | r⟩ <;> rfl

/-- C50: for any list of digits and any word, the three forms of each operator return the same digits
or panic in the same way. -/
theorem word_forms_agree (f : Forms.Small) (x : List Nat) (n : Nat) :
    Forms.addWord t dbg f x n = UBig.addWord t dbg x n ∧
    Forms.subWord t dbg f x n = UBig.subWord t dbg x n ∧
    Forms.mulWord t dbg f x n = UBig.mulWord t dbg x n ∧
    Forms.divWord t dbg f x n = UBig.divWord t dbg x n ∧
    Forms.remWord t dbg f x n = UBig.remWord t dbg x n := by
  have h1 := addAssignWord_result t dbg x n
  have h2 := subAssignWord_result t dbg x n
  have h3 := mulAssignWord_result t dbg x n
  have h4 := divAssignWord_result t dbg x n
  have h5 := remAssignWord_result t dbg x n
  refine ⟨by cases f <;> exact h1, by cases f <;> exact h2, by cases f <;> exact h3,
    by cases f <;> exact h4, ?_⟩
  cases f with
  | assign => exact h5
  | val => cases t with
    | bin w => rfl
    | dec w => exact h5
  | ref => cases t with
    | bin w => rfl
    | dec w => exact h5

theorem shlAssign_result (x : List Nat) (n : Nat) :
    (Forms.shlAssign t dbg x n).result = UBig.shl t dbg x n := by
  cases t with
  | bin w =>
    unfold Forms.shlAssign UBig.shl shlBin
    simp only
    by_cases h : n % w.bits ≠ 0
    · rw [if_pos h, if_pos h]
      cases shlWithin ((DType.bin w).ops dbg) x (n % w.bits) 0 with
      | error p => rfl
      | ok a => rfl
    · rw [if_neg h, if_neg h]
      rfl
  | dec w =>
    unfold Forms.shlAssign UBig.shl shlDec
    simp only
    by_cases h : n ≤ 4 * UBig.maxHexPlaces w
    · rw [if_pos h, if_pos h, lost_result]
      rfl
    · rw [if_neg h, if_neg h, kept_result]
      have h1 : Forms.addValVal (.dec w) dbg ubigOne ubigOne
          = addBig ((DType.dec w).ops dbg) ubigOne ubigOne :=
        addAssignRef_result (.dec w) dbg ubigOne ubigOne
      rw [h1]
      congr 1
      funext two
      rw [kept_result]
      congr 1
      funext scale
      exact mulAssignRef_result (.dec w) dbg x scale

theorem shrAssign_result (x : List Nat) (n : Nat) :
    (Forms.shrAssign t dbg x n).result = UBig.shr t dbg x n := by
  cases t with
  | bin w =>
    unfold Forms.shrAssign UBig.shr shrBin
    simp only
    have key : ∀ z : List Nat, (if n % w.bits ≠ 0 then
          lost (shrWithin ((DType.bin w).ops dbg) z (n % w.bits) 0) fun a => .done (a.1.take a.2.1)
        else .done z).result = (do
          if n % w.bits ≠ 0 then
            let (x, nd, _) ← shrWithin ((DType.bin w).ops dbg) z (n % w.bits) 0
            return x.take nd
          else return z) := by
      intro z
      by_cases h : n % w.bits ≠ 0
      · rw [if_pos h, if_pos h, lost_result]
        rfl
      · rw [if_neg h, if_neg h]
        rfl
    by_cases h : n / w.bits ≠ 0
    · rw [if_pos h, if_pos h]
      cases slice x (n / w.bits) x.length with
      | error p => rfl
      | ok z => exact key z
    · rw [if_neg h, if_neg h]
      exact key x
  | dec w =>
    unfold Forms.shrAssign UBig.shr shrDec
    simp only
    by_cases h : n ≤ 4 * UBig.maxHexPlaces w
    · rw [if_pos h, if_pos h, lost_result]
      rfl
    · rw [if_neg h, if_neg h]
      rfl

/-- C50: for any list of digits and any distance, the three forms of each shift return the same digits
or panic in the same way; and so do the two forms of `pow`. -/
theorem shift_forms_agree (f : Forms.Small) (x : List Nat) (n : Nat) :
    Forms.shl t dbg f x n = UBig.shl t dbg x n ∧
    Forms.shr t dbg f x n = UBig.shr t dbg x n ∧
    Forms.powRef t dbg x n = UBig.pow t dbg x n := by
  have h1 := shlAssign_result t dbg x n
  have h2 := shrAssign_result t dbg x n
  exact ⟨by cases f <;> exact h1, by cases f <;> exact h2, rfl⟩

/-- C50: in each form, a sum is the sum, a difference is the difference or an underflow panics, and a
product that is returned is the product. -/
theorem forms_exact (f : Forms.Big) (x y : List Nat) (m n : Nat) (hx : Rep t.radix x m)
    (hy : Rep t.radix y n) :
    Returns (Forms.add t dbg f x y) (Rep t.radix · (m + n)) ∧
    (n ≤ m → Returns (Forms.sub t dbg f x y) (fun z => val t.radix z + n = m)) ∧
    (m < n → Panics (Forms.sub t dbg f x y) .explicit) ∧
    ReturnsOr (· = .unwrap) (Forms.mul t dbg f x y) (Rep t.radix · (m * n)) := by
  obtain ⟨h1, h2, h3, -, -⟩ := big_forms_agree t dbg f x y
  rw [h1, h2, h3]
  refine ⟨add_exact t dbg x y m n hx hy, fun h => ?_, sub_underflow t dbg x y m n hx hy,
    mul_exact_or_unwrap t dbg x y m n hx hy⟩
  obtain ⟨z, hz, hz1⟩ := sub_exact t dbg x y m n hx hy h
  exact ⟨z, hz, by simp only [hz1.2]; omega⟩

/-! ## C51: what a panic leaves behind -/

/-- C51: a `-=` that underflows leaves the operand alone if the subtrahend has more digits; otherwise
all digits have been changed, to those of the difference plus `radix ^ k`, where `k` is the number of
digits of the minuend. -/
theorem sub_left_behind (x y : List Nat) (m n : Nat) (hx : Rep t.radix x m) (hy : Rep t.radix y n)
    (h : m < n) :
    ∃ z, Forms.subAssignRef t dbg x y = .panicked (some z) .explicit ∧
      Forms.subAssignVal t dbg x y = .panicked (some z) .explicit ∧
      (x.length < y.length → z = x) ∧
      (y.length ≤ x.length →
        Digs t.radix z ∧ z.length = x.length ∧ val t.radix z + n = m + t.radix ^ x.length) := by
  have L := ops_lawful t dbg
  unfold Forms.subAssignVal
  simp only [← and_assoc, and_self]
  simp only [and_assoc]
  unfold Forms.subAssignRef subAtOffset
  rw [if_neg (by omega), onSlice_full]
  by_cases hl : x.length < y.length
  · rw [subAssignBig_short hl]
    exact ⟨x, rfl, fun _ => rfl, fun h => by omega⟩
  · obtain ⟨r, res, h1, h2, h3, h4⟩ :=
      subAssignBig_spec L x y hx.digs hy.digs (by omega)
    rw [h1]
    rcases h4 with ⟨a1, a2, a3⟩ | ⟨a1, -⟩
    · subst a2
      rw [hx.val_eq, hy.val_eq] at a3
      exact ⟨r, rfl, fun h => by omega, fun _ => ⟨h3, h2, a3⟩⟩
    · rw [hx.val_eq, hy.val_eq] at a1; omega

/-- C51, refuted for `-=`: if the subtrahend has no more digits than the minuend, an underflow leaves
another number behind. -/
theorem sub_left_behind_wrong (x y : List Nat) (m n : Nat) (hx : Rep t.radix x m)
    (hy : Rep t.radix y n) (h : m < n) (hl : y.length ≤ x.length) :
    ∃ z, Forms.subAssignRef t dbg x y = .panicked (some z) .explicit ∧ m < val t.radix z := by
  obtain ⟨z, h1, -, -, h2⟩ := sub_left_behind t dbg x y m n hx hy h
  obtain ⟨-, -, h3⟩ := h2 hl
  refine ⟨z, h1, ?_⟩
  have L := ops_lawful t dbg
  have h4 := val_lt hy.digs
  have h5 : t.radix ^ y.length ≤ t.radix ^ x.length := Nat.pow_le_pow_right L.pos hl
  rw [hy.val_eq] at h4
  omega

/-- C51: the same for `-=` with a digit, or a word below the radix: the number zero is left alone, any
other number (which has one digit then) is changed. -/
theorem subWord_left_behind (x : List Nat) (m n : Nat) (hx : Rep t.radix x m) (hn : n < t.radix)
    (h : m < n) :
    Forms.subAssignWord t dbg x n = .panicked
      (some (if m = 0 then [] else [m + t.radix - n])) .explicit := by
  have L := ops_lawful t dbg
  have key : Forms.subAssignDigit t dbg x n = .panicked
      (some (if m = 0 then [] else [m + t.radix - n])) .explicit := by
    by_cases h0 : m = 0
    · subst h0
      obtain rfl := hx.unique ⟨digs_nil _, canon_nil, rfl⟩
      unfold Forms.subAssignDigit subAssignDigit
      rw [if_neg (by omega)]
      rfl
    · have hx' : Rep t.radix [m] m := ⟨by simp [Digs]; omega, by simp [Canon, h0], by simp [val]⟩
      obtain rfl := hx.unique hx'
      have hc := L.subCarry m n false (by omega) hn
      have hb : (m + t.radix - (n + false.toNat)) % t.radix = m + t.radix - n := by
        rw [Nat.mod_eq_of_lt (by simp; omega)]; simp
      rw [hb] at hc
      simp only [Forms.subAssignDigit, subAssignDigit, if_neg (show n ≠ 0 by omega), hc, ok_bind,
        if_neg h0]
      rw [if_pos (by simpa using h)]
      rfl
  cases t with
  | bin w => exact key
  | dec w =>
    unfold Forms.subAssignWord
    simp only
    rw [if_pos (show n < w.decRadix from hn)]
    exact key

/-- C51, refuted for `/=` with a big number: a division by zero leaves zeros behind, whatever the
number was. -/
theorem div_left_behind (x : List Nat) :
    Forms.divAssignRef t dbg x [] =
      .panicked (some (List.replicate (x.length + 1) 0)) .explicit := by
  have h := div_zero_destroys t dbg x
  unfold UBig.divAssign at h
  unfold Forms.divAssignRef
  rw [h]

/-- C51: the other assignments leave the operand alone if they panic: a product that panics, a remainder
by zero, a division by the word zero, a shift.  A division or remainder by a nonzero word below the
radix does not panic. -/
theorem panic_leaves_alone (x y : List Nat) (m n k : Nat) (hx : Rep t.radix x m)
    (hn : n < t.radix) (left : Option (List Nat)) (p : Panic) :
    (Forms.mulAssignRef t dbg x y = .panicked left p → left = some x) ∧
    (Forms.remAssignRef t dbg x [] = .panicked left p → left = some x) ∧
    (Forms.divAssignWord t dbg x n = .panicked left p → n = 0 ∧ left = some x) ∧
    (Forms.remAssignWord t dbg x n = .panicked left p → n = 0 ∧ left = some x) ∧
    (Forms.shlAssign t dbg x k = .panicked left p → left = some x) ∧
    (Forms.shrAssign t dbg x k = .panicked left p → left = some x) := by
  have L := ops_lawful t dbg
  have no : ∀ {a : After} {r : R (List Nat)} {Q : List Nat → Prop}, a.result = r → Returns r Q →
      a ≠ .panicked left p := by
    rintro a r Q h1 ⟨z, h2, -⟩ rfl
    rw [← h1] at h2
    cases h2
  refine ⟨?_, ?_, ?_, ?_, ?_, ?_⟩
  · intro h
    unfold Forms.mulAssignRef at h
    cases hr : Forms.mulRefRef t dbg x y with
    | ok z => rw [hr] at h; cases h
    | error q => rw [hr] at h; cases h; rfl
  · intro h
    have h1 := rem_zero_unchanged t dbg x
    unfold UBig.remAssign at h1
    unfold Forms.remAssignRef at h
    rw [h1] at h
    cases h; rfl
  · intro h
    by_cases h0 : n = 0
    · refine ⟨h0, ?_⟩
      have hd : Forms.divAssignWord t dbg x n = .panicked (some x) .explicit := by
        have key : Forms.divAssignDigit t dbg x n = .panicked (some x) .explicit := by
          unfold Forms.divAssignDigit divDigitAssign divAssignDigit
          rw [if_pos h0]; rfl
        cases t with
        | bin w => exact key
        | dec w =>
          unfold Forms.divAssignWord
          simp only
          rw [if_pos (show n < w.decRadix from hn)]; exact key
      rw [hd] at h
      cases h; rfl
    · exact absurd h (no (divAssignWord_result t dbg x n)
        (divRemWord_exact t dbg x m n hx hn (by omega)).1)
  · intro h
    by_cases h0 : n = 0
    · refine ⟨h0, ?_⟩
      have hd : Forms.remAssignWord t dbg x n = .panicked (some x) .explicit := by
        have key : Forms.remAssignDigit t dbg x n = .panicked (some x) .explicit := by
          unfold Forms.remAssignDigit remDigit
          rw [if_pos h0]; rfl
        cases t with
        | bin w => exact key
        | dec w =>
          unfold Forms.remAssignWord
          simp only
          rw [if_pos (show n < w.decRadix from hn)]; exact key
      rw [hd] at h
      cases h; rfl
    · exact absurd h (no (remAssignWord_result t dbg x n)
        (divRemWord_exact t dbg x m n hx hn (by omega)).2.1)
  · intro h
    cases t with
    | bin w => exact absurd h (no (shlAssign_result _ dbg x k) (shl_binary_value dbg w x m k hx))
    | dec w =>
      by_cases hk : k ≤ 4 * UBig.maxHexPlaces w
      · exact absurd h (no (shlAssign_result _ dbg x k) (shl_decimal_small_exact dbg w x m k hx hk))
      · unfold Forms.shlAssign at h
        simp only at h
        rw [if_neg hk] at h
        cases h1 : Forms.addValVal (.dec w) dbg ubigOne ubigOne with
        | error q => rw [h1] at h; cases h; rfl
        | ok two =>
          rw [h1] at h
          cases h2 : pow ((DType.dec w).ops dbg) dbg two k with
          | error q => simp only [kept, h2] at h; cases h; rfl
          | ok scale =>
            simp only [kept, h2, Forms.mulAssignVal, Forms.mulAssignRef] at h
            cases hr : Forms.mulRefRef (.dec w) dbg x scale with
            | ok z => rw [hr] at h; cases h
            | error q => rw [hr] at h; cases h; rfl
  · intro h
    cases t with
    | bin w =>
      by_cases hk : x.length < k / w.bits
      · unfold Forms.shrAssign at h
        simp only at h
        rw [if_pos (by omega)] at h
        rw [show slice x (k / w.bits) x.length = .error .index by simp [slice]; omega] at h
        cases h; rfl
      · exact absurd h (no (shrAssign_result _ dbg x k)
          (shr_binary_exact_partial dbg w x m k hx (by omega)))
    | dec w =>
      by_cases hk : k ≤ 4 * UBig.maxHexPlaces w
      · exact absurd h (no (shrAssign_result _ dbg x k) (shr_decimal_exact_partial dbg w x m k hx hk))
      · unfold Forms.shrAssign at h
        simp only at h
        rw [if_neg hk] at h
        cases h; rfl

/-- C51, refuted for `-=` of a decimal number with a word of two digits: the lower digit has been
subtracted already when the upper digit underflows.  `105 - 130` leaves 75 behind, and `160 - 255` leaves
9905. -/
theorem subWord_large_left_behind :
    Forms.subAssignWord (.dec .w8) dbg [5, 1] 130 = .panicked (some [75]) .explicit ∧
    Forms.subAssignWord (.dec .w8) dbg [60, 1] 255 = .panicked (some [5, 99]) .explicit ∧
    Forms.subAssignWord (.dec .w8) dbg [] 130 = .panicked (some []) .explicit ∧
    Forms.subAssignWord (.dec .w8) dbg [] 200 = .panicked (some []) .index := by
  cases dbg <;> decide +kernel

/-! ## The hypotheses can be met -/

/-- Subtraction of a larger number of no more digits. -/
example : Rep (DType.bin .w8).radix [3, 1] 259 ∧ Rep (DType.bin .w8).radix [4, 1] 260 ∧
    Forms.subAssignRef (.bin .w8) true [3, 1] [4, 1] = .panicked (some [255, 255]) .explicit ∧
    Forms.subAssignRef (.bin .w8) true [3] [4, 1] = .panicked (some [3]) .explicit := by decide +kernel

/-- A product that panics. -/
example : ∃ x, Forms.mulAssignRef t dbg x x = .panicked (some x) .unwrap := by
  refine ⟨karatsubaWitness t.radix, ?_⟩
  have h := (mul_panics t dbg).2.2
  unfold Forms.mulAssignRef Forms.mulRefRef
  unfold Panics UBig.mul at h
  rw [h]
  rfl

/-- Each kind of panic of `panic_leaves_alone` occurs. -/
example : Forms.remAssignRef (.dec .w8) true [3, 1] [] = .panicked (some [3, 1]) .explicit ∧
    Forms.divAssignWord (.dec .w8) true [3, 1] 0 = .panicked (some [3, 1]) .explicit ∧
    Forms.remAssignWord (.bin .w8) true [3, 1] 0 = .panicked (some [3, 1]) .explicit ∧
    Forms.shrAssign (.bin .w8) true [3, 1] 24 = .panicked (some [3, 1]) .index ∧
    Forms.shrAssign (.dec .w8) true [3, 1] 5 = .panicked (some [3, 1]) .unimplemented := by
  decide +kernel

end Babs.Props
