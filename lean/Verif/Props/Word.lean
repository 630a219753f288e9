import Verif.Proofs.Shift
import Verif.Props.AddSub

/-!
# C09, C15, C19, C21-C23, C37: multiplication and division by words, shifts
-/

namespace Babs.Props

variable (t : DType) (dbg : Bool)

/-! ## Words -/

/-- C09: multiplication by a machine word is exact, also if the word needs two decimal digits. -/
theorem mulWord_exact (x : List Nat) (m n : Nat) (hx : Rep t.radix x m)
    (hn : n < 2 ^ UBig.bits t) :
    Returns (UBig.mulWord t dbg x n) fun z => Rep t.radix z (m * n) := by
  have L := ops_lawful t dbg
  have hBB := word_lt t n hn
  rcases t with w | w
  · obtain ⟨z, h1, h2, h3, h4⟩ := mulAddDigit_spec L x n 0 hx.digs hn L.pos
    exact ⟨z, h1, h2, h4 hx.canon, by rw [h3, hx.val_eq]; simp⟩
  · obtain ⟨z, h1, h2⟩ := mulWordDec_spec L x n hx.digs hx.canon hBB
    rw [hx.val_eq] at h2
    exact ⟨z, h1, h2⟩

/-- C09: multiplication by a digit is exact. -/
theorem mulDigit_exact (x : List Nat) (m d : Nat) (hx : Rep t.radix x m) (hd : d < t.radix) :
    Returns (UBig.mulDigit t dbg x d) fun z => Rep t.radix z (m * d) := by
  have L := ops_lawful t dbg
  obtain ⟨z, h1, h2, h3, h4⟩ := mulAddDigit_spec L x d 0 hx.digs hd L.pos
  exact ⟨z, h1, h2, h4 hx.canon, by rw [h3, hx.val_eq]; simp⟩

/-- C15: the quotient by a nonzero digit. -/
theorem divDigit_exact (x : List Nat) (m d : Nat) (hx : Rep t.radix x m) (hd : d < t.radix)
    (h0 : 0 < d) : Returns (UBig.divDigit t dbg x d) fun z => Rep t.radix z (m / d) := by
  obtain ⟨z, h1, h2⟩ := divDigitAssign_spec (ops_lawful t dbg) x d hx.digs h0 hd
  rw [hx.val_eq] at h2
  refine ⟨z, ?_, h2⟩
  unfold UBig.divDigit divDigit
  rw [h1]; rfl

/-- C15: the remainder by a nonzero digit. -/
theorem remDigit_exact (x : List Nat) (m d : Nat) (hx : Rep t.radix x m) (hd : d < t.radix)
    (h0 : 0 < d) : Returns (UBig.remDigit t dbg x d) fun z => Rep t.radix z (m % d) := by
  have h1 := remDigit_spec (ops_lawful t dbg) x d hx.digs h0 hd
  have hlt := Nat.mod_lt m h0
  obtain ⟨z, h2, h3, -⟩ := normalise_rep (B := t.radix) (l := [m % d]) (by simp; omega)
  refine ⟨z, ?_, by simpa using h3⟩
  unfold UBig.remDigit remDigitOp
  rw [h1, hx.val_eq]
  exact h2

theorem remDigitAssign_exact (x : List Nat) (m d : Nat) (hx : Rep t.radix x m) (hd : d < t.radix)
    (h0 : 0 < d) : Returns (remDigitAssign (t.ops dbg) x d) fun z => Rep t.radix z (m % d) := by
  have h1 := remDigit_spec (ops_lawful t dbg) x d hx.digs h0 hd
  have hlt := Nat.mod_lt m h0
  refine ⟨_, by unfold remDigitAssign; rw [h1, hx.val_eq]; rfl, ?_⟩
  by_cases h : m % d = 0
  · rw [if_pos h, h]; exact rep_zero _
  · rw [if_neg h]; exact ⟨by simp; omega, canon_singleton.mpr h, by simp⟩

/-- C15: quotient and remainder by a nonzero word that fits in one digit; the three operators `/`,
`%` and `%=`. -/
theorem divRemWord_exact (x : List Nat) (m n : Nat) (hx : Rep t.radix x m) (hn : n < t.radix)
    (h0 : 0 < n) :
    Returns (UBig.divWord t dbg x n) (fun z => Rep t.radix z (m / n)) ∧
    Returns (UBig.remWord t dbg x n) (fun z => Rep t.radix z (m % n)) ∧
    Returns (UBig.remWordAssign t dbg x n) (fun z => Rep t.radix z (m % n)) := by
  have h1 := divDigit_exact t dbg x m n hx hn h0
  have h2 := remDigit_exact t dbg x m n hx hn h0
  have h3 := remDigitAssign_exact t dbg x m n hx hn h0
  rcases t with w | w
  · exact ⟨h1, h2, h3⟩
  · simp only [DType.radix] at hn
    refine ⟨?_, ?_, ?_⟩
    · simp only [UBig.divWord, divWordDec, if_pos hn]; exact h1
    · simp only [UBig.remWord, remWordDec, if_pos hn]; exact h3
    · simp only [UBig.remWordAssign, remWordDec, if_pos hn]; exact h3

/-- C15, C19: division by the word zero panics. -/
theorem divRemWord_zero (x : List Nat) :
    Panics (UBig.divWord t dbg x 0) .explicit ∧ Panics (UBig.remWord t dbg x 0) .explicit ∧
    Panics (UBig.remWordAssign t dbg x 0) .explicit := by
  have L := ops_lawful t dbg
  have hpos := L.pos
  rcases t with w | w
  · refine ⟨?_, ?_, ?_⟩
    · simp [Panics, UBig.divWord, divDigit, divDigitAssign, divAssignDigit]; rfl
    · simp [Panics, UBig.remWord, remDigitOp, remDigit]; rfl
    · simp [Panics, UBig.remWordAssign, remDigitAssign, remDigit]; rfl
  · simp only [DType.radix] at hpos
    refine ⟨?_, ?_, ?_⟩
    · simp [Panics, UBig.divWord, divWordDec, hpos, divDigit, divDigitAssign, divAssignDigit]; rfl
    · simp [Panics, UBig.remWord, remWordDec, hpos, remDigitAssign, remDigit]; rfl
    · simp [Panics, UBig.remWordAssign, remWordDec, hpos, remDigitAssign, remDigit]; rfl

/-- C37: multiplication by a word distributes over addition: both sides are the same digits. -/
theorem mulWord_distrib (x y : List Nat) (m k n : Nat) (hx : Rep t.radix x m)
    (hy : Rep t.radix y k) (hn : n < 2 ^ UBig.bits t) :
    Returns (do UBig.mulWord t dbg (← UBig.add t dbg x y) n) fun z =>
      (do UBig.add t dbg (← UBig.mulWord t dbg x n) (← UBig.mulWord t dbg y n)) = .ok z ∧
      Rep t.radix z ((m + k) * n) := by
  obtain ⟨s, a1, a2⟩ := add_exact t dbg x y m k hx hy
  obtain ⟨p, b1, b2⟩ := mulWord_exact t dbg s (m + k) n a2 hn
  obtain ⟨u, c1, c2⟩ := mulWord_exact t dbg x m n hx hn
  obtain ⟨v, d1, d2⟩ := mulWord_exact t dbg y k n hy hn
  obtain ⟨z, e1, e2⟩ := add_exact t dbg u v _ _ c2 d2
  refine ⟨p, by rw [a1, ok_bind, b1], ?_, b2⟩
  rw [c1, ok_bind, d1, ok_bind, e1]
  congr 1
  rw [← Nat.add_mul] at e2
  exact e2.unique b2

/-- C37: division by a word undoes multiplication by it, with remainder zero. -/
theorem mulWord_divWord (x : List Nat) (m n : Nat) (hx : Rep t.radix x m) (hn : n < t.radix)
    (hw : n < 2 ^ UBig.bits t) (h0 : 0 < n) :
    (do UBig.divWord t dbg (← UBig.mulWord t dbg x n) n) = .ok x ∧
    (do UBig.remWord t dbg (← UBig.mulWord t dbg x n) n) = .ok [] := by
  obtain ⟨p, b1, b2⟩ := mulWord_exact t dbg x m n hx hw
  obtain ⟨⟨q, c1, c2⟩, ⟨r, d1, d2⟩, -⟩ := divRemWord_exact t dbg p (m * n) n b2 hn h0
  rw [Nat.mul_div_cancel _ h0] at c2
  rw [Nat.mul_mod_left] at d2
  constructor
  · rw [b1, ok_bind, c1, c2.unique hx]
  · rw [b1, ok_bind, d1, d2.unique (rep_zero _)]

/-! ## Shifts -/

/-- C21: the value of a binary left shift, for every shift and every number. -/
theorem shl_binary_value (w : Width) (x : List Nat) (m n : Nat)
    (hx : Rep (DType.bin w).radix x m) :
    Returns (UBig.shl (.bin w) dbg x n) fun z =>
      Digs (DType.bin w).radix z ∧ val (DType.bin w).radix z = m * 2 ^ n := by
  obtain ⟨z, h1, h2, h3, -⟩ := shlBin_spec (ops_lawful (.bin w) dbg) rfl x n hx.digs
  exact ⟨z, h1, h2, by rw [h3, hx.val_eq]⟩

/-- C21, normal form: holds unless zero is shifted by a digit or more. -/
theorem shl_binary_normalised_partial (w : Width) (x : List Nat) (m n : Nat)
    (hx : Rep (DType.bin w).radix x m) :
    Returns (UBig.shl (.bin w) dbg x n) fun z =>
      (Rep (DType.bin w).radix z (m * 2 ^ n) ↔ ¬ (m = 0 ∧ w.bits ≤ n)) := by
  have L := ops_lawful (.bin w) dbg
  obtain ⟨z, h1, h2, h3, h4⟩ := shlBin_spec L (w := w.bits) rfl x n hx.digs
  refine ⟨z, h1, ?_⟩
  have h0 := hx.canon.val_eq_zero L.pos
  rw [hx.val_eq] at h0
  rw [h0, ← h4 hx.canon]
  exact ⟨fun r => r.canon, fun c => ⟨h2, c, by rw [h3, hx.val_eq]⟩⟩

/-- C21, refuted for zero: `0 << 8` is the single digit `[0]`, which `is_zero` does not recognise. -/
theorem shl_binary_zero_not_normalised :
    UBig.shl (.bin .w8) dbg [] 8 = .ok [0] ∧ isZero [0] = false ∧ UBig.eq [0] [] = false := by
  cases dbg <;> decide +kernel

/-- C22: binary right shift, as long as no more digits are shifted out than there are. -/
theorem shr_binary_exact_partial (w : Width) (x : List Nat) (m n : Nat)
    (hx : Rep (DType.bin w).radix x m) (hn : n / w.bits ≤ x.length) :
    Returns (UBig.shr (.bin w) dbg x n) fun z => Rep (DType.bin w).radix z (m / 2 ^ n) := by
  obtain ⟨z, h1, h2⟩ := shrBin_spec (ops_lawful (.bin w) dbg) rfl x n hx.digs hx.canon hn
  rw [hx.val_eq] at h2
  exact ⟨z, h1, h2⟩

/-- C22, refuted: the shift panics if more digits are shifted out than there are. -/
theorem shr_binary_panics (w : Width) (x : List Nat) (n : Nat) (hn : x.length < n / w.bits) :
    Panics (UBig.shr (.bin w) dbg x n) .index :=
  shrBin_panic x n hn

theorem maxHex_lt (w : Width) : 2 ^ (4 * UBig.maxHexPlaces w) < w.decRadix := by
  cases w <;> decide +kernel

/-- C23: decimal left shift by up to `4 * MAX_HEX_PLACES` bits. -/
theorem shl_decimal_small_exact (w : Width) (x : List Nat) (m n : Nat)
    (hx : Rep (DType.dec w).radix x m) (hn : n ≤ 4 * UBig.maxHexPlaces w) :
    Returns (UBig.shl (.dec w) dbg x n) fun z => Rep (DType.dec w).radix z (m * 2 ^ n) := by
  obtain ⟨z, h1, h2, h3, h4⟩ :=
    shlDec_small_spec (ops_lawful (.dec w) dbg) (dbg := dbg) (maxHex_lt w) x n hx.digs hn
  exact ⟨z, h1, h2, h4 hx.canon, by rw [h3, hx.val_eq]⟩

/-- C23: decimal right shift by up to `4 * MAX_HEX_PLACES` bits. -/
theorem shr_decimal_exact_partial (w : Width) (x : List Nat) (m n : Nat)
    (hx : Rep (DType.dec w).radix x m) (hn : n ≤ 4 * UBig.maxHexPlaces w) :
    Returns (UBig.shr (.dec w) dbg x n) fun z => Rep (DType.dec w).radix z (m / 2 ^ n) := by
  obtain ⟨z, h1, h2⟩ := shrDec_spec (ops_lawful (.dec w) dbg) (maxHex_lt w) x n hx.digs hn
  rw [hx.val_eq] at h2
  exact ⟨z, h1, h2⟩

/-- C23, refuted: decimal right shift by more bits is not implemented. -/
theorem shr_decimal_unimplemented (w : Width) (x : List Nat) (n : Nat)
    (hn : 4 * UBig.maxHexPlaces w < n) : Panics (UBig.shr (.dec w) dbg x n) .unimplemented := by
  unfold Panics UBig.shr shrDec
  simp only []
  rw [if_neg (by omega)]; rfl

/-! ## The hypotheses can be met -/

example : UBig.mulWord (.dec .w8) true [99, 99, 99] 255 = .ok [45, 97, 99, 54, 2] := by decide +kernel
example : UBig.mulWord (.bin .w8) true [255, 255] 0 = .ok [] := by decide +kernel
example : UBig.divWord (.dec .w8) true [45, 23, 1] 97 = .ok [27, 1] := by decide +kernel
example : UBig.remWord (.dec .w8) true [45, 23, 1] 97 = .ok [26] := by decide +kernel
example : UBig.shl (.bin .w8) true [1, 2] 13 = .ok [0, 32, 64] := by decide +kernel
example : UBig.shr (.bin .w8) true [1, 2] 13 = .ok [] := by decide +kernel
example : (13 : Nat) / Width.w8.bits ≤ [1, 2].length := by decide
example : UBig.shr (.bin .w8) true [1, 2] 24 = .error .index := by decide +kernel
example : UBig.shl (.dec .w8) true [99, 99] 4 = .ok [84, 99, 15] := by decide +kernel
example : UBig.shr (.dec .w8) true [84, 99, 15] 4 = .ok [99, 99] := by decide +kernel

end Babs.Props
