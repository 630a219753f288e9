import Verif.Model.UBig
import Verif.Proofs.UBigAdd

/-!
# C01-C08, C24, C36: construction, comparison, addition and subtraction

`Rep t.radix x m` says that the digit list `x` is the normal form of the number `m` in the base of
the digit type `t`.
-/

namespace Babs.Props

variable (t : DType) (dbg : Bool)

/-- C01: `UBig::new` returns the normal form of the number its argument denotes. -/
theorem new_normal_form (digits : List Nat) (h : Digs t.radix digits) :
    Returns (UBig.new digits) fun x => Rep t.radix x (val t.radix digits) := by
  obtain ⟨z, h1, h2, -⟩ := normalise_rep h
  exact ⟨z, h1, h2⟩

/-- C01: the normal form has the smallest possible number of digits. -/
theorem normal_form_minimal (x ds : List Nat) (m : Nat) (hx : Rep t.radix x m)
    (hd : Digs t.radix ds) (hv : val t.radix ds = m) : x.length ≤ ds.length :=
  hx.canon.length_le (ops_lawful t false).pos hd (by rw [hx.val_eq, hv])

/-- C02: equality of numbers in normal form is equality of the numbers they denote. -/
theorem eq_iff (x y : List Nat) (m n : Nat) (hx : Rep t.radix x m) (hy : Rep t.radix y n) :
    UBig.eq x y = true ↔ m = n := by
  simp [UBig.eq, hx.iff_eq hy]

/-- C02: `is_zero` holds exactly for zero. -/
theorem is_zero_iff (x : List Nat) (m : Nat) (hx : Rep t.radix x m) : isZero x = true ↔ m = 0 := by
  have h := hx.canon.val_eq_zero (ops_lawful t false).pos
  rw [hx.val_eq] at h
  simp [isZero, h]

/-- C03: comparison is the order of the numbers. -/
theorem cmp_numeric (x y : List Nat) (m n : Nat) (hx : Rep t.radix x m) (hy : Rep t.radix y n) :
    UBig.cmp x y = compare m n := by
  have h := cmpBig_canon (ops_lawful t false).pos hx.digs hy.digs hx.canon hy.canon
  rw [hx.val_eq, hy.val_eq] at h
  exact h

/-- C04: addition is exact, returns a normalised number and does not panic. -/
theorem add_exact (x y : List Nat) (m n : Nat) (hx : Rep t.radix x m) (hy : Rep t.radix y n) :
    Returns (UBig.add t dbg x y) fun z => Rep t.radix z (m + n) := by
  obtain ⟨z, h1, h2, h3, h4, -⟩ := addBig_spec (ops_lawful t dbg) x y hx.digs hy.digs
  exact ⟨z, h1, h2, h4 hx.canon hy.canon, by rw [h3, hx.val_eq, hy.val_eq]⟩

theorem word_lt (t : DType) (n : Nat) (hn : n < 2 ^ UBig.bits t) : n < t.radix * t.radix := by
  rcases t with w | w <;> cases w <;> simp [UBig.bits, DType.radix, Width.bits, Width.decRadix] at *
    <;> omega

/-- C05: addition of a machine word is exact, also if the word needs two decimal digits. -/
theorem addWord_exact (x : List Nat) (m n : Nat) (hx : Rep t.radix x m)
    (hn : n < 2 ^ UBig.bits t) :
    Returns (UBig.addWord t dbg x n) fun z => Rep t.radix z (m + n) := by
  have L := ops_lawful t dbg
  have hBB := word_lt t n hn
  rcases t with w | w
  · obtain ⟨z, h1, h2, h3, h4⟩ := addDigit_spec L x n hx.digs hn
    exact ⟨z, h1, h2, h4 hx.canon, by rw [h3, hx.val_eq]⟩
  · obtain ⟨z, h1, h2, h3, h4⟩ := addWordDec_spec L x n hx.digs hBB
    exact ⟨z, h1, h2, h4 hx.canon, by rw [h3, hx.val_eq]⟩

/-- C05: addition of a digit is exact. -/
theorem addDigit_exact (x : List Nat) (m d : Nat) (hx : Rep t.radix x m) (hd : d < t.radix) :
    Returns (UBig.addDigit t dbg x d) fun z => Rep t.radix z (m + d) := by
  obtain ⟨z, h1, h2, h3, h4⟩ := addDigit_spec (ops_lawful t dbg) x d hx.digs hd
  exact ⟨z, h1, h2, h4 hx.canon, by rw [h3, hx.val_eq]⟩

/-- C06: subtraction gives the difference if there is one. -/
theorem sub_exact (x y : List Nat) (m n : Nat) (hx : Rep t.radix x m) (hy : Rep t.radix y n)
    (h : n ≤ m) :
    Returns (UBig.sub t dbg x y) fun z => Digs t.radix z ∧ val t.radix z = m - n := by
  have L := ops_lawful t dbg
  have hl := hy.canon.length_le L.pos hx.digs (by rw [hx.val_eq, hy.val_eq]; exact h)
  rcases subBig_spec L x y hx.digs hy.digs hl with ⟨a, -⟩ | ⟨-, z, h1, h2, h3, -⟩
  · rw [hx.val_eq, hy.val_eq] at a; omega
  · rw [hx.val_eq, hy.val_eq] at h3
    exact ⟨z, h1, h2, by omega⟩

/-- C06: subtraction of a larger number panics. -/
theorem sub_underflow (x y : List Nat) (m n : Nat) (hx : Rep t.radix x m) (hy : Rep t.radix y n)
    (h : m < n) : Panics (UBig.sub t dbg x y) .explicit := by
  have L := ops_lawful t dbg
  by_cases hl : y.length ≤ x.length
  · rcases subBig_spec L x y hx.digs hy.digs hl with ⟨-, a⟩ | ⟨a, -⟩
    · exact a
    · rw [hx.val_eq, hy.val_eq] at a; omega
  · exact subBig_short (by omega)

/-- C07, refuted: `radix^2 - (radix^2 - 1)` is returned as the two digits `[1, 0]`, which is not in
normal form: it is not equal to the number one, and compares greater than it. -/
theorem sub_not_normalised :
    Rep t.radix [0, 0, 1] (t.radix ^ 2) ∧
    Rep t.radix [t.radix - 1, t.radix - 1] (t.radix ^ 2 - 1) ∧
    UBig.sub t dbg [0, 0, 1] [t.radix - 1, t.radix - 1] = .ok [1, 0] ∧
    UBig.eq [1, 0] [1] = false ∧ UBig.cmp [1, 0] [1] = .gt := by
  rcases t with w | w <;> cases w <;> cases dbg <;> decide +kernel

/-- C07, what does hold: the difference is in normal form exactly if it is not the case that the
subtrahend is one digit shorter and the difference has fewer digits than the subtrahend. -/
theorem sub_normalised_partial (x y : List Nat) (m n : Nat) (hx : Rep t.radix x m)
    (hy : Rep t.radix y n) (h : n ≤ m) :
    Returns (UBig.sub t dbg x y) fun z =>
      (Rep t.radix z (m - n) ↔ ¬ (x.length = y.length + 1 ∧ m - n < t.radix ^ (y.length - 1))) := by
  have L := ops_lawful t dbg
  have hl := hy.canon.length_le L.pos hx.digs (by rw [hx.val_eq, hy.val_eq]; exact h)
  rcases subBig_spec L x y hx.digs hy.digs hl with ⟨a, -⟩ | ⟨-, z, h1, h2, h3, -, h4⟩
  · rw [hx.val_eq, hy.val_eq] at a; omega
  · have h4 := h4 hx.canon
    rw [hx.val_eq, hy.val_eq] at h3 h4
    refine ⟨z, h1, ?_⟩
    have e : (m < n + t.radix ^ (y.length - 1)) ↔ m - n < t.radix ^ (y.length - 1) := by
      have := Nat.pow_pos (n := y.length - 1) L.pos
      omega
    rw [← e, ← h4]
    exact ⟨fun r => r.canon, fun c => ⟨h2, c, by omega⟩⟩

/-- C07: numbers of the same length, or lengths that differ by two or more, give a normalised
difference. -/
theorem sub_normalised_partial_of_length (x y : List Nat) (m n : Nat) (hx : Rep t.radix x m)
    (hy : Rep t.radix y n) (h : n ≤ m) (hl : x.length ≠ y.length + 1) :
    Returns (UBig.sub t dbg x y) fun z => Rep t.radix z (m - n) := by
  obtain ⟨z, h1, h2⟩ := sub_normalised_partial t dbg x y m n hx hy h
  exact ⟨z, h1, h2.mpr (fun hc => hl hc.1)⟩

/-- C07: equal numbers subtract to zero in normal form. -/
theorem sub_self_zero (x : List Nat) (m : Nat) (hx : Rep t.radix x m) :
    UBig.sub t dbg x x = .ok [] := by
  obtain ⟨z, h1, h2⟩ := sub_normalised_partial_of_length t dbg x x m m hx hx (le_refl _) (by omega)
  rw [Nat.sub_self] at h2
  rw [h1, h2.unique (rep_zero t.radix)]

/-- C08 (digits, and words of binary types): subtraction of a digit is exact, and panics exactly
for an underflow. -/
theorem subDigit_exact (x : List Nat) (m d : Nat) (hx : Rep t.radix x m) (hd : d < t.radix) :
    (d ≤ m → Returns (UBig.subDigit t dbg x d) fun z => Digs t.radix z ∧ val t.radix z = m - d) ∧
    (m < d → Panics (UBig.subDigit t dbg x d) .explicit) := by
  have hs := subDigit_spec (ops_lawful t dbg) x d hx.digs hd
  rw [hx.val_eq] at hs
  rcases hs with ⟨a, b⟩ | ⟨a, z, h1, h2, h3, -⟩
  · exact ⟨fun h => by omega, fun _ => b⟩
  · exact ⟨fun _ => ⟨z, h1, h2, by omega⟩, fun h => by omega⟩

/-- C07 for digits, refuted: subtracting a digit from itself gives `[0]`, for which `is_zero` is
false. -/
theorem subDigit_not_normalised (d : Nat) (h0 : 0 < d) (hd : d < t.radix) :
    Rep t.radix [d] d ∧ UBig.subDigit t dbg [d] d = .ok [0] ∧ isZero [0] = false := by
  have L := ops_lawful t dbg
  refine ⟨⟨by simpa using hd, canon_singleton.mpr (by omega), by simp⟩, ?_, rfl⟩
  have h1 := L.subCarry d d false hd hd
  simp only [Bool.toNat_false, Nat.add_zero, Nat.lt_irrefl, decide_false, Nat.add_sub_cancel_left,
    Nat.mod_self] at h1
  unfold UBig.subDigit subDigit subAssignDigit
  rw [if_neg (by omega)]
  simp [h1]

/-- C07 for digits, what does hold: the result is in normal form unless it is zero (or nothing was
subtracted). -/
theorem subDigit_normalised_partial (x : List Nat) (m d : Nat) (hx : Rep t.radix x m)
    (hd : d < t.radix) (h : d ≤ m) :
    Returns (UBig.subDigit t dbg x d) fun z =>
      (Rep t.radix z (m - d) ↔ ¬ (d ≠ 0 ∧ m = d)) := by
  have hs := subDigit_spec (ops_lawful t dbg) x d hx.digs hd
  rw [hx.val_eq] at hs
  rcases hs with ⟨a, b⟩ | ⟨a, z, h1, h2, h3, -, -, -, h4⟩
  · omega
  · refine ⟨z, h1, ?_⟩
    rw [← h4 hx.canon]
    exact ⟨fun r => r.canon, fun c => ⟨h2, c, by omega⟩⟩

/-- C08, words of binary types: exact, and panics exactly for an underflow. -/
theorem subWord_binary_exact (w : Width) (x : List Nat) (m n : Nat)
    (hx : Rep (DType.bin w).radix x m) (hn : n < 2 ^ w.bits) :
    (n ≤ m → Returns (UBig.subWord (.bin w) dbg x n) fun z =>
      Digs (DType.bin w).radix z ∧ val (DType.bin w).radix z = m - n) ∧
    (m < n → Panics (UBig.subWord (.bin w) dbg x n) .explicit) :=
  subDigit_exact (.bin w) dbg x m n hx hn

/-- C08, words of decimal types that fit in a digit: exact, and panics exactly for an underflow. -/
theorem subWord_small_exact_partial (w : Width) (x : List Nat) (m n : Nat)
    (hx : Rep (DType.dec w).radix x m) (hn : n < w.decRadix) :
    (n ≤ m → Returns (UBig.subWord (.dec w) dbg x n) fun z =>
      Digs (DType.dec w).radix z ∧ val (DType.dec w).radix z = m - n) ∧
    (m < n → Panics (UBig.subWord (.dec w) dbg x n) .explicit) := by
  have h := subDigit_exact (.dec w) dbg x m n hx hn
  have e : UBig.subWord (.dec w) dbg x n = UBig.subDigit (.dec w) dbg x n := by
    simp [UBig.subWord, UBig.subDigit, subWordDec, hn]
  rw [e]; exact h

/-- C08, refuted for decimal types and words of two digits: `12345 - 200` gives `2145`. -/
theorem subWord_decimal_wrong :
    Rep (DType.dec .w8).radix [45, 23, 1] 12345 ∧ 200 < 2 ^ UBig.bits (DType.dec .w8) ∧
    UBig.subWord (.dec .w8) dbg [45, 23, 1] 200 = .ok [45, 21] ∧
    val (DType.dec .w8).radix [45, 21] = 2145 := by
  cases dbg <;> decide +kernel

/-- C08, decimal types and words of two digits, exactly what happens: an underflow panics, and
otherwise the returned number is the difference exactly if the difference is less than the radix. -/
theorem subWord_large_partial (w : Width) (x : List Nat) (m n : Nat)
    (hx : Rep (DType.dec w).radix x m) (hn : n < 2 ^ w.bits) (hlarge : w.decRadix ≤ n) :
    (m < n → ∃ p, Panics (UBig.subWord (.dec w) dbg x n) p) ∧
    (n ≤ m → Returns (UBig.subWord (.dec w) dbg x n) fun z => Digs (DType.dec w).radix z ∧
      (val (DType.dec w).radix z = m - n ↔ m - n < (DType.dec w).radix)) := by
  have L := ops_lawful (.dec w) dbg
  have hs := subWordDec_spec L x n hx.digs hx.canon (word_lt (.dec w) n hn) hlarge
  rw [hx.val_eq] at hs
  have hB := L.base
  rcases hs with ⟨a, p, b, -⟩ | ⟨a, z, h1, h2, h3⟩
  · exact ⟨fun _ => ⟨p, b⟩, fun h => by omega⟩
  · refine ⟨fun h => by omega, fun _ => ⟨z, h1, h2, ?_⟩⟩
    constructor
    · intro h; have := h3.mp (by omega); omega
    · intro h; have := h3.mpr (by omega); omega

/-- C24: conversion from a machine word gives the normal form of the word. -/
theorem ofWord_exact (n : Nat) (hn : n < 2 ^ UBig.bits t) : Rep t.radix (UBig.ofWord t n) n := by
  have L := ops_lawful t false
  have hBB := word_lt t n hn
  have hpos := L.pos
  rcases t with w | w
  · unfold UBig.ofWord
    by_cases h : n = 0
    · simp only [h, if_true]; exact rep_zero _
    · simp only [h, if_false]
      exact ⟨(digs_cons _ _ _).mpr ⟨hn, digs_nil _⟩, canon_singleton.mpr h, by simp⟩
  · unfold UBig.ofWord
    simp only [DType.radix] at *
    by_cases h : n = 0
    · simp only [h, if_true]; exact rep_zero _
    · simp only [h, if_false]
      by_cases h2 : n < w.decRadix
      · rw [if_pos h2]
        exact ⟨by simpa using h2, canon_singleton.mpr h, by simp⟩
      · rw [if_neg h2]
        refine ⟨?_, ?_, ?_⟩
        · rw [digs_cons, digs_cons]
          refine ⟨Nat.mod_lt _ hpos, ?_, digs_nil _⟩
          rw [Nat.div_lt_iff_lt_mul hpos]; exact hBB
        · rw [canon_cons_cons, canon_singleton]
          have := Nat.div_pos (show w.decRadix ≤ n by omega) hpos
          omega
        · simp only [val_cons, val_nil, Nat.mul_zero, Nat.add_zero]
          exact Nat.mod_add_div _ _

/-- C36: subtraction undoes addition. -/
theorem add_sub_cancel (x y : List Nat) (m n : Nat) (hx : Rep t.radix x m)
    (hy : Rep t.radix y n) :
    Returns (UBig.add t dbg x y >>= fun s => UBig.sub t dbg s y) fun z =>
      Digs t.radix z ∧ val t.radix z = m := by
  obtain ⟨s, h1, h2⟩ := add_exact t dbg x y m n hx hy
  obtain ⟨z, h3, h4, h5⟩ := sub_exact t dbg s y (m + n) n h2 hy (by omega)
  refine ⟨z, ?_, h4, by omega⟩
  rw [h1, ok_bind, h3]

/-- C36: subtraction panics exactly for an underflow. -/
theorem sub_panics_iff (x y : List Nat) (m n : Nat) (hx : Rep t.radix x m)
    (hy : Rep t.radix y n) : (∃ p, Panics (UBig.sub t dbg x y) p) ↔ m < n := by
  constructor
  · rintro ⟨p, hp⟩
    by_contra h
    obtain ⟨z, h1, -⟩ := sub_exact t dbg x y m n hx hy (by omega)
    rw [Panics, h1] at hp
    cases hp
  · intro h; exact ⟨_, sub_underflow t dbg x y m n hx hy h⟩

/-! ## The hypotheses can be met -/

example : Digs (DType.dec .w8).radix [45, 23, 0, 0] ∧ UBig.new [45, 23, 0, 0] = .ok [45, 23] := by
  decide +kernel
example : Rep (DType.dec .w8).radix [45, 23, 1] 12345 := by decide +kernel
example : Rep (DType.bin .w16).radix [57, 48] (57 + 65536 * 48) := by decide +kernel
example : UBig.add (.dec .w8) true [99, 99] [1] = .ok [0, 0, 1] := by decide +kernel
example : UBig.addWord (.dec .w8) true [] 250 = .ok [50, 2] := by decide +kernel
example : UBig.sub (.dec .w8) true [0, 0, 1] [1] = .ok [99, 99] := by decide +kernel
example : UBig.sub (.dec .w8) true [1] [2] = .error .explicit := by decide +kernel
example : UBig.subWord (.dec .w8) true [10, 2] 200 = .ok [10] := by decide +kernel
example : UBig.ofWord (.dec .w8) 255 = [55, 2] := by decide +kernel

end Babs.Props
