import Verif.Props.SquareLong
import Verif.Props.PowExact

/-!
Decimal left shifts by any number of places (`src/ubig/ops.rs:723-764`, `src/ubig/ops.rs:280-320`).

A shift multiplies with a power of two, which is computed by repeated squaring.  The squares of
`2 ^ 2 ^ i` are right as long as they meet no stale digits.  With digits of 16 bits there is one
that panics, so that all longer shifts panic as well, and no shift returns a wrong number.
-/

namespace Babs.Props

open Babs

variable (t : DType) (dbg : Bool)

/-- C13 (in part): the square of a number of any size is exact whenever it is returned, if it meets no
stale digits and the values it is computed from are in normal form, which is a condition on the number
alone; the only panic is that of an unwrapped error.  Missing: the other numbers (`square_wrong`). -/
theorem square_sound_partial (x : List Nat) (m d : Nat) (hx : Rep t.radix x m)
    (h : squareSound t.radix d true true m = true) :
    ReturnsOr (· = .unwrap) (UBig.square t dbg x) fun z => Rep t.radix z (m ^ 2) := by
  rw [pow_two]
  exact square_sound_spec (ops_lawful t dbg) hx h

/-- C14 (in part): a power of any size is exact whenever it is returned, if the squares that are met are
sound.  Missing: the others (`pow_wrong`). -/
theorem pow_sound_partial (x : List Nat) (m e d : Nat) (hx : Rep t.radix x m)
    (h : ∀ i, 2 ^ (i + 1) ≤ e → squareSound t.radix d true true (m ^ 2 ^ i) = true) :
    ReturnsOr (· = .unwrap) (UBig.pow t dbg x e) fun z => Rep t.radix z (m ^ e) :=
  (pow_sound_spec (K := 0) (F := False) (ops_lawful t dbg) hx
    (fun i _ hi _ hy => (square_sound_spec (ops_lawful t dbg) hy (h i hi)).mono fun _ hz => ⟨hz, False.elim⟩)
    False.elim).mono fun _ hz => hz.1

/-! ## The squares of powers of two -/

/-- The number of squares of `2 ^ 2 ^ i` that are known to be right, for each width. -/
def shlSteps : Width → Nat
  | .w8 => 17
  | .w16 => 19
  | .w32 => 20
  | .w64 => 21

set_option maxRecDepth 100000 in
theorem squareSound_two (w : Width) :
    ((List.range (shlSteps w)).all fun i => squareSound (DType.dec w).radix 20 true true (2 ^ 2 ^ i)) = true := by
  cases w <;> decide +kernel

theorem squareSound_step (w : Width) (i : Nat) (hi : i < shlSteps w) :
    squareSound (DType.dec w).radix 20 true true (2 ^ 2 ^ i) = true :=
  List.all_eq_true.mp (squareSound_two w) i (List.mem_range.mpr hi)

theorem powClean_two (w : Width) (n : Nat) (hn : n < 2 ^ (shlSteps w + 1)) : powClean (DType.dec w).radix 2 n := by
  intro i hi
  have h1 : i + 1 < shlSteps w + 1 :=
    (Nat.pow_lt_pow_iff_right (show 1 < 2 by omega)).mp (lt_of_le_of_lt hi hn)
  exact Or.inr ⟨20, squareSound_step w i (by omega)⟩

/-- The result is a panic by an unwrapped error. -/
def isUnwrap : R P → Bool
  | .error .unwrap => true
  | _ => false

theorem eq_of_isUnwrap {r : R P} (h : isUnwrap r = true) : r = .error .unwrap := by
  cases r with
  | ok p => cases h
  | error e => cases e <;> first | rfl | cases h

set_option maxRecDepth 1000000 in
theorem lastSquare_w16 : isUnwrap (P.F.sq (DType.dec .w16).radix true
    ⟨39457, 2 ^ 2 ^ shlSteps .w16⟩) = true := by decide +kernel

set_option maxRecDepth 100000 in
theorem lastSize_w16 : size (DType.dec .w16).radix (2 ^ 2 ^ shlSteps .w16) = 39457 := by decide +kernel

/-- The square that panics. -/
theorem lastSquare (y : List Nat) (hy : Rep (DType.dec .w16).radix y (2 ^ 2 ^ shlSteps .w16)) :
    UBig.square (.dec .w16) dbg y = .error .unwrap := by
  have hB := (ops_lawful (.dec .w16) true).base
  have key : ∃ n v, v = 2 ^ 2 ^ shlSteps .w16 ∧ size (DType.dec .w16).radix v = n ∧
      P.F.sq (DType.dec .w16).radix true ⟨n, v⟩ = .error .unwrap :=
    ⟨_, _, rfl, lastSize_w16, eq_of_isUnwrap lastSquare_w16⟩
  obtain ⟨n, v, hv, hs, he⟩ := key
  rw [← hv] at hy
  rw [hy.unique (P.rep_dig (by omega) hs)]
  exact P.square_eval_unwrap he dbg

/-! ## Shifts -/

/-- C23 (in part): decimal left shifts by less than 2^18, 2^20, 2^21 and 2^22 places, in digits of 8, 16, 32
and 64 bits, are exact whenever they are returned; the only panic is that of an unwrapped error.
Missing: longer shifts in digits of 8, 32 and 64 bits. -/
theorem shl_decimal_sound_partial (w : Width) (x : List Nat) (m n : Nat)
    (hx : Rep (DType.dec w).radix x m) (hn : n < 2 ^ (shlSteps w + 1)) :
    ReturnsOr (· = .unwrap) (UBig.shl (.dec w) dbg x n) fun z => Rep (DType.dec w).radix z (m * 2 ^ n) := by
  by_cases hs : n ≤ 4 * UBig.maxHexPlaces w
  · exact (tot_iff.mpr (shl_decimal_small_exact dbg w x m n hx hs)).sp
  · refine (shlDec_sound_spec (K := 0) (F := False) (ops_lawful (.dec w) dbg) hx hs
      (fun i y hi _ hy => ?_) False.elim).mono fun _ hz => hz.1
    have h1 : i + 1 < shlSteps w + 1 :=
      (Nat.pow_lt_pow_iff_right (show 1 < 2 by omega)).mp (lt_of_le_of_lt hi hn)
    exact (square_sound_spec (ops_lawful (.dec w) dbg) hy (squareSound_step w i (by omega))).mono
      fun _ hz => ⟨hz, False.elim⟩

/-- C23: decimal left shifts in digits of 16 bits by 2^20 places or more panic. -/
theorem shl_decimal_long_panics (x : List Nat) (m n : Nat) (hx : Rep (DType.dec .w16).radix x m)
    (hn : 2 ^ 20 ≤ n) : Panics (UBig.shl (.dec .w16) dbg x n) .unwrap := by
  have hs : ¬ n ≤ 4 * UBig.maxHexPlaces .w16 := by
    have h2 : 4 * UBig.maxHexPlaces .w16 < 2 ^ 20 := by decide
    omega
  have key := shlDec_sound_spec (dbg := dbg) (K := shlSteps .w16 + 1) (F := True)
    (ops_lawful (.dec .w16) dbg) hx hs (fun i y hi hk hy => ?_) (fun _ => ⟨hn, by decide⟩)
  · show shlDec _ dbg (UBig.maxHexPlaces .w16) x n = _
    cases hr : shlDec ((DType.dec .w16).ops dbg) dbg (UBig.maxHexPlaces .w16) x n with
    | ok z => rw [hr] at key; exact absurd trivial (show _ ∧ ¬ True from key).2
    | error p => rw [hr] at key; rw [show p = .unwrap from key]
  · have hk := hk trivial
    by_cases h : i < shlSteps .w16
    · exact (square_sound_spec (ops_lawful (.dec .w16) dbg) hy (squareSound_step .w16 i h)).mono
        fun _ hz => ⟨hz, fun _ => by omega⟩
    · rw [show i = shlSteps .w16 by omega] at hy
      rw [show Babs.square _ dbg y = _ from lastSquare dbg y hy]
      exact rfl

/-- C23: all decimal left shifts in digits of 16 bits are exact whenever they are returned; the only panic is
that of an unwrapped error. -/
theorem shl_decimal_sound (x : List Nat) (m n : Nat) (hx : Rep (DType.dec .w16).radix x m) :
    ReturnsOr (· = .unwrap) (UBig.shl (.dec .w16) dbg x n)
      fun z => Rep (DType.dec .w16).radix z (m * 2 ^ n) := by
  by_cases h : n < 2 ^ (shlSteps .w16 + 1)
  · exact shl_decimal_sound_partial dbg .w16 x m n hx h
  · rw [show UBig.shl (.dec .w16) dbg x n = .error .unwrap from
      shl_decimal_long_panics dbg x m n hx (not_lt.mp h)]
    exact rfl

/-- C55, C23: exactly which decimal left shifts panic, for all numbers and all numbers of places, in digits of
16 bits.  Short shifts, done digit by digit, do not.  Shifts by 2^20 places or more do.  The others panic if a
step of repeated squaring does, or the product with the power of two. -/
theorem shl_decimal_panics_exactly (x : List Nat) (m n : Nat) (hx : Rep (DType.dec .w16).radix x m) :
    let P := 4 * UBig.maxHexPlaces .w16 < n ∧ (2 ^ 20 ≤ n ∨
      (∃ i, powStepPanics (DType.dec .w16).radix 2 n i) ∨ productPanics (DType.dec .w16).radix m (2 ^ n) = true)
    P ∧ Panics (UBig.shl (.dec .w16) dbg x n) .unwrap ∨
    ¬ P ∧ Returns (UBig.shl (.dec .w16) dbg x n) fun z => Rep (DType.dec .w16).radix z (m * 2 ^ n) := by
  intro P
  by_cases h1 : 4 * UBig.maxHexPlaces .w16 < n
  · by_cases h2 : n < 2 ^ 20
    · rcases shl_decimal_clean_panics_exactly_partial dbg .w16 x m n hx h1 (powClean_two .w16 n h2) with h | h
      · exact Or.inl ⟨⟨h1, Or.inr h.1⟩, h.2⟩
      · exact Or.inr ⟨fun hp => h.1 (hp.2.resolve_left (not_le.mpr h2)), h.2⟩
    · exact Or.inl ⟨⟨h1, Or.inl (not_lt.mp h2)⟩, shl_decimal_long_panics dbg x m n hx (not_lt.mp h2)⟩
  · exact Or.inr ⟨fun hp => h1 hp.1, shl_decimal_small_exact dbg .w16 x m n hx (not_lt.mp h1)⟩

/-! ## The hypotheses can be met -/

-- A number of 4933 digits, far more than the 1131 that are right for every number.
set_option maxRecDepth 100000 in
example : ∃ x, Rep (DType.dec .w8).radix x (2 ^ 2 ^ 15) ∧ 1131 < x.length ∧
    squareSound (DType.dec .w8).radix 20 true true (2 ^ 2 ^ 15) = true := by
  obtain ⟨x, hx⟩ := exists_rep (B := (DType.dec .w8).radix) (by decide) (2 ^ 2 ^ 15)
  exact ⟨x, hx, by rw [length_eq_size _ hx]; decide +kernel, squareSound_step .w8 15 (by decide)⟩

example : ∀ i, 2 ^ (i + 1) ≤ 2 ^ 18 - 1 → squareSound (DType.dec .w8).radix 20 true true (2 ^ 2 ^ i) = true :=
  fun i hi => squareSound_step .w8 i (by
    have : i + 1 < 18 := (Nat.pow_lt_pow_iff_right (show 1 < 2 by omega)).mp (lt_of_le_of_lt hi (by omega))
    exact (by omega : i < 17))

-- Squares and powers of far more than 1131 and 2262 digits to which `square_clean_panics_exactly_partial`
-- and `pow_clean_panics_exactly_partial` apply.
example : squareClean (DType.dec .w8).radix (2 ^ 2 ^ 15) ∧ powClean (DType.dec .w8).radix 2 200000 :=
  ⟨Or.inr ⟨20, squareSound_step .w8 15 (by decide)⟩, powClean_two .w8 200000 (by decide)⟩

-- A shift that panics, and one that does not get that far.
example : Rep (DType.dec .w16).radix [1] 1 ∧ 2 ^ (shlSteps .w16 + 1) ≤ 1100000 ∧
    4 * UBig.maxHexPlaces .w16 < 1000 ∧ 1000 < 2 ^ (shlSteps .w16 + 1) := by
  decide

end Babs.Props
