import Verif.Props.Decimal
import Verif.Props.SquareLong
import Verif.Proofs.Scale.First
import Verif.Proofs.Scale.Second
import Verif.Proofs.Scale.Right

/-!
# C30: long numbers with digits of eight bits cannot be converted to decimal

The conversion computes the powers `100 ^ 2 ^ i` by repeated squaring (`src/ubig.rs:289-299`).  The
thirteenth square is the first one to be wrong: it meets the stale digits of `Verif/Props/SquareLong.lean`.
The fourteenth is a wrong square of a wrong number.  The fifteenth panics, so all numbers for which it is
needed cause a panic.
-/

namespace Babs.Props

open Babs UBig

variable (dbg : Bool)

attribute [local irreducible] scale13 scale14

set_option maxRecDepth 100000 in
set_option exponentiation.threshold 100000 in
theorem size_scale12 : size 256 (100 ^ 4096) = 3402 := by decide +kernel

theorem scale12_eq {s : List Nat} (hs : Rep 256 s (100 ^ 2 ^ 12)) : s = dig 256 3402 (100 ^ 4096) :=
  hs.unique (P.rep_dig (by omega) size_scale12)

/-- C13: squaring `10 ^ 8192`, in digits of eight bits, does not give `10 ^ 16384`. -/
theorem square_scale_wrong (s : List Nat) (hs : Rep 256 s (10 ^ 8192)) :
    Returns (UBig.square (.bin .w8) dbg s) fun z => ∃ k, Rep 256 z k ∧ k ≠ (10 ^ 8192) ^ 2 := by
  have e1 : (10 : Nat) ^ 8192 = 100 ^ 2 ^ 12 := by
    rw [show (100 : Nat) = 10 ^ 2 from rfl, ← pow_mul, show 2 * 2 ^ 12 = 8192 from rfl]
  have e2 : ((10 : Nat) ^ 8192) ^ 2 = 100 ^ 8192 := by
    rw [e1, ← pow_mul, show 2 ^ 12 * 2 = 8192 from rfl]
  rw [e1] at hs
  rw [scale12_eq hs, e2]
  refine wrong_of_eval (t := .bin .w8) ?_ dbg
  show returnsOther 256 _ (P.F.sq 256 true _) = true
  rw [scale13_eval, returnsOther, P.num_of_size (by omega) scale13_wrong.1, Bool.and_eq_true, beq_iff_eq, bne_iff_ne]
  exact scale13_wrong

theorem makeScales_step {w : Width} {k : Nat} {s z : List Nat} {e : Panic}
    (h1 : UBig.square (.bin w) dbg s = .ok z) (h2 : makeScales dbg w k z = .error e) :
    makeScales dbg w (k + 1) s = .error e := by
  unfold makeScales
  rw [h1, ok_bind, h2]
  rfl

theorem makeScales_stop {w : Width} {k : Nat} {s : List Nat} {e : Panic}
    (h1 : UBig.square (.bin w) dbg s = .error e) : makeScales dbg w (k + 1) s = .error e := by
  unfold makeScales
  rw [h1]
  rfl

theorem makeScales_from12 (k : Nat) : makeScales dbg .w8 (k + 3) (dig 256 3402 (100 ^ 4096))
    = .error .unwrap := by
  refine makeScales_step dbg (P.square_eval (t := .bin .w8) scale13_eval dbg) ?_
  refine makeScales_step dbg (P.square_eval (t := .bin .w8) scale14_eval dbg) ?_
  exact makeScales_stop dbg (P.square_eval_unwrap (t := .bin .w8) scale15_eval dbg)

theorem makeScales_fails (k : Nat) : ∀ j, j ≤ 12 → ∀ s, Rep 256 s (100 ^ 2 ^ (12 - j)) →
    makeScales dbg .w8 (k + 3 + j) s = .error .unwrap := by
  intro j
  induction j with
  | zero =>
    intro _ s hs
    rw [scale12_eq hs]
    exact makeScales_from12 dbg k
  | succ j ih =>
    intro hj s hs
    have hi : 12 - (j + 1) ∈ List.range 12 := List.mem_range.mpr (by omega)
    obtain ⟨z, hz, hr⟩ := tot_iff.mp ((square_fresh_spec (ops_lawful (.bin .w8) dbg) hs
      (mulSafe_scales .w8 _ hi) (squareFresh_scales .w8 _ hi)).weaken fun _ h => h.2 trivial)
    refine makeScales_step dbg hz (ih (by omega) z ?_)
    have : (100 ^ 2 ^ (12 - (j + 1))) * (100 ^ 2 ^ (12 - (j + 1))) = 100 ^ 2 ^ (12 - j) := by
      rw [← pow_two, ← pow_mul, ← pow_succ]
      congr 2
      omega
    rw [← this]
    exact hr

/-- C30: no number of 40821 or more digits of eight bits can be converted to decimal; all of them cause a
panic, in both build profiles. -/
theorem toDecimal_long_panics (x : List Nat) (hl : 40821 ≤ x.length) :
    Panics (toDecimal dbg .w8 x) .unwrap := by
  have he : 15 ≤ splitExp .w8 x.length := by
    by_contra hc
    have := (splitExp_le .w8 x.length 14).mp (by omega)
    simp only [places, Width.bytes] at this
    omega
  unfold Panics toDecimal
  rw [if_neg (by simp only [toDecDivCutoff]; omega)]
  simp only [scaleRounds_eq]
  obtain ⟨k, hk⟩ : ∃ k, splitExp .w8 x.length = k + 3 + 12 := ⟨splitExp .w8 x.length - 15, by omega⟩
  rw [hk, show Width.w8.decRadix = 100 from rfl,
    makeScales_fails dbg k 12 (le_refl _) _ (ofWord_exact (.bin .w8) 100 (by decide))]
  rfl

/-- C30: nor can it be printed. -/
theorem display_long_panics (f : FmtFlags) (x : List Nat) (hl : 40821 ≤ x.length) :
    Panics (display (.bin .w8) dbg f x) .unwrap := by
  unfold Panics display
  simp only []
  rw [toDecimal_long_panics dbg x hl]
  rfl

theorem squareReturned_upto13 (w : Width) (hw : w ≠ .w8) (i : Nat) (hi : i < 13) :
    SquareReturned dbg (.bin w) ((DType.dec w).radix ^ 2 ^ i) := by
  by_cases hi' : i < 12
  · exact squareReturned_of dbg _ ⟨20, 20, mulSafe_scales w i (List.mem_range.mpr hi'),
      squareFresh_scales w i (List.mem_range.mpr hi')⟩
  · have h12 : 2 ^ i = 4096 := by rw [show i = 12 by omega]; rfl
    rw [h12]
    intro s hs
    have hB := (ops_lawful (.bin w) true).base
    rw [hs.unique (P.rep_dig (by omega) rfl), ← pow_mul, show 4096 * 2 = 8192 from rfl]
    exact ⟨_, P.square_eval (isResult_ok (scale13_right w hw)) dbg, P.rep_dig (by omega) rfl⟩

/-- C30 (in part): in digits of more than eight bits the squares are right for numbers of up to 20409
digits, so that only the divisions remain. -/
theorem toDecimal_upto20409_exact_iff_partial (w : Width) (hw : w ≠ .w8) (x : List Nat) (m : Nat)
    (hx : Rep (DType.bin w).radix x m) (hl : x.length ≤ 20409)
    (hdiv : EverySplit (DivRight (DType.bin w).radix) (DType.bin w).radix (DType.dec w).radix
      (splitExp w) (x.length + 1) m) :
    (Returns (toDecimal dbg w x) (fun z => Rep (DType.dec w).radix z m) ↔
      padded (DType.bin w).radix (DType.dec w).radix (splitExp w) (x.length + 1) m = true) ∧
    Returns (toDecimal dbg w x) fun z => ∃ n, n ≤ m ∧ Rep (DType.dec w).radix z n := by
  refine toDecimal_iff dbg w x m hx (fun i hi => ?_) hdiv
  exact squareReturned_upto13 dbg w hw i (lt_of_lt_of_le hi
    (le_trans (splitExp_mono w hl) (by rw [splitExp_le]; cases w <;> decide)))

/-- A number of 20 digits of 16 bits with one division; it is converted correctly. -/
example : let m := val 65536 (mixed 65536 19 1 ++ [1])
    EverySplit (DivRight 65536) 65536 (10 ^ 4) (splitExp .w16) 21 m ∧
    padded 65536 (10 ^ 4) (splitExp .w16) 21 m = true := by
  intro m
  have n20 : size 65536 m = 20 := by decide +kernel
  have e20 : splitExp .w16 20 = 3 := by decide +kernel
  refine ⟨fun _ => ?_, by decide +kernel⟩
  simp only [n20, e20]
  refine ⟨?_, fun h => absurd h (by decide +kernel), fun h => absurd h (by decide +kernel)⟩
  exact divRight_short (s := 5) [0, 0, 61313, 34220, 16731, 11629, 1262] (by decide +kernel) (by decide)
    ⟨1262, rfl, by decide, by decide⟩ (by decide +kernel)

/-- Numbers of 40821 digits exist. -/
example : Rep 256 (List.replicate 40821 1) (val 256 (List.replicate 40821 1)) := by
  refine ⟨fun d hd => ?_, ?_, rfl⟩
  · rw [List.eq_of_mem_replicate hd]; omega
  · unfold Canon; rw [List.getLast?_replicate]; decide

end Babs.Props
