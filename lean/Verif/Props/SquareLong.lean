import Verif.Spec
import Verif.Props.Mul
import Verif.Proofs.PackedEval

/-!
Numbers whose squares are wrong, one for each digit type, of the smallest possible length.

`square_toom3_into` (`src/ubig/mul/toom3.rs:299-437`) does not clear its buffers.  In the evaluation at
`-1` (line 323) it subtracts `p(0) + p(inf)` from a longer coefficient, and reads more digits of the buffer
than have been written.  The buffer is clear in the outermost call and in those one level below, but with
three nested levels of Toom-Cook it holds digits of earlier squares.  Three levels take at least 1132
digits.  The numbers below have 1132 digits.  Their value at `-2` is a number of 379 digits whose value at
`1` is a number of 128 digits that is itself split in such a way that too many digits are read.
-/

namespace Babs.Props

open Babs

/-- A number of 1132 digits in base `b`. -/
def longNumber (b : Nat) : Nat :=
  let y := (b ^ 43 - 1) * b ^ 43 + b ^ 127
  let x1 := (b ^ 127 - 1) / 3
  let z := (y - b ^ 124 - x1) + x1 * b ^ 127 + b ^ 378
  let p1 := b ^ 378 - 1 - (b ^ 378 - 1) / 9
  let p2 := b ^ 375
  (2 * p1 - 4 * p2 - z) + p1 * b ^ 378 + p2 * b ^ 756

/-- The digits of the witness. -/
def longWitness (t : DType) : List Nat := dig t.radix 1132 (longNumber t.radix)

/-- The result is a number in normal form, but not the given one. -/
def returnsOther (b k : Nat) : R P → Bool
  | .ok p => size b (p.num b) == p.n && p.num b != k
  | .error _ => false

set_option maxRecDepth 100000 in
theorem longSquare_eval (t : DType) :
    returnsOther t.radix (longNumber t.radix ^ 2)
      (P.F.sq t.radix true ⟨1132, longNumber t.radix⟩) = true := by
  rcases t with w | w <;> cases w <;> decide +kernel

set_option maxRecDepth 100000 in
theorem longNumber_size (t : DType) : size t.radix (longNumber t.radix) = 1132 := by
  rcases t with w | w <;> cases w <;> decide +kernel

set_option maxRecDepth 100000 in
set_option exponentiation.threshold 3000 in
theorem longNumber_sq_lt (t : DType) : longNumber t.radix ^ 2 < t.radix ^ 2263 := by
  rcases t with w | w <;> cases w <;> decide +kernel

theorem longWitness_rep (t : DType) :
    Rep t.radix (longWitness t) (longNumber t.radix) :=
  P.rep_dig (by have := (ops_lawful t true).base; omega) (longNumber_size t)

theorem wrong_of_eval {t : DType} {n v k : Nat}
    (h : returnsOther t.radix k (P.F.sq t.radix true ⟨n, v⟩) = true) (dbg : Bool) :
    Returns (UBig.square t dbg (dig t.radix n v)) fun z => ∃ m, Rep t.radix z m ∧ m ≠ k := by
  have hb := (ops_lawful t true).base
  cases hp : P.F.sq t.radix true ⟨n, v⟩ with
  | error e => rw [hp] at h; cases h
  | ok p =>
    rw [hp] at h
    simp only [returnsOther, Bool.and_eq_true, beq_iff_eq, bne_iff_ne] at h
    refine ⟨_, P.square_eval hp dbg, p.num t.radix, ?_, h.2⟩
    have := P.rep_dig (b := t.radix) (by omega) h.1
    rwa [P.num, pw_eq, dig_mod (by omega)] at this

/-- C13: squaring is not exact for all numbers.  In every type and both build profiles the square of
this number is returned, in normal form, but it is not the square. -/
theorem square_wrong (t : DType) (dbg : Bool) :
    Rep t.radix (longWitness t) (longNumber t.radix) ∧
    Returns (UBig.square t dbg (longWitness t)) fun z =>
      ∃ k, Rep t.radix z k ∧ k ≠ longNumber t.radix ^ 2 :=
  ⟨longWitness_rep t, wrong_of_eval (longSquare_eval t) dbg⟩

theorem ne_mul_of_wrong (t : DType) (dbg : Bool) {x : List Nat} {m : Nat}
    (h : Rep t.radix x m ∧ Returns (UBig.square t dbg x) fun z => ∃ k, Rep t.radix z k ∧ k ≠ m ^ 2) :
    Returns (UBig.square t dbg x) fun z =>
      ReturnsOr (· = .unwrap) (UBig.mul t dbg x x) fun z' => z ≠ z' := by
  obtain ⟨hx, z, hz, k, hk, hne⟩ := h
  refine ⟨z, hz, ?_⟩
  refine Sp.mono (mul_exact_or_unwrap t dbg x x m m hx hx) fun z' hz' => ?_
  rintro rfl
  apply hne
  rw [← hk.val_eq, hz'.val_eq, pow_two]

/-- C13: multiplying the same number with itself does not give the same result as squaring it. -/
theorem square_ne_mul (t : DType) (dbg : Bool) :
    Returns (UBig.square t dbg (longWitness t)) fun z =>
      ReturnsOr (· = .unwrap) (UBig.mul t dbg (longWitness t) (longWitness t)) fun z' => z ≠ z' :=
  ne_mul_of_wrong _ dbg (square_wrong t dbg)

theorem square_wrong_exists (t : DType) (dbg : Bool) : ∃ x m, Rep t.radix x m ∧ x.length = 1132 ∧
    m ^ 2 < t.radix ^ 2263 ∧
    Returns (UBig.square t dbg x) fun z => ∃ k, Rep t.radix z k ∧ k ≠ m ^ 2 :=
  ⟨_, _, (square_wrong t dbg).1, dig_length _ _, longNumber_sq_lt t, (square_wrong t dbg).2⟩

/-- C13: the squares of all numbers of at most `n` digits are right or panic by an unwrapped error exactly if
`n` is at most 1131. -/
theorem square_exact_or_unwrap_iff (t : DType) (dbg : Bool) (n : Nat) :
    (∀ x m, Rep t.radix x m → x.length ≤ n →
      ReturnsOr (· = .unwrap) (UBig.square t dbg x) fun z => Rep t.radix z (m ^ 2)) ↔ n ≤ 1131 := by
  refine ⟨fun h => ?_, fun h x m hx hl => square_exact_or_unwrap_partial t dbg x m hx (by omega)⟩
  by_contra hn
  obtain ⟨x, m, hx, hl, -, z, hz, k, hk, hne⟩ := square_wrong_exists t dbg
  have h1 := h x m hx (by omega)
  rw [hz] at h1
  exact hne (by rw [← hk.val_eq, ← (show Rep t.radix z _ from h1).val_eq])

/-- C14: all powers of at most `n` digits are right or panic by an unwrapped error exactly if `n` is at most
2262. -/
theorem pow_exact_or_unwrap_iff (t : DType) (dbg : Bool) (n : Nat) :
    (∀ x m e, Rep t.radix x m → m ^ e < t.radix ^ n →
      ReturnsOr (· = .unwrap) (UBig.pow t dbg x e) fun z => Rep t.radix z (m ^ e)) ↔ n ≤ 2262 := by
  have hB := (ops_lawful t dbg).pos
  refine ⟨fun h => ?_, fun h x m e hx hl => pow_exact_or_unwrap_partial t dbg x m e hx
    (lt_of_lt_of_le hl (Nat.pow_le_pow_right hB h))⟩
  by_contra hn
  obtain ⟨x, m, hx, -, hs, z, hz, k, hk, hne⟩ := square_wrong_exists t dbg
  have h1 := h x m 2 hx (lt_of_lt_of_le hs (Nat.pow_le_pow_right hB (by omega)))
  rw [show UBig.pow t dbg x 2 = UBig.square t dbg x from rfl, hz] at h1
  exact hne (by rw [← hk.val_eq, ← (show Rep t.radix z _ from h1).val_eq])

end Babs.Props
