import Verif.Model.Prim
import Mathlib.Data.List.Forall2

/-!
# Specification

The vocabulary of the property theorems: which natural number a list of digits denotes, which
lists are valid digits, and what normal form means.  Nothing here depends on how the code works.
-/

namespace Babs

/-- The number denoted by a list of digits in base `b`, least significant digit first. -/
def val (b : Nat) : List Nat → Nat
  | [] => 0
  | d :: ds => d + b * val b ds

/-- All digits are less than the base. -/
def Digs (b : Nat) (ds : List Nat) : Prop := ∀ d ∈ ds, d < b

/-- Normal form: the most significant digit is not zero (zero has no digits). -/
def Canon (ds : List Nat) : Prop := ds.getLast? ≠ some 0

/-- `ds` is the normal form of the number `n` in base `b`. -/
structure Rep (b : Nat) (ds : List Nat) (n : Nat) : Prop where
  digs : Digs b ds
  canon : Canon ds
  val_eq : val b ds = n

/-- The computation does not panic, and returns a value with property `Q`. -/
def Returns {α : Type} (x : R α) (Q : α → Prop) : Prop := ∃ a, x = .ok a ∧ Q a

/-- The computation returns a value with property `Q`, or it panics for a reason in `E`. -/
def ReturnsOr {α : Type} (E : Panic → Prop) (x : R α) (Q : α → Prop) : Prop :=
  match x with
  | .ok a => Q a
  | .error p => E p

/-- The computation panics for the reason `p`. -/
def Panics {α : Type} (x : R α) (p : Panic) : Prop := x = .error p

/-- A debug build does `d` where a release build does `r`: the same, or the debug build panics because
of an overflow check or a failed debug assertion. -/
def Agree {α : Type} (d r : R α) : Prop := d = r ∨ Panics d .overflow ∨ Panics d .debugAssert

instance (b : Nat) (ds : List Nat) : Decidable (Digs b ds) := by unfold Digs; infer_instance
instance (ds : List Nat) : Decidable (Canon ds) := by unfold Canon; infer_instance

instance {α : Type} [DecidableEq α] (x : R α) (p : Panic) : Decidable (Panics x p) :=
  inferInstanceAs (Decidable (x = .error p))

/-- Whether a list is the normal form of a given number can be decided (used for examples). -/
instance (b : Nat) (ds : List Nat) (n : Nat) : Decidable (Rep b ds n) :=
  decidable_of_iff (Digs b ds ∧ Canon ds ∧ val b ds = n)
    ⟨fun ⟨h1, h2, h3⟩ => ⟨h1, h2, h3⟩, fun ⟨h1, h2, h3⟩ => ⟨h1, h2, h3⟩⟩

/-! ## Text -/

/-- The character `c` stands for the digit `d` in base `base` (at most 16), in either letter case. -/
def CharDigit (base : Nat) (c : Char) (d : Nat) : Prop :=
  d < base ∧ ("0123456789abcdef".toList[d]? = some c ∨ "0123456789ABCDEF".toList[d]? = some c)

/-- The text `s` consists of digits, most significant first, and stands for the number `n`.  The empty
text stands for zero. -/
def Numeral (base : Nat) (s : List Char) (n : Nat) : Prop :=
  ∃ ds, List.Forall₂ (CharDigit base) s ds ∧ val base ds.reverse = n

/-- The text `s` is the standard notation of `n` in base `base` (at most 16): one digit or more, most
significant first, no zero in front unless it is the only digit, all letters in one case. -/
def Standard (base : Nat) (upper : Bool) (s : List Char) (n : Nat) : Prop :=
  ∃ ds, List.Forall₂ (fun c d => d < base ∧
      (if upper then "0123456789ABCDEF" else "0123456789abcdef").toList[d]? = some c) s ds ∧
    val base ds.reverse = n ∧ ds ≠ [] ∧ (ds.head? = some 0 → ds = [0])

/-- The text `out` is the number `s` formatted with the flags `f`: a sign if asked for, the prefix
`pre` if asked for, zeros or fill characters to reach the width, on the side or sides asked for. -/
def Formatted (f : FmtFlags) (pre s out : List Char) : Prop :=
  let body := (if f.signPlus then ['+'] else []) ++ (if f.alternate then pre else [])
  ∃ before zeros after,
    out = List.replicate before f.fill ++ body ++ List.replicate zeros '0' ++ s
        ++ List.replicate after f.fill ∧
    out.length = max (f.width.getD 0) (body.length + s.length) ∧
    (f.zeroPad = true → before = 0 ∧ after = 0) ∧
    (f.zeroPad = false → zeros = 0 ∧
      match f.align with
      | some .left => before = 0
      | some .center => before ≤ after ∧ after ≤ before + 1
      | _ => after = 0)

end Babs
