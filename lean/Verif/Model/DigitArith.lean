import Verif.Model.UBig

/-!
# Operators on digits, and the number of digits
-/

namespace Babs

variable (t : DType) (dbg : Bool)

/-- `Add` for digits, `src/digit.rs:440-448` (binary) and `890-898` (decimal): addition of the
storage words. -/
def digitAdd (a b : Nat) : R Nat := addW dbg (UBig.bits t) a b

/-- `Mul` for digits, `src/digit.rs:450-458` (binary) and `900-908` (decimal): multiplication of the
storage words. -/
def digitMul (a b : Nat) : R Nat := mulW dbg (UBig.bits t) a b

/-- `src/ubig.rs:57-61`, `UBig::nr_digits`. -/
def nrDigits (x : List Nat) : Nat := x.length

end Babs
