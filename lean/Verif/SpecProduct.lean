import Verif.SpecToom

/-!
# Specification: the products that do not panic
-/

namespace Babs

/-- The product of the numbers `m` and `n` does not panic. -/
def productOk (b m n : Nat) : Bool := !productPanics b m n

end Babs
