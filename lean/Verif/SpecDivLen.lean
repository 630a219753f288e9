/-!
# Specification: at which length the recursive division ends
-/

namespace Babs

/-- The number of digits of the divisors at the bottom of the recursive division by a number of `len`
digits: the length is halved, rounding up, until it is less than 20. -/
def leafDigits (len : Nat) : Nat :=
  if len < 20 then len else leafDigits ((len + 1) / 2)
termination_by len
decreasing_by omega

end Babs
