import Verif.Model.UBig

/-!
# The benchmark of the conversion to decimal, `benches/base.rs`
-/

namespace Babs

/-- `benches/base.rs:20-31`: `let n = one() << e;` and `n.to_decimal()`, for one of the types and exponents of
the benchmark.  The reference to `n` that is passed on is not modelled. -/
def benchToDecimal (dbg : Bool) (w : Width) (e : Nat) : R (List Nat) := do
  let n ← UBig.shl (.bin w) dbg ubigOne e
  UBig.toDecimal dbg w n

end Babs
