import Verif.Proofs.Scale.Table

/-! Squares that are right, in digits of more than eight bits. -/

namespace Babs

set_option maxRecDepth 100000 in
set_option exponentiation.threshold 100000 in
theorem scale13_right : ∀ w : Width, w ≠ .w8 →
    isResult (size (DType.bin w).radix ((DType.dec w).radix ^ 8192)) ((DType.dec w).radix ^ 8192)
      (P.F.sq (DType.bin w).radix true
        ⟨size (DType.bin w).radix ((DType.dec w).radix ^ 4096), (DType.dec w).radix ^ 4096⟩) = true := by
  intro w hw
  cases w with
  | w8 => exact absurd rfl hw
  | w16 => decide +kernel
  | w32 => decide +kernel
  | w64 => decide +kernel

end Babs
