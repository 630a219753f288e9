import Verif.Proofs.Scale.Table

/-! Computations by the kernel. -/

namespace Babs

set_option maxRecDepth 100000 in
set_option exponentiation.threshold 100000 in
theorem scale13_eval : P.F.sq 256 true ⟨3402, 100 ^ 4096⟩ = .ok ⟨6804, scale13⟩ :=
  isResult_ok (by decide +kernel)

set_option maxRecDepth 100000 in
set_option exponentiation.threshold 100000 in
theorem scale13_wrong : size 256 scale13 = 6804 ∧ scale13 ≠ 100 ^ 8192 := by decide +kernel

set_option maxRecDepth 100000 in
theorem scale15_eval : P.F.sq 256 true ⟨13607, scale14⟩ = .error .unwrap :=
  isUnwrap_error (by decide +kernel)

end Babs
