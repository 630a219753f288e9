import Verif.Proofs.Scale.Table

/-! Computations by the kernel. -/

namespace Babs

set_option maxRecDepth 100000 in
theorem scale14_eval : P.F.sq 256 true ⟨6804, scale13⟩ = .ok ⟨13607, scale14⟩ :=
  isResult_ok (by decide +kernel)

end Babs
