import Verif.Spec.HamiltonF32
import Verif.Spec.View
import Verif.Spec.Turn

/-!
# Specification: turning a vector of space by a quaternion
-/

namespace Zcm

open Quaternion WithLp

/-- `x` turned by `q`, exactly: the vector part of `q x q⁻¹`. -/
noncomputable def turned (q : ℍ[ℝ]) (x : Space) : Space :=
  let v := q * vecQ (ofLp x) * q⁻¹
  toLp 2 ![v.imI, v.imJ, v.imK]

end Zcm
