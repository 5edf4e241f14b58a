import Verif.Spec.Turn

/-!
# Specification: a point scaled along the axes, then rotated, then moved
-/

namespace Zcm

open Quaternion

/-- `p` scaled by `s` along the axes, exactly. -/
noncomputable def stretched (s p : V3 F32) (c : Fin 3) : ℝ := (coord s c).val * (coord p c).val

/-- `p` scaled by `s`, then turned by `q`, then moved by `w` times `t`, exactly.  Points have `w = 1`, directions `w = 0`.
(Turning by `q` is `v ↦ q v q⁻¹`, a rotation for every `q` that is not zero.) -/
noncomputable def placeAt (t : V3 F32) (q : Quat F32) (s p : V3 F32) (w : ℝ) : Fin 3 → ℝ :=
  let v := exactQ q * vecQ (stretched s p) * (exactQ q)⁻¹
  fun r => w * (coord t r).val + ![v.imI, v.imJ, v.imK] r

end Zcm
