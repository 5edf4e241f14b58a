import Mathlib.Analysis.Quaternion
import Verif.Model.F32
import Verif.Spec.Coord

/-!
# Specification: the exact quaternion a float quaternion stands for
-/

namespace Zcm

open Quaternion F32

/-- Mathlib's quaternion whose four components are exactly the numbers stored in `q` (meant for finite components) -/
noncomputable def exactQ (q : Quat F32) : ℍ[ℝ] := ⟨q.w.val, q.x.val, q.y.val, q.z.val⟩

/-- no component is an infinity or a NaN -/
def Quat.Finite (q : Quat F32) : Prop := ∀ i, (coord q i).IsFin = true

/-- the exact Hamilton product `q0 * q1 * ... * qn` -/
noncomputable def exactProduct (q0 : Quat F32) (qs : List (Quat F32)) : ℍ[ℝ] := exactQ q0 * (qs.map exactQ).prod

/-- the vector `v` as an exact pure quaternion `x i + y j + z k`; its norm is the Euclidean length -/
noncomputable def exactV (v : V3 F32) : ℍ[ℝ] := ⟨0, v.x.val, v.y.val, v.z.val⟩

/-- no component is an infinity or a NaN -/
def V3.Finite (v : V3 F32) : Prop := ∀ i, (coord v i).IsFin = true

/-- the basis quaternions `i`, `j`, `k` -/
noncomputable def axisQ (c : Fin 3) : ℍ[ℝ] := ⟨0, ![1, 0, 0] c, ![0, 1, 0] c, ![0, 0, 1] c⟩

/-- column `c` of a `mat3`, as an exact pure quaternion -/
noncomputable def exactColumn (m : M3 F32) (c : Fin 3) : ℍ[ℝ] :=
  ⟨0, (entry m c 0).val, (entry m c 1).val, (entry m c 2).val⟩

end Zcm
