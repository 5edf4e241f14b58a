import Mathlib.Algebra.Quaternion
import Mathlib.Analysis.Quaternion
import Verif.Spec.Coord

/-!
# Specification: Hamilton's quaternions

`ham q` is Mathlib's quaternion `w + x i + y j + z k`; `pureQ v` is `x i + y j + z k`.
-/

namespace Zcm

open Quaternion

/-- Mathlib's quaternion with the components of `q` -/
def ham (q : Quat ℝ) : ℍ[ℝ] := ⟨q.w, q.x, q.y, q.z⟩

/-- the vector `v` as a pure quaternion -/
def pureQ (v : V3 ℝ) : ℍ[ℝ] := ⟨0, v.x, v.y, v.z⟩

end Zcm
