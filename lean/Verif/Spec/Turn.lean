import Mathlib.Analysis.Quaternion
import Mathlib.Analysis.SpecialFunctions.Trigonometric.Basic
import Mathlib.LinearAlgebra.CrossProduct
import Verif.Spec.Accuracy
import Verif.Spec.HamiltonF32

/-!
# Specification: a good C library, and the exact rotation by an angle about an axis
-/

namespace Zcm

open Quaternion F32

/-- The `sinf` and `cosf` of the C library are good: for every finite argument they return finite numbers within `2^-23`
of the exact sine and cosine.  (Two units in the last place for results near 1; the usual C libraries promise one.) -/
def GoodTrig [Libm F32] : Prop :=
  ∀ x : F32, x.IsFin = true →
    ((Libm.sinf x).IsFin = true ∧ |((Libm.sinf x).val : ℝ) - Real.sin x.val| ≤ 1 / 2 ^ 23) ∧
    ((Libm.cosf x).IsFin = true ∧ |((Libm.cosf x).val : ℝ) - Real.cos x.val| ≤ 1 / 2 ^ 23)

/-- The exact unit vector of the direction of `v`. -/
noncomputable def direction (v : V3 F32) (i : Fin 3) : ℝ := (coord v i).val / exactLength (coord v)

/-- Rodrigues' rotation of `p` by the angle `θ` about the unit vector `n`, in exact arithmetic. -/
noncomputable def rodrigues (θ : ℝ) (n p : Fin 3 → ℝ) : Fin 3 → ℝ :=
  Real.cos θ • p + Real.sin θ • crossProduct n p + ((1 - Real.cos θ) * (n ⬝ᵥ p)) • n

/-- The exact unit quaternion of the rotation by `θ` about the unit vector `n`. -/
noncomputable def turnQ (θ : ℝ) (n : Fin 3 → ℝ) : ℍ[ℝ] :=
  ⟨Real.cos (θ / 2), Real.sin (θ / 2) * n 0, Real.sin (θ / 2) * n 1, Real.sin (θ / 2) * n 2⟩

/-- A vector as a pure quaternion. -/
def vecQ (p : Fin 3 → ℝ) : ℍ[ℝ] := ⟨0, p 0, p 1, p 2⟩

/-- The numbers stored in `v`. -/
noncomputable def numbers (v : V3 F32) (i : Fin 3) : ℝ := (coord v i).val

end Zcm
