import Mathlib.Analysis.Normed.Module.Normalize
import Mathlib.Geometry.Euclidean.Angle.Unoriented.Basic
import Verif.Spec.Clip
import Verif.Spec.HamiltonF32

/-!
# Specification: exact interpolation of rotations, and a C library good enough for it

Quaternions with their norm and inner product, angles and `normalize` are Mathlib's.
-/

namespace Zcm

open Quaternion InnerProductGeometry NormedSpace F32
open scoped RealInnerProductSpace

/-- The point of the straight segment from `X` to `Y` at the fraction `t`. -/
noncomputable def chordPoint (X Y : ℍ[ℝ]) (t : ℝ) : ℍ[ℝ] := (1 - t) • X + t • Y

/-- For unit quaternions: the point of the great arc from `X` to `Y` at the fraction `t` of the angle between them
(see `C104_arc`). -/
noncomputable def arcPoint (X Y : ℍ[ℝ]) (t : ℝ) : ℍ[ℝ] :=
  let θ := angle X Y
  if θ = 0 then X else (Real.sin ((1 - t) * θ) / Real.sin θ) • X + (Real.sin (t * θ) / Real.sin θ) • Y

/-- Of `Y` and `-Y`, which are the same rotation, the one nearer to `X`. -/
noncomputable def nearer (X Y : ℍ[ℝ]) : ℍ[ℝ] := if ⟪X, Y⟫ < 0 then -Y else Y

/-- The float quaternion is finite and of length 1 up to `2^-20` (what `normalize` and products of such give). -/
def NearUnit (q : Quat F32) : Prop := q.Finite ∧ |‖exactQ q‖ - 1| ≤ 1 / 2 ^ 20

/-- The float quaternion `q` is finite and within `e` of the exact quaternion `Q`. -/
def NearQ (q : Quat F32) (Q : ℍ[ℝ]) (e : ℝ) : Prop := q.Finite ∧ ‖exactQ q - Q‖ ≤ e

/-- The `sinf` and `acosf` of the C library have a small relative error between 0 and a right angle (up to underflow). -/
def GoodArc [Libm F32] : Prop :=
  (∀ x : F32, x.IsFin = true → 0 ≤ (x.val : ℝ) → (x.val : ℝ) ≤ 1.6 →
    Near (Libm.sinf x) (Real.sin x.val) (1 / 2 ^ 22 * Real.sin x.val + 1 / 2 ^ 140)) ∧
  (∀ x : F32, x.IsFin = true → 0 ≤ (x.val : ℝ) → (x.val : ℝ) < 1 →
    Near (Libm.acosf x) (Real.arccos x.val) (1 / 2 ^ 22 * Real.arccos x.val))

end Zcm
