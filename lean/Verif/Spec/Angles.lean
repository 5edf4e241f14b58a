import Mathlib.Analysis.SpecialFunctions.Trigonometric.Inverse
import Mathlib.Analysis.SpecialFunctions.Complex.Arg
import Mathlib.Analysis.Quaternion
import Verif.Spec.Clip
import Verif.Spec.Turn

/-!
# Specification: good inverse trigonometric functions

What is assumed of the C library's `acosf`, `asinf` and `atan2f` where a theorem needs them to be accurate.
-/

namespace Zcm

open F32 Quaternion

/-- `acosf` is good: on `[-1, 1]` it returns a finite number within `2^-21` of the exact arc cosine.  (Two units in the
last place for results near π; the usual C libraries promise one.) -/
def GoodAcos [Libm F32] : Prop :=
  ∀ x : F32, x.IsFin = true → |(x.val : ℝ)| ≤ 1 → Near (Libm.acosf x) (Real.arccos x.val) (1 / 2 ^ 21)

/-- `acosf` answers NaN above 1, as the C standard recommends and every usual library does. -/
def AcosDomain [Libm F32] : Prop := ∀ x : F32, x.IsFin = true → 1 < (x.val : ℝ) → Libm.acosf x = .nan

/-- `asinf` is good: on `[-1, 1]` it returns a finite number within `2^-22` of the exact arc sine.  (Two units in the last
place for results near π/2.) -/
def GoodAsin [Libm F32] : Prop :=
  ∀ x : F32, x.IsFin = true → |(x.val : ℝ)| ≤ 1 → Near (Libm.asinf x) (Real.arcsin x.val) (1 / 2 ^ 22)

/-- `atan2f` is good: for finite arguments `atan2f(y, x)` returns a finite number within `2^-21` of an angle in `[-π, π]`
that points in the direction of `(x, y)`.  (On the negative x-axis both π and -π do: the C library chooses by the sign of
zero.  At `(0, 0)` any angle does.) -/
def GoodAtan2 [Libm F32] : Prop :=
  ∀ y x : F32, y.IsFin = true → x.IsFin = true → ∃ θ : ℝ, |θ| ≤ Real.pi ∧
    Real.sqrt ((x.val : ℝ) ^ 2 + (y.val : ℝ) ^ 2) * Real.cos θ = x.val ∧
    Real.sqrt ((x.val : ℝ) ^ 2 + (y.val : ℝ) ^ 2) * Real.sin θ = y.val ∧ Near (Libm.atan2f y x) θ (1 / 2 ^ 21)

/-- The distance of the points of the unit circle at the angles `a` and `b`.  It is small exactly when the angles agree up
to whole turns and a small difference. -/
noncomputable def chord (a b : ℝ) : ℝ := Real.sqrt ((Real.cos a - Real.cos b) ^ 2 + (Real.sin a - Real.sin b) ^ 2)

/-- The sine of the yaw of the rotation by `Q`: minus the height to which it lifts the x-axis. -/
noncomputable def sinYaw (Q : ℍ[ℝ]) : ℝ := -(Q * vecQ ![1, 0, 0] * Q⁻¹).imK

/-- The cosine of the yaw: how far the rotated x-axis is from vertical.  It is 0 exactly at gimbal lock, when the rotation
takes the x-axis to the z-axis or its opposite. -/
noncomputable def cosYaw (Q : ℍ[ℝ]) : ℝ := Real.sqrt (1 - sinYaw Q ^ 2)

end Zcm
