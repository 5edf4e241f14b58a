import Mathlib.Analysis.SpecialFunctions.Trigonometric.Basic
import Mathlib.LinearAlgebra.Matrix.Notation
import Verif.Model.F32
import Verif.Model.Scalar
import Verif.Model.Vec

/-!
# Specification: clip volumes, in exact arithmetic
-/

namespace Zcm

/-- The float `x` is finite and within `e` of the number `r`. -/
def Near (x : F32) (r e : ℝ) : Prop := x.IsFin = true ∧ |(x.val : ℝ) - r| ≤ e

/-- The position of `t` in the interval from `a` to `b`: 0 at `a`, 1 at `b`. -/
noncomputable def zeroToOne (a b t : ℝ) : ℝ := (t - a) / (b - a)

/-- The position of `t` in the interval from `a` to `b`: -1 at `a`, 1 at `b`. -/
noncomputable def minusOneToOne (a b t : ℝ) : ℝ := -1 + 2 * ((t - a) / (b - a))

/-- Two opposite sides of a box: finite, not absurdly far out, not absurdly close together. -/
def Sides (a b : F32) : Prop :=
  a.IsFin = true ∧ b.IsFin = true ∧ |(a.val : ℝ)| ≤ 2 ^ 60 ∧ |(b.val : ℝ)| ≤ 2 ^ 60 ∧ 1 / 2 ^ 60 ≤ |(b.val : ℝ) - a.val|

/-- A coordinate of a point: finite and not absurdly far out. -/
def Coordinate (t : F32) : Prop := t.IsFin = true ∧ |(t.val : ℝ)| ≤ 2 ^ 60

/-- Scaling by `sx, sy, sz` followed by translation by `tx, ty, tz`. -/
def boxMatrix (sx sy sz tx ty tz : ℝ) : Matrix (Fin 4) (Fin 4) ℝ :=
  !![sx, 0, 0, tx; 0, sy, 0, ty; 0, 0, sz, tz; 0, 0, 0, 1]

/-- A perspective projection along the z axis: focal lengths `fx, fy`, depth `A z + B`, and `w = s z`. -/
def frustumMatrix (fx fy A B s : ℝ) : Matrix (Fin 4) (Fin 4) ℝ :=
  !![fx, 0, 0, 0; 0, fy, 0, 0; 0, 0, A, B; 0, 0, s, 0]

/-- The exact depth of a point at distance `d` between the planes at `n` and `f`: 0 at `n`, 1 at `f`. -/
noncomputable def depth01 (n f d : ℝ) : ℝ := f * (d - n) / (d * (f - n))

/-- The exact depth with range from -1 to 1. -/
noncomputable def depth11 (n f d : ℝ) : ℝ := -1 + 2 * depth01 n f d

/-- The `tanf` of the C library is good: relative error at most `2^-22` for arguments strictly between 0 and a right
angle, neither tiny nor so near to the right angle that the tangent is huge. -/
def GoodTan [Libm F32] : Prop :=
  ∀ x : F32, x.IsFin = true → 1 / 2 ^ 21 ≤ (x.val : ℝ) → (x.val : ℝ) < Real.pi / 2 → Real.tan x.val ≤ 2 ^ 30 →
    Near (Libm.tanf x) (Real.tan x.val) (1 / 2 ^ 22 * Real.tan x.val)

/-- Sensible parameters of a perspective projection: an opening angle between 0 and a straight angle, a positive aspect
ratio, and a near plane in front of the far plane. -/
structure Lens (fovy aspect zNear zFar : F32) : Prop where
  fin : fovy.IsFin = true ∧ aspect.IsFin = true ∧ zNear.IsFin = true ∧ zFar.IsFin = true
  fovy_ge : 1 / 2 ^ 20 ≤ (fovy.val : ℝ)
  fovy_lt : (fovy.val : ℝ) < Real.pi
  tan_le : Real.tan (fovy.val / 2) ≤ 2 ^ 30
  aspect_ge : 1 / 2 ^ 20 ≤ (aspect.val : ℝ)
  aspect_le : (aspect.val : ℝ) ≤ 2 ^ 20
  near_ge : 1 / 2 ^ 30 ≤ (zNear.val : ℝ)
  far_le : (zFar.val : ℝ) ≤ 2 ^ 30
  near_lt_far : zNear.val < zFar.val

/-- A point in front of the camera at distance `d` along the view direction: nothing absurdly large or small. -/
def InFront (p : V3 F32) (d : ℝ) : Prop :=
  (p.x.IsFin = true ∧ p.y.IsFin = true ∧ p.z.IsFin = true) ∧ |(p.x.val : ℝ)| ≤ 2 ^ 40 ∧ |(p.y.val : ℝ)| ≤ 2 ^ 40 ∧
    1 / 2 ^ 30 ≤ d ∧ d ≤ 2 ^ 30

end Zcm
