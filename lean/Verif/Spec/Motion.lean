import Verif.Model.F32
import Mathlib.Data.Real.Basic
import Mathlib.Data.List.Basic

/-!
# Specification: motion computed step by step
-/

namespace Zcm

/-- The loop of a simulation, `v += a * dt; p += v * dt` for every step `(a, dt)`, for a type with `+=` and multiplication by a number.
The result is the final position and velocity. -/
def motion {V S : Type} [HMul V S V] (addAssign : V → V → V) (p v : V) (steps : List (V × S)) : V × V :=
  steps.foldl (fun s f => let v := addAssign s.2 (f.1 * f.2); (addAssign s.1 (v * f.2), v)) (p, v)

/-- The same loop in exact arithmetic, for one component, from the exact values of the floats. -/
def exactMotion (p v : F32) (steps : List (F32 × F32)) : ℝ × ℝ :=
  motion (V := ℝ) (S := ℝ) (· + ·) p.val v.val (steps.map fun f => ((f.1.val : ℝ), (f.2.val : ℝ)))

/-- An ordinary motion: finite numbers, up to `2^15` steps, time steps up to `D`, and the exact positions stay within `P` and the exact
velocities within `V` at all times. -/
structure GoodMotion (p v : F32) (steps : List (F32 × F32)) (P V D : ℝ) : Prop where
  fin : p.IsFin = true ∧ v.IsFin = true ∧ ∀ f ∈ steps, f.1.IsFin = true ∧ f.2.IsFin = true
  len : steps.length ≤ 2 ^ 15
  dt_le : ∀ f ∈ steps, |(f.2.val : ℝ)| ≤ D
  within : ∀ l, l <+: steps → |(exactMotion p v l).1| ≤ P ∧ |(exactMotion p v l).2| ≤ V
  P_le : P ≤ 2 ^ 100
  V_le : V ≤ 2 ^ 60
  D_le : D ≤ 2 ^ 20

/-- One component of the accelerations, with the time steps. -/
def stepsOf {V : Type} (c : V → F32) (steps : List (V × F32)) : List (F32 × F32) := steps.map fun f => (c f.1, f.2)

end Zcm
