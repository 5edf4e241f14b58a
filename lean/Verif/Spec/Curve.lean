import Verif.Spec.Interp
import Mathlib.Algebra.BigOperators.Group.Finset.Basic
import Mathlib.Data.Nat.Choose.Basic

/-!
# Specification: curves and smoothing by repeated interpolation

The two programs below are what a caller writes with `mix`; the exact curve is given by its explicit formula.
-/

namespace Zcm

/-- de Casteljau's scheme with the control points `p 0, p 1, …`: level `0` are the points themselves, and every further level
combines neighbours of the level before.  `level n 0` is the point of the curve with the control points `p 0, …, p n`. -/
def casteljau {V : Type} (between : V → V → V) (p : ℕ → V) : ℕ → ℕ → V
  | 0, k => p k
  | n + 1, k => between (casteljau between p n k) (casteljau between p n (k + 1))

/-- The exact Bézier curve of degree `n` with control values `p 0, …, p n`, at parameter `t`. -/
noncomputable def bezier (p : ℕ → ℝ) (n : ℕ) (t : ℝ) : ℝ :=
  ∑ k ∈ Finset.range (n + 1), (n.choose k : ℝ) * (t ^ k * (1 - t) ^ (n - k)) * p k

/-- Following a sequence of targets: every step goes part of the way towards the next target. -/
def follow {V : Type} (towards : V → V → V) (x : V) (targets : List V) : V := targets.foldl towards x

end Zcm
