import Verif.Lemmas.Euclid
import Mathlib.LinearAlgebra.CrossProduct
import Mathlib.Geometry.Euclidean.Angle.Unoriented.Basic

/-!
# C30: cross product laws

Exact arithmetic.
-/

namespace Zcm

/-- C30: `cross` is Mathlib's cross product on the components. -/
theorem C30_cross_eq (a b : V3 ℝ) : coord (V3.cross a b) = crossProduct (coord a) (coord b) := by
  rw [cross_apply]
  ext i; fin_cases i <;> rfl

/-- C30: orthogonality, antisymmetry, bilinearity, Jacobi, Lagrange, right-hand rule. -/
theorem C30_cross (a b c : V3 ℝ) (s : ℝ) :
    V3.dot (V3.cross a b) a = 0 ∧ V3.dot (V3.cross a b) b = 0 ∧
    V3.cross b a = -V3.cross a b ∧ (∀ i, coord (V3.cross a a) i = 0) ∧
    V3.cross (a + b) c = V3.cross a c + V3.cross b c ∧
    V3.cross c (a + b) = V3.cross c a + V3.cross c b ∧
    V3.cross (s * a) b = s * V3.cross a b ∧ V3.cross a (s * b) = s * V3.cross a b ∧
    (∀ i, coord (V3.cross a (V3.cross b c) + V3.cross b (V3.cross c a) +
      V3.cross c (V3.cross a b)) i = 0) ∧
    V3.length (V3.cross a b) ^ 2 = V3.length a ^ 2 * V3.length b ^ 2 - V3.dot a b ^ 2 ∧
    V3.cross (⟨1, 0, 0⟩ : V3 ℝ) ⟨0, 1, 0⟩ = ⟨0, 0, 1⟩ := by
  refine ⟨?_, ?_, ?_, ?_, ?_, ?_, ?_, ?_, ?_, ?_, ?_⟩
  · simp [V3.dot]; ring
  · simp [V3.dot]; ring
  · ext <;> simp <;> ring
  · intro i; fin_cases i <;> simp <;> ring
  · ext <;> simp <;> ring
  · ext <;> simp <;> ring
  · ext <;> simp <;> ring
  · ext <;> simp <;> ring
  · intro i; fin_cases i <;> simp <;> ring
  · have e : ∀ v : V3 ℝ, V3.length v ^ 2 = V3.dot v v := fun v => by
      rw [V3.dot_eq_inner, V3.length_eq_norm, real_inner_self_eq_norm_sq]
    simp only [e]; simp [V3.dot]; ring
  · ext <;> simp

/-- C30, geometric reading: the length of the cross product is the area of the parallelogram,
`|a| |b| sin(angle)`, where `angle` is Mathlib's angle of Euclidean space. -/
theorem C30_area (a b : V3 ℝ) :
    V3.length (V3.cross a b) =
      Real.sin (InnerProductGeometry.angle (eu a) (eu b)) * (V3.length a * V3.length b) := by
  have h := (C30_cross a b a 0).2.2.2.2.2.2.2.2.2.1
  have hc : 0 ≤ V3.length (V3.cross a b) := Real.sqrt_nonneg _
  rw [V3.length_eq_norm a, V3.length_eq_norm b, InnerProductGeometry.sin_angle_mul_norm_mul_norm,
    ← Real.sqrt_sq hc, h, real_inner_self_eq_norm_sq, real_inner_self_eq_norm_sq, V3.length_eq_norm,
    V3.length_eq_norm, V3.dot_eq_inner, ← sq]

/-- Non-vacuity. -/
example : V3.cross (⟨1, 2, 3⟩ : V3 ℝ) ⟨4, 5, 6⟩ = ⟨-3, 6, -3⟩ := by
  ext <;> simp <;> norm_num

end Zcm
