import Verif.Lemmas.Normalize
import Mathlib.Tactic.LinearCombination

/-!
# C36: reflect is the mirror reflection

Exact arithmetic.
-/

namespace Zcm

/-- C36 for `float`. -/
theorem C36_float (I J N s : ℝ) (h : |N| = 1) :
    F.reflect I N = -I ∧ F.reflect (F.reflect I N) N = I ∧
    F.reflect (I + J) N = F.reflect I N + F.reflect J N ∧ F.reflect (s * I) N = s * F.reflect I N := by
  have hN : N * N = 1 := by rw [← abs_mul_abs_self, h, one_mul]
  simp only [F.reflect, F.dot, lit_real]
  push_cast
  refine ⟨?_, ?_, ?_, ?_⟩
  · linear_combination (-2 * I) * hN
  · linear_combination (4 * I * N * N) * hN
  · ring
  · ring

/-- C36 for `vec2`. -/
theorem C36_vec2 (I J N : V2 ℝ) (s : ℝ) (h : V2.length N = 1) :
    V2.dot (V2.reflect I N) N = -V2.dot I N ∧
    V2.reflect I N - V2.dot (V2.reflect I N) N * N = I - V2.dot I N * N ∧
    V2.length (V2.reflect I N) = V2.length I ∧
    V2.reflect (V2.reflect I N) N = I ∧
    V2.reflect (I + J) N = V2.reflect I N + V2.reflect J N ∧
    V2.reflect (s * I) N = s * V2.reflect I N := by
  have hN := V2.dot_self_of_length h
  simp only [V2.dot] at hN
  have h1 : V2.dot (V2.reflect I N) N = -V2.dot I N := by
    simp [V2.reflect, V2.dot]
    linear_combination (-2 * (N.x*I.x+N.y*I.y)) * hN
  refine ⟨h1, ?_, ?_, ?_, ?_, ?_⟩
  · rw [h1]; ext <;> simp [V2.reflect, V2.dot] <;> ring
  · rw [V2.length_eq_sqrt_dot, V2.length_eq_sqrt_dot]
    congr 1
    simp [V2.reflect, V2.dot]
    linear_combination (4 * (N.x*I.x+N.y*I.y) ^ 2) * hN
  · ext <;> simp [V2.reflect, V2.dot]
    · linear_combination (4 * (N.x*I.x+N.y*I.y) * N.x) * hN
    · linear_combination (4 * (N.x*I.x+N.y*I.y) * N.y) * hN
  · ext <;> simp [V2.reflect, V2.dot] <;> ring
  · ext <;> simp [V2.reflect, V2.dot] <;> ring

/-- C36 for `vec3`. -/
theorem C36_vec3 (I J N : V3 ℝ) (s : ℝ) (h : V3.length N = 1) :
    V3.dot (V3.reflect I N) N = -V3.dot I N ∧
    V3.reflect I N - V3.dot (V3.reflect I N) N * N = I - V3.dot I N * N ∧
    V3.length (V3.reflect I N) = V3.length I ∧
    V3.reflect (V3.reflect I N) N = I ∧
    V3.reflect (I + J) N = V3.reflect I N + V3.reflect J N ∧
    V3.reflect (s * I) N = s * V3.reflect I N := by
  have hN := V3.dot_self_of_length h
  simp only [V3.dot] at hN
  have h1 : V3.dot (V3.reflect I N) N = -V3.dot I N := by
    simp [V3.reflect, V3.dot]
    linear_combination (-2 * (N.x*I.x+N.y*I.y+N.z*I.z)) * hN
  refine ⟨h1, ?_, ?_, ?_, ?_, ?_⟩
  · rw [h1]; ext <;> simp [V3.reflect, V3.dot] <;> ring
  · rw [V3.length_eq_sqrt_dot, V3.length_eq_sqrt_dot]
    congr 1
    simp [V3.reflect, V3.dot]
    linear_combination (4 * (N.x*I.x+N.y*I.y+N.z*I.z) ^ 2) * hN
  · ext <;> simp [V3.reflect, V3.dot]
    · linear_combination (4 * (N.x*I.x+N.y*I.y+N.z*I.z) * N.x) * hN
    · linear_combination (4 * (N.x*I.x+N.y*I.y+N.z*I.z) * N.y) * hN
    · linear_combination (4 * (N.x*I.x+N.y*I.y+N.z*I.z) * N.z) * hN
  · ext <;> simp [V3.reflect, V3.dot] <;> ring
  · ext <;> simp [V3.reflect, V3.dot] <;> ring

/-- C36 for `vec4`. -/
theorem C36_vec4 (I J N : V4 ℝ) (s : ℝ) (h : V4.length N = 1) :
    V4.dot (V4.reflect I N) N = -V4.dot I N ∧
    V4.reflect I N - V4.dot (V4.reflect I N) N * N = I - V4.dot I N * N ∧
    V4.length (V4.reflect I N) = V4.length I ∧
    V4.reflect (V4.reflect I N) N = I ∧
    V4.reflect (I + J) N = V4.reflect I N + V4.reflect J N ∧
    V4.reflect (s * I) N = s * V4.reflect I N := by
  have hN := V4.dot_self_of_length h
  simp only [V4.dot] at hN
  have h1 : V4.dot (V4.reflect I N) N = -V4.dot I N := by
    simp [V4.reflect, V4.dot]
    linear_combination (-2 * (N.x*I.x+N.y*I.y+N.z*I.z+N.w*I.w)) * hN
  refine ⟨h1, ?_, ?_, ?_, ?_, ?_⟩
  · rw [h1]; ext <;> simp [V4.reflect, V4.dot] <;> ring
  · rw [V4.length_eq_sqrt_dot, V4.length_eq_sqrt_dot]
    congr 1
    simp [V4.reflect, V4.dot]
    linear_combination (4 * (N.x*I.x+N.y*I.y+N.z*I.z+N.w*I.w) ^ 2) * hN
  · ext <;> simp [V4.reflect, V4.dot]
    · linear_combination (4 * (N.x*I.x+N.y*I.y+N.z*I.z+N.w*I.w) * N.x) * hN
    · linear_combination (4 * (N.x*I.x+N.y*I.y+N.z*I.z+N.w*I.w) * N.y) * hN
    · linear_combination (4 * (N.x*I.x+N.y*I.y+N.z*I.z+N.w*I.w) * N.z) * hN
    · linear_combination (4 * (N.x*I.x+N.y*I.y+N.z*I.z+N.w*I.w) * N.w) * hN
  · ext <;> simp [V4.reflect, V4.dot] <;> ring
  · ext <;> simp [V4.reflect, V4.dot] <;> ring

/-- Non-vacuity: a unit normal that is not an axis. -/
example : V2.length (⟨3/5, 4/5⟩ : V2 ℝ) = 1 :=
  V2.length_of_dot_self (by simp [V2.dot]; norm_num)

end Zcm
