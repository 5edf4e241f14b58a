import Verif.Lemmas.Euclid
import Verif.Lemmas.F32

/-!
# C29: dot is an inner product
-/

namespace Zcm

/-- C29 for `float`. -/
theorem C29_float (a b c s : ℝ) :
    F.dot a b = a * b ∧ F.dot a b = F.dot b a ∧ F.dot (a + b) c = F.dot a c + F.dot b c ∧
    F.dot (s * a) b = s * F.dot a b ∧ 0 ≤ F.dot a a ∧ (F.dot a a = 0 ↔ a = 0) ∧
    F.dot a b ^ 2 ≤ F.dot a a * F.dot b b := by
  unfold F.dot
  exact ⟨rfl, by ring, by ring, by ring, mul_self_nonneg a, mul_self_eq_zero, by nlinarith⟩

/-- C29 for `vec2` (exact arithmetic). -/
theorem C29_vec2 (a b c : V2 ℝ) (s : ℝ) :
    V2.dot a b = ∑ i, coord a i * coord b i ∧
    V2.dot a b = V2.dot b a ∧
    V2.dot (a + b) c = V2.dot a c + V2.dot b c ∧ V2.dot c (a + b) = V2.dot c a + V2.dot c b ∧
    V2.dot (s * a) b = s * V2.dot a b ∧ V2.dot a (s * b) = s * V2.dot a b ∧
    0 ≤ V2.dot a a ∧ (V2.dot a a = 0 ↔ ∀ i, coord a i = 0) ∧
    V2.dot a b ^ 2 ≤ V2.dot a a * V2.dot b b := by
  refine ⟨V2.dot_eq_sum a b, ?_, ?_, ?_, ?_, ?_, ?_, ?_, ?_⟩
  · simp only [V2.dot]; ring
  · simp [V2.dot]; ring
  · simp [V2.dot]; ring
  · simp [V2.dot]; ring
  · simp [V2.dot]; ring
  · rw [V2.dot_eq_inner]; exact real_inner_self_nonneg
  · rw [V2.dot_eq_inner, inner_self_eq_zero, V2.eu_eq_zero]
  · rw [V2.dot_eq_inner, V2.dot_eq_inner, V2.dot_eq_inner, sq]
    exact real_inner_mul_inner_self_le _ _

/-- C29 for `vec2`, IEEE arithmetic: symmetry is bitwise. -/
theorem C29_vec2_ieee (a b : V2 F32) : V2.dot a b = V2.dot b a := by
  simp only [V2.dot, F32.mul_comm']

/-- C29 for `vec3` (exact arithmetic). -/
theorem C29_vec3 (a b c : V3 ℝ) (s : ℝ) :
    V3.dot a b = ∑ i, coord a i * coord b i ∧
    V3.dot a b = V3.dot b a ∧
    V3.dot (a + b) c = V3.dot a c + V3.dot b c ∧ V3.dot c (a + b) = V3.dot c a + V3.dot c b ∧
    V3.dot (s * a) b = s * V3.dot a b ∧ V3.dot a (s * b) = s * V3.dot a b ∧
    0 ≤ V3.dot a a ∧ (V3.dot a a = 0 ↔ ∀ i, coord a i = 0) ∧
    V3.dot a b ^ 2 ≤ V3.dot a a * V3.dot b b := by
  refine ⟨V3.dot_eq_sum a b, ?_, ?_, ?_, ?_, ?_, ?_, ?_, ?_⟩
  · simp only [V3.dot]; ring
  · simp [V3.dot]; ring
  · simp [V3.dot]; ring
  · simp [V3.dot]; ring
  · simp [V3.dot]; ring
  · rw [V3.dot_eq_inner]; exact real_inner_self_nonneg
  · rw [V3.dot_eq_inner, inner_self_eq_zero, V3.eu_eq_zero]
  · rw [V3.dot_eq_inner, V3.dot_eq_inner, V3.dot_eq_inner, sq]
    exact real_inner_mul_inner_self_le _ _

/-- C29 for `vec3`, IEEE arithmetic: symmetry is bitwise. -/
theorem C29_vec3_ieee (a b : V3 F32) : V3.dot a b = V3.dot b a := by
  simp only [V3.dot, F32.mul_comm']

/-- C29 for `vec4` (exact arithmetic). -/
theorem C29_vec4 (a b c : V4 ℝ) (s : ℝ) :
    V4.dot a b = ∑ i, coord a i * coord b i ∧
    V4.dot a b = V4.dot b a ∧
    V4.dot (a + b) c = V4.dot a c + V4.dot b c ∧ V4.dot c (a + b) = V4.dot c a + V4.dot c b ∧
    V4.dot (s * a) b = s * V4.dot a b ∧ V4.dot a (s * b) = s * V4.dot a b ∧
    0 ≤ V4.dot a a ∧ (V4.dot a a = 0 ↔ ∀ i, coord a i = 0) ∧
    V4.dot a b ^ 2 ≤ V4.dot a a * V4.dot b b := by
  refine ⟨V4.dot_eq_sum a b, ?_, ?_, ?_, ?_, ?_, ?_, ?_, ?_⟩
  · simp only [V4.dot]; ring
  · simp [V4.dot]; ring
  · simp [V4.dot]; ring
  · simp [V4.dot]; ring
  · simp [V4.dot]; ring
  · rw [V4.dot_eq_inner]; exact real_inner_self_nonneg
  · rw [V4.dot_eq_inner, inner_self_eq_zero, V4.eu_eq_zero]
  · rw [V4.dot_eq_inner, V4.dot_eq_inner, V4.dot_eq_inner, sq]
    exact real_inner_mul_inner_self_le _ _

/-- C29 for `vec4`, IEEE arithmetic: symmetry is bitwise. -/
theorem C29_vec4_ieee (a b : V4 F32) : V4.dot a b = V4.dot b a := by
  simp only [V4.dot, F32.mul_comm']

/-- C29 for `quat` (exact arithmetic). -/
theorem C29_quat (a b c : Quat ℝ) (s : ℝ) :
    Quat.dot a b = ∑ i, coord a i * coord b i ∧
    Quat.dot a b = Quat.dot b a ∧
    Quat.dot (a + b) c = Quat.dot a c + Quat.dot b c ∧ Quat.dot c (a + b) = Quat.dot c a + Quat.dot c b ∧
    Quat.dot (s * a) b = s * Quat.dot a b ∧ Quat.dot a (s * b) = s * Quat.dot a b ∧
    0 ≤ Quat.dot a a ∧ (Quat.dot a a = 0 ↔ ∀ i, coord a i = 0) ∧
    Quat.dot a b ^ 2 ≤ Quat.dot a a * Quat.dot b b := by
  refine ⟨Quat.dot_eq_sum a b, ?_, ?_, ?_, ?_, ?_, ?_, ?_, ?_⟩
  · simp only [Quat.dot]; ring
  · simp [Quat.dot]; ring
  · simp [Quat.dot]; ring
  · simp [Quat.dot]; ring
  · simp [Quat.dot]; ring
  · rw [Quat.dot_eq_inner]; exact real_inner_self_nonneg
  · rw [Quat.dot_eq_inner, inner_self_eq_zero, Quat.eu_eq_zero]
  · rw [Quat.dot_eq_inner, Quat.dot_eq_inner, Quat.dot_eq_inner, sq]
    exact real_inner_mul_inner_self_le _ _

/-- C29 for `quat`, IEEE arithmetic: symmetry is bitwise. -/
theorem C29_quat_ieee (a b : Quat F32) : Quat.dot a b = Quat.dot b a := by
  simp only [Quat.dot, F32.mul_comm']

/-- Non-vacuity. -/
example : V3.dot (⟨1, 2, 3⟩ : V3 ℝ) ⟨4, -5, 6⟩ = 12 := by simp [V3.dot]; norm_num

end Zcm
