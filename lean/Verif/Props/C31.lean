import Verif.Lemmas.Euclid

/-!
# C31: length is the Euclidean norm

Exact arithmetic.  `length(float)` returns its argument unchanged, so it is not a norm there.
-/

namespace Zcm

/-- C31 for `vec2`. -/
theorem C31_vec2 (a b : V2 ℝ) (s : ℝ) :
    V2.length a = ‖eu a‖ ∧ 0 ≤ V2.length a ∧ (V2.length a = 0 ↔ ∀ i, coord a i = 0) ∧
    V2.length (s * a) = |s| * V2.length a ∧ V2.length (a + b) ≤ V2.length a + V2.length b ∧
    V2.length a ^ 2 = V2.dot a a := by
  simp only [V2.length_eq_norm, V2.eu_smul, V2.eu_add, V2.dot_eq_inner]
  exact ⟨trivial, norm_nonneg _, norm_eq_zero.trans V2.eu_eq_zero, by rw [norm_smul, Real.norm_eq_abs],
    norm_add_le _ _, (real_inner_self_eq_norm_sq _).symm⟩

/-- C31 for `vec3`. -/
theorem C31_vec3 (a b : V3 ℝ) (s : ℝ) :
    V3.length a = ‖eu a‖ ∧ 0 ≤ V3.length a ∧ (V3.length a = 0 ↔ ∀ i, coord a i = 0) ∧
    V3.length (s * a) = |s| * V3.length a ∧ V3.length (a + b) ≤ V3.length a + V3.length b ∧
    V3.length a ^ 2 = V3.dot a a := by
  simp only [V3.length_eq_norm, V3.eu_smul, V3.eu_add, V3.dot_eq_inner]
  exact ⟨trivial, norm_nonneg _, norm_eq_zero.trans V3.eu_eq_zero, by rw [norm_smul, Real.norm_eq_abs],
    norm_add_le _ _, (real_inner_self_eq_norm_sq _).symm⟩

/-- C31 for `vec4`. -/
theorem C31_vec4 (a b : V4 ℝ) (s : ℝ) :
    V4.length a = ‖eu a‖ ∧ 0 ≤ V4.length a ∧ (V4.length a = 0 ↔ ∀ i, coord a i = 0) ∧
    V4.length (s * a) = |s| * V4.length a ∧ V4.length (a + b) ≤ V4.length a + V4.length b ∧
    V4.length a ^ 2 = V4.dot a a := by
  simp only [V4.length_eq_norm, V4.eu_smul, V4.eu_add, V4.dot_eq_inner]
  exact ⟨trivial, norm_nonneg _, norm_eq_zero.trans V4.eu_eq_zero, by rw [norm_smul, Real.norm_eq_abs],
    norm_add_le _ _, (real_inner_self_eq_norm_sq _).symm⟩

/-- C31 for `quat`. -/
theorem C31_quat (a b : Quat ℝ) (s : ℝ) :
    Quat.length a = ‖eu a‖ ∧ 0 ≤ Quat.length a ∧ (Quat.length a = 0 ↔ ∀ i, coord a i = 0) ∧
    Quat.length (s * a) = |s| * Quat.length a ∧ Quat.length (a + b) ≤ Quat.length a + Quat.length b ∧
    Quat.length a ^ 2 = Quat.dot a a := by
  simp only [Quat.length_eq_norm, Quat.eu_smul, Quat.eu_add, Quat.dot_eq_inner]
  exact ⟨trivial, norm_nonneg _, norm_eq_zero.trans Quat.eu_eq_zero, by rw [norm_smul, Real.norm_eq_abs],
    norm_add_le _ _, (real_inner_self_eq_norm_sq _).symm⟩

/-- C31 for `float`, the part that holds: correct on non-negative arguments.  Missing: negative
arguments, where it fails (`C31_float_false`). -/
theorem C31_float_partial (x : ℝ) (h : 0 ≤ x) : F.length x = |x| ∧ F.length x ^ 2 = F.dot x x := by
  unfold F.length F.dot
  exact ⟨(abs_of_nonneg h).symm, by ring⟩

/-- C31 fails for `float`: the length of a negative number is negative. -/
theorem C31_float_false : ∃ x : ℝ, F.length x < 0 ∧ F.length x ≠ |x| := by
  refine ⟨-1, ?_⟩
  unfold F.length
  norm_num

/-- Non-vacuity. -/
example : V2.length (⟨3, -4⟩ : V2 ℝ) = 5 := by
  simp only [V2.length, F.sqrt_real]
  rw [show (3:ℝ) * 3 + -4 * -4 = 5 ^ 2 by norm_num, Real.sqrt_sq (by norm_num)]
example : (0:ℝ) ≤ 2 := by norm_num

end Zcm
