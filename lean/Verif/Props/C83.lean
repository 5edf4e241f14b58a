import Verif.Spec.Coord
import Verif.Model.Geometric
import Verif.Lemmas.F32Length

/-!
# C83  normalize is accurate in IEEE arithmetic

For a vector of finite components whose exact length is between `2^-50` and `2^63`, every component of `normalize(v)` is
finite and within 6 units of `2^-24` (relative) of the exact quotient (plus half the smallest positive number, for
underflow), and the exact length of the result is within `2^-20` of 1.
-/

namespace Zcm

open F32

/-- C83, `normalize(vec2)`. -/
theorem C83_vec2 (v : V2 F32) (h : Medium (coord v)) :
    (∀ i, (coord (V2.normalize v) i).IsFin = true ∧
      |((coord (V2.normalize v) i).val : ℝ) - (coord v i).val / exactLength (coord v)| ≤
        6 / 2 ^ 24 * (|((coord v i).val : ℝ)| / exactLength (coord v)) + 1 / 2 ^ 150) ∧
    |exactLength (coord (V2.normalize v)) - 1| ≤ 1 / 2 ^ 20 := by
  have a : AlmostUnit (coord v) (coord (V2.normalize v)) :=
    (sqLen2 h).normalize h fun i => by fin_cases i <;> rfl
  exact ⟨a, a.length h (by norm_num)⟩

/-- C83, `normalize(vec3)`. -/
theorem C83_vec3 (v : V3 F32) (h : Medium (coord v)) :
    (∀ i, (coord (V3.normalize v) i).IsFin = true ∧
      |((coord (V3.normalize v) i).val : ℝ) - (coord v i).val / exactLength (coord v)| ≤
        6 / 2 ^ 24 * (|((coord v i).val : ℝ)| / exactLength (coord v)) + 1 / 2 ^ 150) ∧
    |exactLength (coord (V3.normalize v)) - 1| ≤ 1 / 2 ^ 20 := by
  have a : AlmostUnit (coord v) (coord (V3.normalize v)) :=
    (sqLen3 h).normalize h fun i => by fin_cases i <;> rfl
  exact ⟨a, a.length h (by norm_num)⟩

/-- C83, `normalize(vec4)`. -/
theorem C83_vec4 (v : V4 F32) (h : Medium (coord v)) :
    (∀ i, (coord (V4.normalize v) i).IsFin = true ∧
      |((coord (V4.normalize v) i).val : ℝ) - (coord v i).val / exactLength (coord v)| ≤
        6 / 2 ^ 24 * (|((coord v i).val : ℝ)| / exactLength (coord v)) + 1 / 2 ^ 150) ∧
    |exactLength (coord (V4.normalize v)) - 1| ≤ 1 / 2 ^ 20 := by
  have a : AlmostUnit (coord v) (coord (V4.normalize v)) :=
    (sqLen4 h).normalize h fun i => by fin_cases i <;> rfl
  exact ⟨a, a.length h (by norm_num)⟩

/-- C83, `normalize(quat)`. -/
theorem C83_quat (v : Quat F32) (h : Medium (coord v)) :
    (∀ i, (coord (Quat.normalize v) i).IsFin = true ∧
      |((coord (Quat.normalize v) i).val : ℝ) - (coord v i).val / exactLength (coord v)| ≤
        6 / 2 ^ 24 * (|((coord v i).val : ℝ)| / exactLength (coord v)) + 1 / 2 ^ 150) ∧
    |exactLength (coord (Quat.normalize v)) - 1| ≤ 1 / 2 ^ 20 := by
  have a : AlmostUnit (coord v) (coord (Quat.normalize v)) :=
    (sqLen4 h).quotient h fun i => by fin_cases i <;> rfl
  exact ⟨a, a.length h (by norm_num)⟩

/-- Non-vacuity: (3, 4, 12) has length 13. -/
example : Medium (coord (⟨lit 3, lit 4, lit 12⟩ : V3 F32)) := by
  have : exactLength (coord (⟨lit 3, lit 4, lit 12⟩ : V3 F32)) = 13 := by
    unfold exactLength
    simp only [Fin.sum_univ_three, coord_v3_0, coord_v3_1, coord_v3_2]
    rw [show (lit 3 : F32).val = 3 by decide +kernel, show (lit 4 : F32).val = 4 by decide +kernel,
      show (lit 12 : F32).val = 12 by decide +kernel]
    rw [Real.sqrt_eq_iff_mul_self_eq_of_pos (by norm_num)]
    norm_num
  refine ⟨by decide +kernel, ?_, ?_⟩ <;> rw [this] <;> norm_num

end Zcm
