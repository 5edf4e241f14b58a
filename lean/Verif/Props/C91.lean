import Verif.Lemmas.F32Rotate
import Verif.Props.C88
import Mathlib.Analysis.InnerProductSpace.Basic

/-!
# C91  Matrices of normalised quaternions in IEEE arithmetic

`mat3_cast(q)` and `mat4_cast(q)` in binary32 for a quaternion as `normalize` returns it (norm within `2^-20` of 1).
-/

namespace Zcm

open Quaternion F32

/-- C91: all entries are finite and column `c` is within `2^-17` of the exactly rotated basis vector `c`. -/
theorem C91_mat3 (q : Quat F32) (hq : q.Finite) (hu : |‖exactQ q‖ - 1| ≤ 1 / 2 ^ 20) (c : Fin 3) :
    (∀ r, (entry (Quat.mat3_cast q) c r).IsFin = true) ∧
    ‖exactColumn (Quat.mat3_cast q) c - exactQ q * axisQ c * (exactQ q)⁻¹‖ ≤ 1 / 2 ^ 17 := by
  obtain ⟨h0, h1, h2⟩ := mat3_cast_close q hq hu
  fin_cases c
  · exact h0
  · exact h1
  · exact h2

theorem axis_inner (q : ℍ[ℝ]) (hu : |‖q‖ - 1| ≤ 1 / 2 ^ 20) (c d : Fin 3) :
    inner ℝ (q * axisQ c * q⁻¹) (q * axisQ d * q⁻¹) = if c = d then (1 : ℝ) else 0 := by
  have n0 : 0 < ‖q‖ := by have := (abs_le.1 hu).1; linarith
  have cn : ∀ v : ℍ[ℝ], ‖q * v * q⁻¹‖ = ‖v‖ := by
    intro v
    rw [norm_mul, norm_mul, norm_inv]
    field_simp
  rw [real_inner_eq_norm_add_mul_self_sub_norm_mul_self_sub_norm_mul_self_div_two, ← add_mul, ← mul_add, cn, cn, cn,
    ← sq, ← sq, ← sq, norm_sq_quat, norm_sq_quat, norm_sq_quat, re_add, imI_add, imJ_add, imK_add]
  fin_cases c <;> fin_cases d <;> simp [axisQ] <;> norm_num

theorem almost_inner {a b A B : ℍ[ℝ]} (ha : ‖a - A‖ ≤ 1 / 2 ^ 17) (hb : ‖b - B‖ ≤ 1 / 2 ^ 17) (nA : ‖A‖ = 1)
    (nB : ‖B‖ = 1) : |inner ℝ a b - inner ℝ A B| ≤ 1 / 2 ^ 15 := by
  have e : inner ℝ a b - inner ℝ A B = inner ℝ (a - A) B + (inner ℝ A (b - B) + inner ℝ (a - A) (b - B)) := by
    simp only [inner_sub_left, inner_sub_right]
    ring
  rw [e]
  have h1 := abs_real_inner_le_norm (a - A) B
  have h2 := abs_real_inner_le_norm A (b - B)
  have h3 := abs_real_inner_le_norm (a - A) (b - B)
  have h4 : ‖a - A‖ * ‖b - B‖ ≤ 1 / 2 ^ 17 * (1 / 2 ^ 17) := by gcongr
  rw [nB, mul_one] at h1
  rw [nA, one_mul] at h2
  refine (abs_add_le _ _).trans ?_
  have := abs_add_le (inner ℝ A (b - B)) (inner ℝ (a - A) (b - B))
  norm_num at *
  linarith

/-- C91: the columns are orthonormal: their exact inner products are within `2^-15` of 0 and 1. -/
theorem C91_orthonormal (q : Quat F32) (hq : q.Finite) (hu : |‖exactQ q‖ - 1| ≤ 1 / 2 ^ 20) (c d : Fin 3) :
    |∑ r, ((entry (Quat.mat3_cast q) c r).val : ℝ) * (entry (Quat.mat3_cast q) d r).val -
      (if c = d then 1 else 0)| ≤ 1 / 2 ^ 15 := by
  have n0 : 0 < ‖exactQ q‖ := by have := (abs_le.1 hu).1; linarith
  have an : ∀ c, ‖axisQ c‖ = 1 := by
    intro c
    rw [← sq_eq_sq₀ (norm_nonneg _) (by norm_num), norm_sq_quat]
    fin_cases c <;> simp [axisQ]
  have cn : ∀ c, ‖exactQ q * axisQ c * (exactQ q)⁻¹‖ = 1 := by
    intro c
    rw [norm_mul, norm_mul, norm_inv, an]
    field_simp
  have h := almost_inner (C91_mat3 q hq hu c).2 (C91_mat3 q hq hu d).2 (cn c) (cn d)
  rw [axis_inner _ hu] at h
  rw [Fin.sum_univ_three]
  rw [Quaternion.inner_def, re_mul, re_star, imI_star, imJ_star, imK_star] at h
  simpa [exactColumn] using h

/-- C91: `mat4_cast(q)` has the same upper left block, and the exact last row and column of the identity. -/
theorem C91_mat4 (q : Quat F32) (c r : Fin 4) :
    entry (Quat.mat4_cast q) c r =
      if h : c < 3 ∧ r < 3 then entry (Quat.mat3_cast q) ⟨c, h.1⟩ ⟨r, h.2⟩ else if c = r then lit 1 else lit 0 := by
  fin_cases c <;> fin_cases r <;> rfl

/-- Non-vacuity: 120 degrees about (1, 1, 1). -/
example : third.Finite ∧ |‖exactQ third‖ - 1| ≤ 1 / 2 ^ 20 := by
  obtain ⟨f, n⟩ := third_norm
  exact ⟨f, by rw [n]; norm_num⟩

end Zcm
