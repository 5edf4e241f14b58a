import Verif.Lemmas.F32Rotate
import Verif.Lemmas.F32Vec3
import Verif.Spec.Rigid

/-!
# Turned vectors in float arithmetic
-/

namespace Zcm

open Quaternion F32 WithLp RealInnerProductSpace

private theorem vecQ_norm (x : Space) : ‖vecQ (ofLp x)‖ = ‖x‖ := by
  rw [← sq_eq_sq₀ (norm_nonneg _) (norm_nonneg _), norm_sq_quat, EuclideanSpace.norm_sq_eq, Fin.sum_univ_three]
  simp [vecQ]

private theorem im_norm_le (h : ℍ[ℝ]) : ‖(toLp 2 ![h.imI, h.imJ, h.imK] : Space)‖ ≤ ‖h‖ := by
  refine (sq_le_sq₀ (norm_nonneg _) (norm_nonneg _)).1 ?_
  rw [norm_sq_quat, EuclideanSpace.norm_sq_eq, Fin.sum_univ_three]
  simp
  nlinarith [sq_nonneg h.re]

private theorem conj_re (q : ℍ[ℝ]) {v : ℍ[ℝ]} (hv : v.re = 0) : (q * v * q⁻¹).re = 0 := by
  have : (q * v * star q).re = 0 := by
    simp only [re_mul, imI_mul, imJ_mul, imK_mul, re_star, imI_star, imJ_star, imK_star, hv]
    ring
  rw [Quaternion.inv_def, mul_smul_comm, Quaternion.re_smul, this, smul_zero]

private theorem vecQ_re (p : Fin 3 → ℝ) : (vecQ p).re = 0 := rfl
private theorem vecQ_imI (p : Fin 3 → ℝ) : (vecQ p).imI = p 0 := rfl
private theorem vecQ_imJ (p : Fin 3 → ℝ) : (vecQ p).imJ = p 1 := rfl
private theorem vecQ_imK (p : Fin 3 → ℝ) : (vecQ p).imK = p 2 := rfl

theorem turned_vecQ (q : ℍ[ℝ]) (x : Space) : vecQ (ofLp (turned q x)) = q * vecQ (ofLp x) * q⁻¹ := by
  have := conj_re q (v := vecQ (ofLp x)) rfl
  ext
  · exact this.symm
  · rfl
  · rfl
  · rfl

theorem turned_norm {q : ℍ[ℝ]} (hq : q ≠ 0) (x : Space) : ‖turned q x‖ = ‖x‖ := by
  rw [← vecQ_norm, turned_vecQ, norm_mul, norm_mul, norm_inv, vecQ_norm]
  have := norm_pos_iff.2 hq
  field_simp

theorem turned_sub (q : ℍ[ℝ]) (x y : Space) : turned q (x - y) = turned q x - turned q y := by
  have : vecQ (ofLp (x - y)) = vecQ (ofLp x) - vecQ (ofLp y) := by
    ext <;> simp [vecQ_re, vecQ_imI, vecQ_imJ, vecQ_imK]
  unfold turned
  rw [this, mul_sub, sub_mul]
  ext i
  fin_cases i <;> rfl

theorem turned_add (q : ℍ[ℝ]) (x y : Space) : turned q (x + y) = turned q x + turned q y := by
  have : vecQ (ofLp (x + y)) = vecQ (ofLp x) + vecQ (ofLp y) := by
    ext <;> simp [vecQ_re, vecQ_imI, vecQ_imJ, vecQ_imK]
  unfold turned
  rw [this, mul_add, add_mul]
  ext i
  fin_cases i <;> rfl

theorem turned_inner {q : ℍ[ℝ]} (hq : q ≠ 0) (x y : Space) : ⟪turned q x, turned q y⟫ = ⟪x, y⟫ := by
  rw [real_inner_eq_norm_add_mul_self_sub_norm_mul_self_sub_norm_mul_self_div_two, ← turned_add, turned_norm hq, turned_norm hq,
    turned_norm hq, ← real_inner_eq_norm_add_mul_self_sub_norm_mul_self_sub_norm_mul_self_div_two]

/-- the vector part of the product of two pure quaternions is the cross product -/
private theorem cross_im (x y : Space) : vecQ (ofLp (cross3 x y)) = vecQ (ofLp x) * vecQ (ofLp y) + ((⟪x, y⟫ : ℝ) : ℍ[ℝ]) := by
  have : ⟪x, y⟫ = x 0 * y 0 + x 1 * y 1 + x 2 * y 2 := by
    rw [PiLp.inner_apply, Fin.sum_univ_three]
    simp
    ring
  rw [this]
  ext <;> simp [vecQ_re, vecQ_imI, vecQ_imJ, vecQ_imK, cross3, crossProduct] <;> ring

theorem turned_cross {q : ℍ[ℝ]} (hq : q ≠ 0) (x y : Space) : cross3 (turned q x) (turned q y) = turned q (cross3 x y) := by
  have e : vecQ (ofLp (cross3 (turned q x) (turned q y))) = vecQ (ofLp (turned q (cross3 x y))) := by
    rw [cross_im, turned_inner hq, turned_vecQ, turned_vecQ, turned_vecQ, cross_im, mul_add, add_mul]
    have c : q * ((⟪x, y⟫ : ℝ) : ℍ[ℝ]) * q⁻¹ = ((⟪x, y⟫ : ℝ) : ℍ[ℝ]) := by
      rw [← Quaternion.coe_commutes, mul_assoc, mul_inv_cancel₀ hq, mul_one]
    rw [c]
    congr 1
    rw [mul_assoc (q * vecQ _), ← mul_assoc q⁻¹, ← mul_assoc q⁻¹, inv_mul_cancel₀ hq, one_mul]
    simp only [mul_assoc]
  ext i
  have h0 := congrArg QuaternionAlgebra.imI e
  have h1 := congrArg QuaternionAlgebra.imJ e
  have h2 := congrArg QuaternionAlgebra.imK e
  fin_cases i
  · exact h0
  · exact h1
  · exact h2

theorem unit_ne_zero {q : ℍ[ℝ]} (hu : |‖q‖ - 1| ≤ 1 / 2 ^ 20) : q ≠ 0 := by
  rintro rfl
  norm_num at hu

/-- the computed rotation of a vector -/
theorem near_turned {q : Quat F32} {v : V3 F32} (hq : q.Finite) (hu : |‖exactQ q‖ - 1| ≤ 1 / 2 ^ 20) (hv : v.Finite)
    (h1 : 1 / 2 ^ 100 ≤ ‖exactly v‖) (h2 : ‖exactly v‖ ≤ 2 ^ 120) :
    NearV (q * v) (turned (exactQ q) (exactly v)) (1 / 2 ^ 16 * ‖exactly v‖) := by
  have n : ‖exactV v‖ = ‖exactly v‖ := vecQ_norm (exactly v)
  obtain ⟨f, e⟩ := rotate_close q v hq hv hu (by rw [n]; exact h1) (by rw [n]; exact h2)
  rw [n] at e
  refine ⟨f, le_trans ?_ e⟩
  refine le_trans (le_of_eq ?_) (im_norm_le _)
  congr 1
  ext i
  fin_cases i <;> rfl

end Zcm
