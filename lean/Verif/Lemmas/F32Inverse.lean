import Verif.Lemmas.F32Rotate
import Verif.Lemmas.F32Slerp
import Verif.Lemmas.F32QuatChain

/-!
# Rounding errors of the inverse of a quaternion
-/

set_option exponentiation.threshold 300

namespace Zcm

open Quaternion F32
open scoped RealInnerProductSpace

theorem conjugate_exact (q : Quat F32) : exactQ (Quat.conjugate q) = star (exactQ q) := by
  ext
  · rw [re_star]; rfl
  · rw [imI_star]; show ((-q.x).val : ℝ) = -(q.x.val : ℝ); rw [val_neg]; push_cast; rfl
  · rw [imJ_star]; show ((-q.y).val : ℝ) = -(q.y.val : ℝ); rw [val_neg]; push_cast; rfl
  · rw [imK_star]; show ((-q.z).val : ℝ) = -(q.z.val : ℝ); rw [val_neg]; push_cast; rfl

theorem conjugate_finite {q : Quat F32} (hq : q.Finite) : (Quat.conjugate q).Finite := by
  intro i
  fin_cases i
  · exact (isFin_neg _).trans (hq 0)
  · exact (isFin_neg _).trans (hq 1)
  · exact (isFin_neg _).trans (hq 2)
  · exact hq 3

theorem inverse_near (q : Quat F32) (hq : q.Finite) (h1 : 1 / 2 ^ 50 ≤ ‖exactQ q‖) (h2 : ‖exactQ q‖ ≤ 2 ^ 50) :
    (Quat.inverse q).Finite ∧ ‖exactQ (Quat.inverse q) - (exactQ q)⁻¹‖ ≤ 5.1 / 2 ^ 24 * ‖(exactQ q)⁻¹‖ := by
  have n0 : 0 < ‖exactQ q‖ := lt_of_lt_of_le (by norm_num) h1
  have sq0 : 0 < ‖exactQ q‖ ^ 2 := by positivity
  have lo : 1 / 2 ^ 100 ≤ ‖exactQ q‖ ^ 2 := by
    calc (1 : ℝ) / 2 ^ 100 = (1 / 2 ^ 50) ^ 2 := by norm_num
      _ ≤ _ := by gcongr
  have d := near_dotQ hq hq (by
    calc ‖exactQ q‖ * ‖exactQ q‖ ≤ 2 ^ 50 * 2 ^ 50 := by gcongr
      _ ≤ _ := by norm_num)
  rw [real_inner_self_eq_norm_sq, ← sq] at d
  have D : Rel (Quat.dot q q) (‖exactQ q‖ ^ 2) (4.01 / 2 ^ 24) := by
    refine ⟨d.1, d.2.trans ?_⟩
    rw [abs_of_pos sq0]
    have : (1 : ℝ) / 2 ^ 147 ≤ 0.009 / 2 ^ 24 * (1 / 2 ^ 100) := by norm_num
    have : 0.009 / 2 ^ 24 * (1 / 2 ^ 100 : ℝ) ≤ 0.009 / 2 ^ 24 * ‖exactQ q‖ ^ 2 := by gcongr
    linarith
  have fc := conjugate_finite hq
  have ec := conjugate_exact q
  have nc : ‖exactQ (Quat.conjugate q)‖ = ‖exactQ q‖ := by rw [ec, norm_star]
  have e : (exactQ q)⁻¹ = (‖exactQ q‖ ^ 2)⁻¹ • exactQ (Quat.conjugate q) := by
    rw [Quaternion.inv_def, normSq_eq_norm_mul_self, sq, ec]
  have ni : ‖(exactQ q)⁻¹‖ = ‖exactQ q‖⁻¹ := norm_inv _
  obtain ⟨l0, l1, l2, l3⟩ := comp_le (exactQ (Quat.conjugate q))
  rw [nc] at l0 l1 l2 l3
  have part : ∀ {x : F32}, x.IsFin = true → |(x.val : ℝ)| ≤ ‖exactQ q‖ →
      (x / Quat.dot q q).IsFin = true ∧ |((x / Quat.dot q q).val : ℝ) - (‖exactQ q‖ ^ 2)⁻¹ * x.val| ≤
        5.03 / 2 ^ 24 * |(‖exactQ q‖ ^ 2)⁻¹ * x.val| + 1 / 2 ^ 150 := by
    intro x fx hx
    have := (Rel.exact fx).div' D le_rfl (by norm_num) (by norm_num) sq0.ne' (d := 4.02 / 2 ^ 24) (by norm_num) (by norm_num)
      (g := 5.03 / 2 ^ 24) (by norm_num) (by
        rw [abs_div, abs_of_pos sq0, div_le_iff₀ sq0]
        calc |(x.val : ℝ)| ≤ ‖exactQ q‖ * 1 := by rw [mul_one]; exact hx
          _ ≤ ‖exactQ q‖ * (2 ^ 126 * ‖exactQ q‖) := by gcongr; linarith
          _ = _ := by ring)
    rwa [div_eq_inv_mul] at this
  obtain ⟨f0, b0⟩ := part (x := q.w) (hq 3) l0
  obtain ⟨f1, b1⟩ := part (x := -q.x) (fc 0) l1
  obtain ⟨f2, b2⟩ := part (x := -q.y) (fc 1) l2
  obtain ⟨f3, b3⟩ := part (x := -q.z) (fc 2) l3
  refine ⟨fun i => by fin_cases i <;> assumption, ?_⟩
  have n := norm_of_comp (a := exactQ (Quat.inverse q) - (exactQ q)⁻¹) (b := (exactQ q)⁻¹) (c := 0) (E := 5.03 / 2 ^ 24) (F := 0)
    (t := 1 / 2 ^ 150) (by norm_num) le_rfl (by norm_num)
    (by rw [zero_mul, add_zero, re_sub, e, re_smul]; exact b0)
    (by rw [zero_mul, add_zero, imI_sub, e, imI_smul]; exact b1)
    (by rw [zero_mul, add_zero, imJ_sub, e, imJ_smul]; exact b2)
    (by rw [zero_mul, add_zero, imK_sub, e, imK_smul]; exact b3)
  refine n.trans ?_
  have : 1 / 2 ^ 50 ≤ ‖(exactQ q)⁻¹‖ := by
    rw [ni, one_div, inv_le_inv₀ (by norm_num) n0]
    exact h2
  rw [zero_mul, add_zero]
  linarith

/-- the norm of the computed inverse of an almost unit quaternion -/
theorem inverse_unit {q : Quat F32} (hq : q.Finite) (hu : |‖exactQ q‖ - 1| ≤ 1 / 2 ^ 20) :
    |‖exactQ (Quat.inverse q)‖ - 1| ≤ 1 / 2 ^ 19 ∧ ‖exactQ (Quat.inverse q) - (exactQ q)⁻¹‖ ≤ 5.2 / 2 ^ 24 := by
  have hu' := abs_le.1 hu
  have n0 : 0 < ‖exactQ q‖ := by linarith
  obtain ⟨-, e⟩ := inverse_near q hq (by linarith) (by linarith)
  have ni : ‖(exactQ q)⁻¹‖ = ‖exactQ q‖⁻¹ := norm_inv _
  have k : ‖exactQ q‖ * ‖exactQ q‖⁻¹ = 1 := mul_inv_cancel₀ n0.ne'
  have i0 : 0 < ‖exactQ q‖⁻¹ := inv_pos.2 n0
  have up : ‖exactQ q‖⁻¹ ≤ 1 + 1.1 / 2 ^ 20 := by
    rw [inv_le_comm₀ n0 (by norm_num)]
    refine le_trans ?_ (show 1 - 1 / 2 ^ 20 ≤ ‖exactQ q‖ by linarith)
    norm_num
  have dn : 1 - 1 / 2 ^ 20 ≤ ‖exactQ q‖⁻¹ := by
    rw [le_inv_comm₀ (by norm_num) n0]
    refine le_trans (show ‖exactQ q‖ ≤ 1 + 1 / 2 ^ 20 by linarith) ?_
    norm_num
  rw [ni] at e
  have e' : ‖exactQ (Quat.inverse q) - (exactQ q)⁻¹‖ ≤ 5.2 / 2 ^ 24 := by
    refine e.trans ?_
    calc 5.1 / 2 ^ 24 * ‖exactQ q‖⁻¹ ≤ 5.1 / 2 ^ 24 * (1 + 1.1 / 2 ^ 20) := by gcongr
      _ ≤ _ := by norm_num
  refine ⟨?_, e'⟩
  have t := abs_le.1 ((abs_norm_sub_norm_le (exactQ (Quat.inverse q)) (exactQ q)⁻¹).trans e')
  rw [ni] at t
  rw [abs_le]
  constructor <;> linarith

end Zcm
