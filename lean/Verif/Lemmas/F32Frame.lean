import Verif.Lemmas.F32Vec3Ops
import Verif.Spec.Frame

/-!
# Tangent frames in float arithmetic
-/

set_option exponentiation.threshold 300

namespace Zcm

open F32 NormedSpace InnerProductGeometry
open scoped RealInnerProductSpace

theorem norm_reject {N t : Space} (hN : ‖N‖ = 1) : ‖t - ⟪N, t⟫ • N‖ = ‖t‖ * Real.sin (angle N t) := by
  have s0 : 0 ≤ ‖t‖ * Real.sin (angle N t) := mul_nonneg (norm_nonneg _) (sin_angle_nonneg _ _)
  rw [← sq_eq_sq₀ (norm_nonneg _) s0, norm_sub_sq_real, norm_smul, hN, mul_one, real_inner_smul_right, real_inner_comm,
    Real.norm_eq_abs, sq_abs, mul_pow, Real.sin_sq]
  have c := cos_angle_mul_norm_mul_norm N t
  rw [hN, one_mul] at c
  rw [real_inner_comm N t, ← c]
  ring

theorem inner_tangentOf {N : Space} (t : Space) (hN : ‖N‖ = 1) : ⟪N, tangentOf N t⟫ = 0 := by
  unfold tangentOf NormedSpace.normalize
  rw [real_inner_smul_right, inner_sub_right, real_inner_smul_right, real_inner_self_eq_norm_sq, hN]
  ring

/-- the exact frame is orthonormal and right-handed -/
theorem frame_exact {N t : Space} (hN : ‖N‖ = 1) (ht : t - ⟪N, t⟫ • N ≠ 0) :
    ‖tangentOf N t‖ = 1 ∧ ‖bitangentOf N t‖ = 1 ∧ ⟪N, tangentOf N t⟫ = 0 ∧ ⟪N, bitangentOf N t⟫ = 0 ∧
    ⟪tangentOf N t, bitangentOf N t⟫ = 0 ∧ ⟪cross3 (tangentOf N t) (bitangentOf N t), N⟫ = 1 ∧ 0 < ⟪tangentOf N t, t⟫ := by
  have hT : ‖tangentOf N t‖ = 1 := norm_normalize ht
  have p := inner_tangentOf t hN
  have hB : ‖bitangentOf N t‖ = 1 := by
    unfold bitangentOf
    rw [norm_cross3, hN, hT, inner_eq_zero_iff_angle_eq_pi_div_two N _ |>.1 p, Real.sin_pi_div_two]
    norm_num
  refine ⟨hT, hB, p, ?_, ?_, ?_, ?_⟩
  · unfold bitangentOf; rw [real_inner_comm]; exact inner_cross3_left _ _
  · unfold bitangentOf; rw [real_inner_comm]; exact inner_cross3_right _ _
  · have e : ⟪cross3 (tangentOf N t) (bitangentOf N t), N⟫ = ‖bitangentOf N t‖ ^ 2 := by
      rw [← real_inner_self_eq_norm_sq]
      unfold bitangentOf
      generalize tangentOf N t = T
      obtain ⟨x0, x1, x2⟩ := cross3_apply N T
      obtain ⟨y0, y1, y2⟩ := cross3_apply T (cross3 N T)
      rw [inner_eq_dot, inner_eq_dot, y0, y1, y2, x0, x1, x2]
      ring
    rw [e, hB]; norm_num
  · have r : ⟪t - ⟪N, t⟫ • N, t⟫ = ‖t - ⟪N, t⟫ • N‖ ^ 2 := by
      rw [← real_inner_self_eq_norm_sq]
      rw [inner_sub_right (t - ⟪N, t⟫ • N), real_inner_smul_right, inner_sub_left (y := ⟪N, t⟫ • N) (z := N), real_inner_smul_left,
        real_inner_self_eq_norm_sq, hN, real_inner_comm N t]
      ring
    unfold tangentOf NormedSpace.normalize
    rw [real_inner_smul_left, r]
    have := norm_pos_iff.2 ht
    have : 0 < ‖t - ⟪N, t⟫ • N‖⁻¹ := by positivity
    positivity

theorem GoodTangent.facts {n t : V3 F32} (h : GoodTangent n t) :
    ‖normalize (exactly n)‖ = 1 ∧ exactly n = ‖exactly n‖ • normalize (exactly n) ∧
    ‖exactly t - ⟪normalize (exactly n), exactly t⟫ • normalize (exactly n)‖ = ‖exactly t‖ * slant (exactly n) (exactly t) := by
  have u := abs_le.1 h.unit
  have n0 : 0 < ‖exactly n‖ := by norm_num at u; linarith [u.1]
  have hN : ‖normalize (exactly n)‖ = 1 := norm_normalize (norm_pos_iff.1 n0)
  have e : ‖exactly n‖ • normalize (exactly n) = exactly n := norm_smul_normalize _
  refine ⟨hN, e.symm, ?_⟩
  rw [norm_reject hN]
  unfold slant
  congr 2
  unfold NormedSpace.normalize
  exact angle_smul_left_of_pos _ _ (by positivity)

/-- the tangent before normalising -/
theorem near_reject {n t : V3 F32} (h : GoodTangent n t) :
    NearV (t - n * V3.dot n t) (exactly t - ⟪normalize (exactly n), exactly t⟫ • normalize (exactly n))
      (38.3 / 2 ^ 24 * ‖exactly t‖) := by
  obtain ⟨hN, e, -⟩ := h.facts
  have u := abs_le.1 h.unit
  have L1 := h.t_ge
  have L2 := h.t_le
  have fn := fun i => (h.fin i).1
  have ft := fun i => (h.fin i).2
  have hn : ‖exactly n‖ ≤ 1.000001 := by norm_num at u ⊢; linarith [u.2]
  have pr : ‖exactly n‖ * ‖exactly t‖ ≤ 1.000001 * ‖exactly t‖ := by gcongr
  obtain ⟨fd, ed⟩ := near_dot fn ft (pr.trans (by norm_num at L2 ⊢; linarith))
  have ed' : |((V3.dot n t).val : ℝ) - ⟪exactly n, exactly t⟫| ≤ 3.0012 / 2 ^ 24 * ‖exactly t‖ :=
    ed.trans (by norm_num at L1 pr ⊢; linarith)
  have q : |⟪exactly n, exactly t⟫| ≤ 1.000001 * ‖exactly t‖ := (abs_real_inner_le_norm _ _).trans pr
  have s := (NearV.exact fn).scale fd ed' (A := 1.000001) (B := 1.000002 * ‖exactly t‖) (by linarith)
    (by norm_num at q ⊢; linarith) (by norm_num at L2 ⊢; linarith)
  have s' := s.mono (f := 4.0014 / 2 ^ 24 * ‖exactly t‖) (by
    have : 3.0012 / 2 ^ 24 * ‖exactly t‖ * ‖exactly n‖ ≤ 3.0012 / 2 ^ 24 * ‖exactly t‖ * 1.000001 := by gcongr
    norm_num at this L1 ⊢
    linarith)
  have sz : ‖exactly t - ⟪exactly n, exactly t⟫ • exactly n‖ ≤ 2.1 * ‖exactly t‖ := by
    refine (norm_sub_le _ _).trans ?_
    rw [norm_smul, Real.norm_eq_abs]
    have : |⟪exactly n, exactly t⟫| * ‖exactly n‖ ≤ 1.000001 * ‖exactly t‖ * 1.000001 := by gcongr
    norm_num at this ⊢
    linarith
  have r := (NearV.exact ft).sub s' (by norm_num at sz L2 ⊢; linarith)
  refine ⟨r.1, ?_⟩
  have k : (exactly t - ⟪exactly n, exactly t⟫ • exactly n) -
      (exactly t - ⟪normalize (exactly n), exactly t⟫ • normalize (exactly n)) =
      ((1 - ‖exactly n‖ ^ 2) * ⟪normalize (exactly n), exactly t⟫) • normalize (exactly n) := by
    have : ⟪exactly n, exactly t⟫ = ‖exactly n‖ * ⟪normalize (exactly n), exactly t⟫ := by
      conv_lhs => rw [e]
      rw [real_inner_smul_left]
    rw [this]
    have e' := e
    generalize normalize (exactly n) = N at *
    generalize ‖exactly n‖ = m at *
    rw [e']
    module
  have kk : ‖(exactly t - ⟪exactly n, exactly t⟫ • exactly n) -
      (exactly t - ⟪normalize (exactly n), exactly t⟫ • normalize (exactly n))‖ ≤ 32.0001 / 2 ^ 24 * ‖exactly t‖ := by
    rw [k, norm_smul, hN, mul_one, Real.norm_eq_abs, abs_mul]
    have a : |1 - ‖exactly n‖ ^ 2| ≤ 32.0001 / 2 ^ 24 := by
      rw [show 1 - ‖exactly n‖ ^ 2 = -((‖exactly n‖ - 1) * (‖exactly n‖ + 1)) by ring, abs_neg, abs_mul,
        abs_of_nonneg (a := ‖exactly n‖ + 1) (by positivity)]
      refine (mul_le_mul h.unit (add_le_add hn le_rfl) (by positivity) (by norm_num)).trans ?_
      norm_num
    have b : |⟪normalize (exactly n), exactly t⟫| ≤ ‖exactly t‖ := by
      have := abs_real_inner_le_norm (normalize (exactly n)) (exactly t)
      rwa [hN, one_mul] at this
    exact mul_le_mul a b (abs_nonneg _) (by norm_num)
  refine (norm_sub_le_norm_sub_add_norm_sub _ (exactly t - ⟪exactly n, exactly t⟫ • exactly n) _).trans ((add_le_add r.2 kk).trans ?_)
  norm_num at sz ⊢
  linarith

end Zcm
