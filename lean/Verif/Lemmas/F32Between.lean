import Verif.Lemmas.F32Inverse
import Verif.Lemmas.F32LookAt
import Verif.Spec.Between

/-!
# Rounding errors of the rotation between two directions, `quat(u, v)`
-/

set_option exponentiation.threshold 300

namespace Zcm

open Quaternion F32 InnerProductGeometry NormedSpace
open scoped RealInnerProductSpace

/-- square root of a computed number -/
theorem rel_sqrt {x : F32} {r e g : ℝ} (h : Rel x r e) (e0 : 0 ≤ e) (e1 : e ≤ 0.1) (r0 : 1 / 2 ^ 124 ≤ r) (r1 : r ≤ 2 ^ 126)
    (hg : 0.53 * e * (1 + 1 / 2 ^ 24) + 1 / 2 ^ 24 ≤ g) : Rel (F.sqrt x) (Real.sqrt r) g := by
  obtain ⟨f, er⟩ := h
  have rp : 0 < r := lt_of_lt_of_le (by norm_num) r0
  rw [abs_of_pos rp] at er
  obtain ⟨v, hv⟩ : ∃ v : ℝ, v = x.val := ⟨_, rfl⟩
  rw [← hv] at er
  have er' := _root_.abs_le.1 er
  have er1 : e * r ≤ 0.1 * r := by gcongr
  have v0 : 0.9 * r ≤ v := by linarith
  have v1 : v ≤ 1.1 * r := by linarith
  have vp : 0 ≤ v := by linarith
  have c := sqrt_correct f (by have : (0 : ℝ) ≤ x.val := by linarith
                               exact_mod_cast this)
  rw [← hv] at c
  have s0 := Real.sqrt_nonneg v
  have ss : Real.sqrt v ^ 2 = v := Real.sq_sqrt vp
  have t0 : 0 < Real.sqrt r := Real.sqrt_pos.2 rp
  have tt : Real.sqrt r ^ 2 = r := Real.sq_sqrt rp.le
  generalize Real.sqrt v = s at *
  generalize Real.sqrt r = t at *
  have st : 0.9 * t ≤ s := by
    refine le_of_sq_le_sq ?_ s0
    nlinarith
  have ts : s ≤ 1.1 * t := by
    refine le_of_sq_le_sq ?_ (by linarith)
    nlinarith
  have tl : 1 / 2 ^ 62 ≤ t := by
    refine le_of_sq_le_sq ?_ t0.le
    rw [tt]
    refine le_trans (by norm_num) r0
  have tu : t ≤ 2 ^ 63 := by
    refine le_of_sq_le_sq ?_ (by norm_num)
    rw [tt]
    refine r1.trans (by norm_num)
  have k : |s - t| ≤ 0.53 * e * t := by
    have m : (s - t) * (s + t) = v - r := by rw [← ss, ← tt]; ring
    have a : |s - t| * (1.9 * t) ≤ e * r := by
      calc |s - t| * (1.9 * t) ≤ |s - t| * (s + t) := by gcongr; linarith
        _ = |(s - t) * (s + t)| := by rw [abs_mul, abs_of_nonneg (show 0 ≤ s + t by linarith)]
        _ ≤ _ := by rw [m]; exact er
    rw [← tt] at a
    have : |s - t| * 1.9 ≤ e * t := by
      have : (|s - t| * 1.9) * t ≤ (e * t) * t := by linarith
      exact le_of_mul_le_mul_right this t0
    linarith [mul_nonneg e0 t0.le]
  obtain ⟨fr, err⟩ := c.rel (by rw [abs_of_nonneg s0]; linarith) (by rw [abs_of_nonneg s0]; linarith)
  refine ⟨fr, ?_⟩
  rw [abs_of_nonneg s0] at err
  rw [abs_of_pos t0]
  have k' := _root_.abs_le.1 k
  have := abs_sub_le ((F.sqrt x).val : ℝ) s t
  have e2 : |((F.sqrt x).val : ℝ) - s| ≤ (1 + 0.53 * e) * t / 2 ^ 24 := err.trans (by gcongr; linarith)
  have : (0.53 * e * (1 + 1 / 2 ^ 24) + 1 / 2 ^ 24) * t ≤ g * t := by gcongr
  linarith

/-- the computed product of the two lengths -/
theorem norms_near {u v : V3 F32} (hu : Moderate u) (hv : Moderate v) :
    Rel (F.sqrt (V3.dot u u * V3.dot v v)) (‖exactly u‖ * ‖exactly v‖) (5 / 2 ^ 24) := by
  have one : ∀ {w : V3 F32}, Moderate w → Rel (V3.dot w w) (‖exactly w‖ ^ 2) (3.01 / 2 ^ 24) ∧ 1 / 2 ^ 36 ≤ ‖exactly w‖ ^ 2 ∧
      ‖exactly w‖ ^ 2 ≤ 2 ^ 60 := by
    intro w h
    have lo : (1 : ℝ) / 2 ^ 36 ≤ ‖exactly w‖ ^ 2 := by
      calc (1 : ℝ) / 2 ^ 36 = (1 / 2 ^ 18) ^ 2 := by norm_num
        _ ≤ _ := by have := h.ge; gcongr
    have hi : ‖exactly w‖ ^ 2 ≤ 2 ^ 60 := by
      calc ‖exactly w‖ ^ 2 ≤ (2 ^ 30) ^ 2 := by have := h.le; gcongr
        _ = _ := by norm_num
    obtain ⟨f, e⟩ := near_dot h.fin h.fin (by rw [← sq]; exact hi.trans (by norm_num))
    rw [real_inner_self_eq_norm_sq, ← sq] at e
    refine ⟨⟨f, e.trans ?_⟩, lo, hi⟩
    rw [abs_of_nonneg (by positivity)]
    linarith
  obtain ⟨A, a1, a2⟩ := one hu
  obtain ⟨B, b1, b2⟩ := one hv
  have p0 : 0 ≤ ‖exactly u‖ ^ 2 * ‖exactly v‖ ^ 2 := by positivity
  have lo : (1 : ℝ) / 2 ^ 72 ≤ ‖exactly u‖ ^ 2 * ‖exactly v‖ ^ 2 := by
    calc (1 : ℝ) / 2 ^ 72 = 1 / 2 ^ 36 * (1 / 2 ^ 36) := by norm_num
      _ ≤ _ := by gcongr
  have hi : ‖exactly u‖ ^ 2 * ‖exactly v‖ ^ 2 ≤ 2 ^ 120 := by
    calc ‖exactly u‖ ^ 2 * ‖exactly v‖ ^ 2 ≤ 2 ^ 60 * 2 ^ 60 := by gcongr
      _ = _ := by norm_num
  have M := A.mul B (by norm_num) (g := 7.03 / 2 ^ 24) (by norm_num) (by rw [abs_of_nonneg p0]; exact le_trans (by norm_num) lo)
    (by rw [abs_of_nonneg p0]; exact hi.trans (by norm_num))
  have S := rel_sqrt M (g := 5 / 2 ^ 24) (by norm_num) (by norm_num) (le_trans (by norm_num) lo) (hi.trans (by norm_num)) (by norm_num)
  rwa [← mul_pow, Real.sqrt_sq (by positivity)] at S

/-- the computed real part -/
theorem real_near {u v : V3 F32} (hu : Moderate u) (hv : Moderate v) :
    Near (F.sqrt (V3.dot u u * V3.dot v v) + V3.dot u v) (‖exactly u‖ * ‖exactly v‖ + ⟪exactly u, exactly v⟫)
      (10.1 / 2 ^ 24 * (‖exactly u‖ * ‖exactly v‖)) ∧
    NearV (V3.cross u v) (cross3 (exactly u) (exactly v)) (4.01 / 2 ^ 24 * (‖exactly u‖ * ‖exactly v‖)) := by
  have S := norms_near hu hv
  have lo : (1 : ℝ) / 2 ^ 36 ≤ ‖exactly u‖ * ‖exactly v‖ := by
    calc (1 : ℝ) / 2 ^ 36 = 1 / 2 ^ 18 * (1 / 2 ^ 18) := by norm_num
      _ ≤ _ := by have := hu.ge; have := hv.ge; gcongr
  have hi : ‖exactly u‖ * ‖exactly v‖ ≤ 2 ^ 60 := by
    calc ‖exactly u‖ * ‖exactly v‖ ≤ 2 ^ 30 * 2 ^ 30 := by have := hu.le; have := hv.le; gcongr
      _ = _ := by norm_num
  obtain ⟨f, e⟩ := near_dot hu.fin hv.fin (hi.trans (by norm_num))
  have X := near_cross hu.fin hv.fin (hi.trans (by norm_num))
  have i := abs_real_inner_le_norm (exactly u) (exactly v)
  have Se := S.err
  have Sf := S.fin
  generalize ‖exactly u‖ * ‖exactly v‖ = N at *
  rw [abs_of_pos (show 0 < N by linarith)] at Se
  have t : (1 : ℝ) / 2 ^ 147 ≤ 0.001 / 2 ^ 24 * N := by linarith
  obtain ⟨g, a⟩ := add_close Sf f Se (e.trans (show _ ≤ 3.002 / 2 ^ 24 * N by linarith)) (by
    rw [abs_of_pos (show 0 < N by linarith)]; linarith)
  rw [abs_of_pos (show 0 < N by linarith)] at a
  exact ⟨⟨g, a.trans (by linarith)⟩, X.mono (by linarith)⟩

/-- the exact quaternion `1 + a.b + a x b` for unit vectors -/
theorem between_exact {a b : Space} (ha : ‖a‖ = 1) (hb : ‖b‖ = 1) :
    ∃ Y : ℍ[ℝ], Y.re = 1 + ⟪a, b⟫ ∧ Y.imI = cross3 a b 0 ∧ Y.imJ = cross3 a b 1 ∧ Y.imK = cross3 a b 2 ∧
      ‖Y‖ ^ 2 = 2 * (1 + ⟪a, b⟫) ∧ Y * vecQ a = vecQ b * Y := by
  obtain ⟨c0, c1, c2⟩ := cross3_apply a b
  have na : a 0 * a 0 + a 1 * a 1 + a 2 * a 2 = 1 := by rw [← inner_eq_dot, real_inner_self_eq_norm_sq, ha]; norm_num
  have nb : b 0 * b 0 + b 1 * b 1 + b 2 * b 2 = 1 := by rw [← inner_eq_dot, real_inner_self_eq_norm_sq, hb]; norm_num
  have i := inner_eq_dot a b
  obtain ⟨Y, y0, y1, y2, y3⟩ : ∃ Y : ℍ[ℝ], Y.re = 1 + ⟪a, b⟫ ∧ Y.imI = cross3 a b 0 ∧ Y.imJ = cross3 a b 1 ∧ Y.imK = cross3 a b 2 :=
    ⟨⟨1 + ⟪a, b⟫, cross3 a b 0, cross3 a b 1, cross3 a b 2⟩, rfl, rfl, rfl, rfl⟩
  obtain ⟨A, a0, a1, a2, a3, hA⟩ : ∃ A : ℍ[ℝ], A.re = 0 ∧ A.imI = a 0 ∧ A.imJ = a 1 ∧ A.imK = a 2 ∧ A = vecQ a := ⟨vecQ a, rfl, rfl, rfl, rfl, rfl⟩
  obtain ⟨B, b0, b1, b2, b3, hB⟩ : ∃ B : ℍ[ℝ], B.re = 0 ∧ B.imI = b 0 ∧ B.imJ = b 1 ∧ B.imK = b 2 ∧ B = vecQ b := ⟨vecQ b, rfl, rfl, rfl, rfl, rfl⟩
  refine ⟨Y, y0, y1, y2, y3, ?_, ?_⟩
  · rw [norm_sq_quat, y0, y1, y2, y3, c0, c1, c2, i]
    linear_combination (b 0 * b 0 + b 1 * b 1 + b 2 * b 2) * na + nb
  · rw [← hA, ← hB]
    ext
    · rw [re_mul, re_mul, y0, y1, y2, y3, c0, c1, c2, i, a0, a1, a2, a3, b0, b1, b2, b3]; ring
    · rw [imI_mul, imI_mul, y0, y1, y2, y3, c0, c1, c2, i, a0, a1, a2, a3, b0, b1, b2, b3]
      linear_combination b 0 * na - a 0 * nb
    · rw [imJ_mul, imJ_mul, y0, y1, y2, y3, c0, c1, c2, i, a0, a1, a2, a3, b0, b1, b2, b3]
      linear_combination b 1 * na - a 1 * nb
    · rw [imK_mul, imK_mul, y0, y1, y2, y3, c0, c1, c2, i, a0, a1, a2, a3, b0, b1, b2, b3]
      linear_combination b 2 * na - a 2 * nb

/-- facts about the half angle -/
theorem half_facts {u v : V3 F32} (hu : Moderate u) (hv : Moderate v) :
    0 ≤ halfCos u v ∧ halfCos u v ≤ 1 ∧
    2 * halfCos u v ^ 2 = 1 + ⟪(normalize (exactly u) : Space), normalize (exactly v)⟫ ∧
    ⟪exactly u, exactly v⟫ = ‖exactly u‖ * ‖exactly v‖ * ⟪(normalize (exactly u) : Space), normalize (exactly v)⟫ := by
  have u0 : 0 < ‖exactly u‖ := lt_of_lt_of_le (by norm_num) hu.ge
  have v0 : 0 < ‖exactly v‖ := lt_of_lt_of_le (by norm_num) hv.ge
  have e : ⟪exactly u, exactly v⟫ = ‖exactly u‖ * ‖exactly v‖ * ⟪(normalize (exactly u) : Space), normalize (exactly v)⟫ := by
    nth_rw 1 [← NormedSpace.norm_smul_normalize (exactly u), ← NormedSpace.norm_smul_normalize (exactly v)]
    rw [real_inner_smul_left, real_inner_smul_right]; ring
  have a0 := angle_nonneg (exactly u) (exactly v)
  have a1 := angle_le_pi (exactly u) (exactly v)
  refine ⟨Real.cos_nonneg_of_mem_Icc ⟨by linarith [Real.pi_pos], by linarith⟩, Real.cos_le_one _, ?_, e⟩
  unfold halfCos
  rw [Real.cos_sq, mul_div_cancel₀ _ (two_ne_zero' ℝ), cos_angle, e, mul_div_cancel_left₀ _ (by positivity)]
  ring

theorem cross3_normalize (u v : Space) : cross3 u v = (‖u‖ * ‖v‖) • cross3 (normalize u) (normalize v) := by
  obtain ⟨a, ha⟩ : ∃ a, a = normalize u := ⟨_, rfl⟩
  obtain ⟨b, hb⟩ : ∃ b, b = normalize v := ⟨_, rfl⟩
  have eu : u = ‖u‖ • a := by rw [ha, NormedSpace.norm_smul_normalize]
  have ev : v = ‖v‖ • b := by rw [hb, NormedSpace.norm_smul_normalize]
  rw [← ha, ← hb]
  generalize ‖u‖ = s at *
  generalize ‖v‖ = t at *
  subst eu ev
  obtain ⟨c0, c1, c2⟩ := cross3_apply (s • a) (t • b)
  obtain ⟨d0, d1, d2⟩ := cross3_apply a b
  ext i
  fin_cases i
  · change cross3 (s • a) (t • b) 0 = s * t * cross3 a b 0
    rw [c0, d0]; simp only [PiLp.smul_apply, smul_eq_mul]; ring
  · change cross3 (s • a) (t • b) 1 = s * t * cross3 a b 1
    rw [c1, d1]; simp only [PiLp.smul_apply, smul_eq_mul]; ring
  · change cross3 (s • a) (t • b) 2 = s * t * cross3 a b 2
    rw [c2, d2]; simp only [PiLp.smul_apply, smul_eq_mul]; ring

/-- the quaternion before normalising, when the directions are not opposite -/
theorem between_pre {u v : V3 F32} (hu : Moderate u) (hv : Moderate v) {Y : ℍ[ℝ]}
    (y0 : Y.re = 1 + ⟪(normalize (exactly u) : Space), normalize (exactly v)⟫)
    (y1 : Y.imI = cross3 (normalize (exactly u)) (normalize (exactly v)) 0)
    (y2 : Y.imJ = cross3 (normalize (exactly u)) (normalize (exactly v)) 1)
    (y3 : Y.imK = cross3 (normalize (exactly u)) (normalize (exactly v)) 2) (R : F32) (C : V3 F32)
    (hR : R = F.sqrt (V3.dot u u * V3.dot v v) + V3.dot u v) (hC : C = V3.cross u v) :
    (Quat.wxyz R C.x C.y C.z).Finite ∧
    ‖exactQ (Quat.wxyz R C.x C.y C.z) - (‖exactly u‖ * ‖exactly v‖) • Y‖ ≤ 11 / 2 ^ 24 * (‖exactly u‖ * ‖exactly v‖) := by
  obtain ⟨⟨f, e⟩, g, d⟩ := real_near hu hv
  rw [← hR] at f e
  rw [← hC] at g d
  refine ⟨fun i => by fin_cases i; exacts [g 0, g 1, g 2, f], ?_⟩
  rw [cross3_normalize] at d
  rw [(half_facts hu hv).2.2.2] at e
  have N0 : 0 ≤ ‖exactly u‖ * ‖exactly v‖ := by positivity
  generalize ‖exactly u‖ * ‖exactly v‖ = N at *
  have sq : ‖exactQ (Quat.wxyz R C.x C.y C.z) - N • Y‖ ^ 2 =
      (R.val - N * Y.re) ^ 2 + ‖exactly C - N • cross3 (normalize (exactly u)) (normalize (exactly v))‖ ^ 2 := by
    rw [norm_sq_quat, EuclideanSpace.norm_sq_eq, Fin.sum_univ_three]
    simp only [re_sub, imI_sub, imJ_sub, imK_sub, re_smul, imI_smul, imJ_smul, imK_smul, Real.norm_eq_abs, sq_abs, PiLp.sub_apply,
      PiLp.smul_apply, smul_eq_mul]
    rw [y1, y2, y3]
    change ((R.val : ℝ) - _) ^ 2 + ((C.x.val : ℝ) - _) ^ 2 + ((C.y.val : ℝ) - _) ^ 2 + ((C.z.val : ℝ) - _) ^ 2 =
      _ + (((C.x.val : ℝ) - _) ^ 2 + ((C.y.val : ℝ) - _) ^ 2 + ((C.z.val : ℝ) - _) ^ 2)
    ring
  refine le_of_sq_le_sq ?_ (by positivity)
  rw [sq, y0, mul_add, mul_one]
  have e2 := sq_le_sq' (abs_le.1 e).1 (abs_le.1 e).2
  have d2 : ‖exactly C - N • cross3 (normalize (exactly u)) (normalize (exactly v))‖ ^ 2 ≤ (4.01 / 2 ^ 24 * N) ^ 2 := by gcongr
  have : 0 ≤ N ^ 2 := by positivity
  nlinarith

/-- the literal `0.000001` in the test -/
theorem lit_tiny : (lit 0.000001 : F32).IsFin = true ∧ 0.9999999 / 10 ^ 6 ≤ (((lit 0.000001 : F32).val : ℚ) : ℝ) ∧
    (((lit 0.000001 : F32).val : ℚ) : ℝ) ≤ 1.0000001 / 10 ^ 6 := by
  have h : (lit 0.000001 : F32).IsFin = true ∧ 0.9999999 / 10 ^ 6 ≤ (lit 0.000001 : F32).val ∧ (lit 0.000001 : F32).val ≤ 1.0000001 / 10 ^ 6 :=
    ⟨by decide +kernel, by decide +kernel, by decide +kernel⟩
  refine ⟨h.1, ?_, ?_⟩
  · refine le_trans ?_ (show ((0.9999999 / 10 ^ 6 : ℚ) : ℝ) ≤ _ from Rat.cast_le.2 h.2.1)
    norm_num
  · refine (show _ ≤ ((1.0000001 / 10 ^ 6 : ℚ) : ℝ) from Rat.cast_le.2 h.2.2).trans ?_
    norm_num

/-- what the test for opposite directions says about the angle -/
theorem between_test {u v : V3 F32} (hu : Moderate u) (hv : Moderate v) (R S : F32)
    (hS : S = F.sqrt (V3.dot u u * V3.dot v v)) (hR : R = S + V3.dot u v) :
    (R < lit 0.000001 * S → halfCos u v ^ 2 ≤ 8.02 / 10 ^ 7) ∧ (¬ R < lit 0.000001 * S → 1.98 / 10 ^ 7 ≤ halfCos u v ^ 2) := by
  have A := norms_near hu hv
  obtain ⟨⟨f, e⟩, -⟩ := real_near hu hv
  rw [← hS] at A e f
  rw [← hR] at f e
  obtain ⟨-, -, h2, hi⟩ := half_facts hu hv
  rw [hi] at e
  have lo : (1 : ℝ) / 2 ^ 36 ≤ ‖exactly u‖ * ‖exactly v‖ := by
    calc (1 : ℝ) / 2 ^ 36 = 1 / 2 ^ 18 * (1 / 2 ^ 18) := by norm_num
      _ ≤ _ := by have := hu.ge; have := hv.ge; gcongr
  have hiN : ‖exactly u‖ * ‖exactly v‖ ≤ 2 ^ 60 := by
    calc ‖exactly u‖ * ‖exactly v‖ ≤ 2 ^ 30 * 2 ^ 30 := by have := hu.le; have := hv.le; gcongr
      _ = _ := by norm_num
  generalize ‖exactly u‖ * ‖exactly v‖ = N at *
  have N0 : 0 < N := by linarith
  have t := lit_tiny
  have L : Rel (lit 0.000001 : F32) (1 / 10 ^ 6) (2 / 10 ^ 7) := by
    refine ⟨t.1, ?_⟩
    rw [_root_.abs_le, abs_of_pos (by norm_num)]
    constructor <;> linarith [t.2.1, t.2.2]
  have T := L.mul A (by norm_num) (g := 1 / 10 ^ 6) (by norm_num) (by rw [abs_of_pos (by positivity)]; linarith)
    (by rw [abs_of_pos (by positivity)]; linarith)
  obtain ⟨fT, eT⟩ := T
  rw [abs_of_pos (show 0 < 1 / 10 ^ 6 * N by positivity)] at eT
  generalize ⟪(normalize (exactly u) : Space), normalize (exactly v)⟫ = c at *
  have e' := abs_le.1 e
  have eT' := abs_le.1 eT
  have hc : N * halfCos u v ^ 2 * 2 = N + N * c := by linear_combination N * h2
  constructor
  · intro h
    have := lt_val_of_lt h
    have : N * halfCos u v ^ 2 ≤ N * (8.02 / 10 ^ 7) := by linarith
    exact le_of_mul_le_mul_left this N0
  · intro h
    have := le_val_of_not_lt f fT h
    have : N * (1.98 / 10 ^ 7) ≤ N * halfCos u v ^ 2 := by linarith
    exact le_of_mul_le_mul_left this N0

/-- the exact shortest arc, from the quaternion `1 + a.b + a x b` -/
theorem shortest_arc {u v : V3 F32} (hu : Moderate u) (hv : Moderate v) (h0 : 0 < halfCos u v) {Y : ℍ[ℝ]}
    (y0 : Y.re = 1 + ⟪(normalize (exactly u) : Space), normalize (exactly v)⟫)
    (yn : ‖Y‖ ^ 2 = 2 * (1 + ⟪(normalize (exactly u) : Space), normalize (exactly v)⟫))
    (yt : Y * directionQ u = directionQ v * Y) : ‖Y‖ = 2 * halfCos u v ∧ ShortestArc u v (‖Y‖⁻¹ • Y) := by
  obtain ⟨-, -, h2, -⟩ := half_facts hu hv
  rw [← h2] at y0 yn
  have n : ‖Y‖ = 2 * halfCos u v := by
    rw [← sq_eq_sq₀ (norm_nonneg _) (by positivity), yn]; ring
  have Y0 : Y ≠ 0 := by
    rw [← norm_pos_iff, n]; positivity
  have n0 := norm_pos_iff.2 Y0
  refine ⟨n, ⟨?_, ?_, ?_⟩⟩
  · rw [norm_smul, norm_inv, norm_norm, inv_mul_cancel₀ n0.ne']
  · rw [smul_inv₀, inv_inv, smul_mul_assoc, smul_mul_assoc, mul_smul_comm, smul_smul, inv_mul_cancel₀ n0.ne', one_smul, yt, mul_assoc,
      mul_inv_cancel₀ Y0, mul_one]
  · rw [re_smul, y0, n, smul_eq_mul]
    field_simp

theorem between_direct {u v : V3 F32} (hu : Moderate u) (hv : Moderate v) (R S : F32)
    (hS : S = F.sqrt (V3.dot u u * V3.dot v v)) (hR : R = S + V3.dot u v) (ht : ¬ R < lit 0.000001 * S) :
    (Quat.ofUV u v).Finite ∧ |‖exactQ (Quat.ofUV u v)‖ - 1| ≤ 1 / 2 ^ 20 ∧ ∃ Q : ℍ[ℝ], ShortestArc u v Q ∧
      ‖exactQ (Quat.ofUV u v) - Q‖ ≤ 27 / 2 ^ 24 / halfCos u v := by
  obtain ⟨h0, h1, -, -⟩ := half_facts hu hv
  have hl := (between_test hu hv R S hS hR).2 ht
  have hl' : 4.4 / 10 ^ 4 ≤ halfCos u v := by
    refine le_of_sq_le_sq (le_trans ?_ hl) h0
    norm_num
  have u0 : exactly u ≠ 0 := norm_pos_iff.1 (lt_of_lt_of_le (by norm_num) hu.ge)
  have v0 : exactly v ≠ 0 := norm_pos_iff.1 (lt_of_lt_of_le (by norm_num) hv.ge)
  obtain ⟨Y, y0, y1, y2, y3, yn, yt⟩ := between_exact (norm_normalize u0) (norm_normalize v0)
  obtain ⟨nY, arc⟩ := shortest_arc hu hv (by linarith) y0 yn yt
  obtain ⟨f, e⟩ := between_pre hu hv y0 y1 y2 y3 R (V3.cross u v) (by rw [hR, hS]) rfl
  have d : Quat.ofUV u v = Quat.normalize (Quat.wxyz R (V3.cross u v).x (V3.cross u v).y (V3.cross u v).z) := by
    unfold Quat.ofUV
    simp only [← hS, ← hR, if_neg ht]
  rw [d]
  generalize Quat.wxyz R (V3.cross u v).x (V3.cross u v).y (V3.cross u v).z = P at *
  have lo : (1 : ℝ) / 2 ^ 36 ≤ ‖exactly u‖ * ‖exactly v‖ := by
    calc (1 : ℝ) / 2 ^ 36 = 1 / 2 ^ 18 * (1 / 2 ^ 18) := by norm_num
      _ ≤ _ := by have := hu.ge; have := hv.ge; gcongr
  have hi : ‖exactly u‖ * ‖exactly v‖ ≤ 2 ^ 60 := by
    calc ‖exactly u‖ * ‖exactly v‖ ≤ 2 ^ 30 * 2 ^ 30 := by have := hu.le; have := hv.le; gcongr
      _ = _ := by norm_num
  generalize ‖exactly u‖ * ‖exactly v‖ = N at *
  generalize halfCos u v = h at *
  have N0 : 0 < N := by linarith
  have nNY : ‖N • Y‖ = N * (2 * h) := by rw [norm_smul, Real.norm_of_nonneg N0.le, nY]
  have t := abs_le.1 ((abs_norm_sub_norm_le _ _).trans e)
  rw [nNY] at t
  have b1 : N * (4.4 / 10 ^ 4) ≤ N * h := by gcongr
  have b2 : N * h ≤ N * 1 := by gcongr
  obtain ⟨g, n, c⟩ := renorm P f (by linarith) (by linarith)
  refine ⟨g, n, _, arc, ?_⟩
  have Y0 : N • Y ≠ 0 := by
    rw [← norm_pos_iff, nNY]; positivity
  have l := normalize_lipschitz (a := exactQ P) Y0
  have eY : normalize (N • Y) = ‖Y‖⁻¹ • Y := by
    rw [normalize_smul_of_pos N0]; rfl
  rw [eY, nNY] at l
  refine (norm_sub_le_norm_sub_add_norm_sub _ (‖exactQ P‖⁻¹ • exactQ P) _).trans ((add_le_add c l).trans ?_)
  have hp : 0 < h := by linarith
  have k : 2 * ‖exactQ P - N • Y‖ / (N * (2 * h)) ≤ 11 / 2 ^ 24 / h := by
    rw [div_le_div_iff₀ (by positivity) hp]
    calc 2 * ‖exactQ P - N • Y‖ * h ≤ 2 * (11 / 2 ^ 24 * N) * h := by gcongr
      _ = _ := by ring
  have k2 : (1 : ℝ) / 2 ^ 20 ≤ 16 / 2 ^ 24 / h := by
    rw [le_div_iff₀ hp]
    linarith
  refine (add_le_add k2 k).trans (le_of_eq ?_)
  ring

/-- a half turn about a perpendicular axis reverses a vector -/
theorem half_turn {P x : ℍ[ℝ]} (hP : P.re = 0) (hx : x.re = 0) (h0 : P ≠ 0) (h : P.imI * x.imI + P.imJ * x.imJ + P.imK * x.imK = 0) :
    P * x * P⁻¹ = -x := by
  have : P * x = -x * P := by
    ext
    · simp only [re_mul, re_neg, imI_neg, imJ_neg, imK_neg, hP, hx]; linear_combination (-2) * h
    · simp only [imI_mul, re_neg, imI_neg, imJ_neg, imK_neg, hP, hx]; ring
    · simp only [imJ_mul, re_neg, imI_neg, imJ_neg, imK_neg, hP, hx]; ring
    · simp only [imK_mul, re_neg, imI_neg, imJ_neg, imK_neg, hP, hx]; ring
  rw [this, mul_assoc, mul_inv_cancel₀ h0, mul_one]

theorem val_fabs (a : F32) : (((F.abs a).val : ℚ) : ℝ) = |(a.val : ℝ)| := by
  have : (F.abs a).val = |a.val| := by
    cases a with
    | nan => simp [F.abs, FloatOps.fabs, fabs, val, key]
    | inf s => cases s <;> simp [F.abs, FloatOps.fabs, fabs, val, key, abs_div]
    | fin s k h => cases s <;> simp [F.abs, FloatOps.fabs, fabs, val, key, abs_div]
  rw [this]; push_cast; rfl

theorem isFin_fabs {a : F32} (h : a.IsFin = true) : (F.abs a).IsFin = true := by
  cases a with
  | nan => cases h
  | inf s => cases h
  | fin s k h => rfl

/-- the perpendicular vector chosen for opposite directions -/
theorem between_perp {u : V3 F32} (hu : Moderate u) :
    let p : V3 F32 := if F.abs u.x > F.abs u.z then ⟨-u.y, u.x, lit 0⟩ else ⟨lit 0, -u.z, u.y⟩
    (Quat.wxyz (lit 0) p.x p.y p.z).Finite ∧ (exactQ (Quat.wxyz (lit 0) p.x p.y p.z)).re = 0 ∧
    ⟪exactly p, exactly u⟫ = 0 ∧ exactQ (Quat.wxyz (lit 0) p.x p.y p.z) = vecQ (exactly p) ∧
    ‖exactly u‖ ^ 2 / 2 ≤ ‖exactly p‖ ^ 2 ∧ ‖exactly p‖ ≤ ‖exactly u‖ := by
  intro p
  have z : (lit 0 : F32).IsFin = true ∧ (((lit 0 : F32).val : ℚ) : ℝ) = 0 := by
    have h : (lit 0 : F32).IsFin = true ∧ (lit 0 : F32).val = 0 := ⟨by decide +kernel, by decide +kernel⟩
    exact ⟨h.1, by rw [h.2]; norm_num⟩
  have sqn : ∀ w : V3 F32, ‖exactly w‖ ^ 2 = (w.x.val : ℝ) ^ 2 + (w.y.val : ℝ) ^ 2 + (w.z.val : ℝ) ^ 2 := by
    intro w
    rw [EuclideanSpace.norm_sq_eq, Fin.sum_univ_three]
    simp only [Real.norm_eq_abs, sq_abs]
    rfl
  have dt : ∀ w : V3 F32, ⟪exactly w, exactly u⟫ = (w.x.val : ℝ) * u.x.val + (w.y.val : ℝ) * u.y.val + (w.z.val : ℝ) * u.z.val :=
    fun w => inner_eq_dot _ _
  have nv : ∀ a : F32, (((-a).val : ℚ) : ℝ) = -(a.val : ℝ) := fun a => by rw [val_neg]; push_cast; rfl
  have fx := hu.fin 0
  have fy := hu.fin 1
  have fz := hu.fin 2
  change u.x.IsFin = true at fx
  change u.y.IsFin = true at fy
  change u.z.IsFin = true at fz
  have e : exactQ (Quat.wxyz (lit 0) p.x p.y p.z) = vecQ (exactly p) := by
    ext
    · exact z.2
    · rfl
    · rfl
    · rfl
  rw [e]
  by_cases c : F.abs u.x > F.abs u.z
  · have hp : p = ⟨-u.y, u.x, lit 0⟩ := if_pos c
    have k := lt_val_of_lt c
    rw [val_fabs, val_fabs] at k
    have k := sq_lt_sq.2 k
    refine ⟨?_, rfl, ?_, rfl, ?_, ?_⟩
    · rw [hp]
      intro i
      fin_cases i
      exacts [(isFin_neg _).trans fy, fx, z.1, z.1]
    · rw [dt, hp]; simp only [nv, z.2]; ring
    · rw [sqn, sqn, hp]; simp only [nv, z.2]; nlinarith [sq_nonneg (u.y.val : ℝ)]
    · refine le_of_sq_le_sq ?_ (norm_nonneg _)
      rw [sqn, sqn, hp]; simp only [nv, z.2]; nlinarith [sq_nonneg (u.z.val : ℝ)]
  · have hp : p = ⟨lit 0, -u.z, u.y⟩ := if_neg c
    have k := le_val_of_not_lt (isFin_fabs fz) (isFin_fabs fx) c
    rw [val_fabs, val_fabs] at k
    have k := sq_le_sq.2 k
    refine ⟨?_, rfl, ?_, rfl, ?_, ?_⟩
    · rw [hp]
      intro i
      fin_cases i
      exacts [z.1, (isFin_neg _).trans fz, fy, z.1]
    · rw [dt, hp]; simp only [nv, z.2]; ring
    · rw [sqn, sqn, hp]; simp only [nv, z.2]; nlinarith [sq_nonneg (u.y.val : ℝ)]
    · refine le_of_sq_le_sq ?_ (norm_nonneg _)
      rw [sqn, sqn, hp]; simp only [nv, z.2]; nlinarith [sq_nonneg (u.x.val : ℝ)]

theorem between_opposite {u v : V3 F32} (hu : Moderate u) (R S : F32)
    (hS : S = F.sqrt (V3.dot u u * V3.dot v v)) (hR : R = S + V3.dot u v) (ht : R < lit 0.000001 * S) :
    (Quat.ofUV u v).Finite ∧ |‖exactQ (Quat.ofUV u v)‖ - 1| ≤ 1 / 2 ^ 20 ∧ ∃ n : Space, ‖n‖ = 1 ∧ ⟪n, exactly u⟫ = 0 ∧
      ‖exactQ (Quat.ofUV u v) - vecQ n‖ ≤ 1 / 2 ^ 20 := by
  obtain ⟨f, -, o, e, lo, hi⟩ := between_perp hu
  have d : Quat.ofUV u v = Quat.normalize (Quat.wxyz (lit 0)
      (if F.abs u.x > F.abs u.z then (⟨-u.y, u.x, lit 0⟩ : V3 F32) else ⟨lit 0, -u.z, u.y⟩).x
      (if F.abs u.x > F.abs u.z then (⟨-u.y, u.x, lit 0⟩ : V3 F32) else ⟨lit 0, -u.z, u.y⟩).y
      (if F.abs u.x > F.abs u.z then (⟨-u.y, u.x, lit 0⟩ : V3 F32) else ⟨lit 0, -u.z, u.y⟩).z) := by
    unfold Quat.ofUV
    simp only [← hS, ← hR, if_pos ht]
  rw [d]
  generalize (if F.abs u.x > F.abs u.z then (⟨-u.y, u.x, lit 0⟩ : V3 F32) else ⟨lit 0, -u.z, u.y⟩) = p at *
  generalize Quat.wxyz (lit 0) p.x p.y p.z = P at *
  have ul := hu.ge
  have uu := hu.le
  have lo' : (1 : ℝ) / 2 ^ 19 ≤ ‖exactly p‖ := by
    refine le_of_sq_le_sq (le_trans ?_ lo) (norm_nonneg _)
    calc (1 / 2 ^ 19 : ℝ) ^ 2 ≤ (1 / 2 ^ 18) ^ 2 / 2 := by norm_num
      _ ≤ _ := by gcongr
  have nP : ‖exactQ P‖ = ‖exactly p‖ := by
    have := norm_vecQ_sub (exactly p) 0
    rw [sub_zero, show vecQ (0 : Space) = 0 from rfl, sub_zero] at this
    rw [e, this]
  obtain ⟨g, n, c⟩ := renorm P f (by rw [nP]; linarith) (by rw [nP]; linarith)
  have p0 : 0 < ‖exactly p‖ := lt_of_lt_of_le (by norm_num) lo'
  refine ⟨g, n, normalize (exactly p), norm_normalize (norm_pos_iff.1 p0), ?_, ?_⟩
  · unfold NormedSpace.normalize
    rw [real_inner_smul_left, o, mul_zero]
  · rw [nP, e] at c
    have : vecQ (normalize (exactly p) : Space) = ‖exactly p‖⁻¹ • vecQ (exactly p) := by
      ext
      · rw [re_smul]; exact (mul_zero _).symm
      · rfl
      · rfl
      · rfl
    rw [this]
    exact c

end Zcm
