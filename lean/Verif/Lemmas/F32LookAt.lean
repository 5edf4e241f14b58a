import Verif.Lemmas.F32QuatCast
import Verif.Lemmas.F32View
import Verif.Lemmas.RotQuat
import Verif.Spec.Turn

/-!
# quatLookAt in binary32, and the exact rotation it stands for
-/

set_option exponentiation.threshold 300

namespace Zcm

open Quaternion F32 NormedSpace InnerProductGeometry WithLp
open scoped Matrix RealInnerProductSpace

/-- every right-handed orthonormal frame is the image of the axes under a unit quaternion -/
theorem exists_unit_of_frame {a b : Space} (ha : ‖a‖ = 1) (hb : ‖b‖ = 1) (hab : ⟪a, b⟫ = 0) :
    ∃ Q : ℍ[ℝ], ‖Q‖ = 1 ∧ Q * axisQ 0 * Q⁻¹ = vecQ a ∧ Q * axisQ 1 * Q⁻¹ = vecQ b ∧ Q * axisQ 2 * Q⁻¹ = vecQ (cross3 a b) := by
  have a1 : a 0 * a 0 + a 1 * a 1 + a 2 * a 2 = 1 := by rw [← inner_eq_dot, real_inner_self_eq_norm_sq, ha]; norm_num
  have b1 : b 0 * b 0 + b 1 * b 1 + b 2 * b 2 = 1 := by rw [← inner_eq_dot, real_inner_self_eq_norm_sq, hb]; norm_num
  have o : a 0 * b 0 + a 1 * b 1 + a 2 * b 2 = 0 := by rw [← inner_eq_dot, hab]
  obtain ⟨c0, c1, c2⟩ := cross3_apply a b
  obtain ⟨m, hm⟩ : ∃ m : M3 ℝ, m = ⟨⟨a 0, a 1, a 2⟩, ⟨b 0, b 1, b 2⟩, ⟨a 1 * b 2 - a 2 * b 1, a 2 * b 0 - a 0 * b 2, a 0 * b 1 - a 1 * b 0⟩⟩ :=
    ⟨_, rfl⟩
  have L : (a 1 * b 2 - a 2 * b 1) * (a 1 * b 2 - a 2 * b 1) + (a 2 * b 0 - a 0 * b 2) * (a 2 * b 0 - a 0 * b 2) +
      (a 0 * b 1 - a 1 * b 0) * (a 0 * b 1 - a 1 * b 0) = 1 := by
    linear_combination (b 0 * b 0 + b 1 * b 1 + b 2 * b 2) * a1 + b1 - (a 0 * b 0 + a 1 * b 1 + a 2 * b 2) * o
  have R : RotEq m := by
    refine RotEq.of_frame ?_ ?_ ?_ ?_ ?_ ?_ ?_
    · rw [hm]; exact a1
    · rw [hm]; exact b1
    · rw [hm]; exact L
    · rw [hm]; exact o
    · rw [hm]; ring
    · rw [hm]; ring
    · rw [Matrix.det_fin_three, hm]
      simp [toMat, entry, coord, Entries.entry, Coords.coord]
      linear_combination L
  obtain ⟨n, e, -⟩ := R.quat_cast
  generalize M3.quat_cast m = q at n e
  obtain ⟨Q, e0, e1, e2, e3⟩ : ∃ Q : ℍ[ℝ], Q.re = q.w ∧ Q.imI = q.x ∧ Q.imJ = q.y ∧ Q.imK = q.z :=
    ⟨⟨q.w, q.x, q.y, q.z⟩, rfl, rfl, rfl, rfl⟩
  have n' : q.x * q.x + q.y * q.y + q.z * q.z + q.w * q.w = 1 := n
  rw [hm] at e
  have g := fun (f : M3 ℝ → ℝ) => congrArg f e
  have g00 : 1 - 2 * (q.y * q.y + q.z * q.z) = a 0 := by simpa [Quat.mat3_cast] using g (·.c0.x)
  have g01 : 2 * (q.x * q.y + q.w * q.z) = a 1 := by simpa [Quat.mat3_cast] using g (·.c0.y)
  have g02 : 2 * (q.x * q.z - q.w * q.y) = a 2 := by simpa [Quat.mat3_cast] using g (·.c0.z)
  have g10 : 2 * (q.x * q.y - q.w * q.z) = b 0 := by simpa [Quat.mat3_cast] using g (·.c1.x)
  have g11 : 1 - 2 * (q.x * q.x + q.z * q.z) = b 1 := by simpa [Quat.mat3_cast] using g (·.c1.y)
  have g12 : 2 * (q.y * q.z + q.w * q.x) = b 2 := by simpa [Quat.mat3_cast] using g (·.c1.z)
  have g20 : 2 * (q.x * q.z + q.w * q.y) = a 1 * b 2 - a 2 * b 1 := by simpa [Quat.mat3_cast] using g (·.c2.x)
  have g21 : 2 * (q.y * q.z - q.w * q.x) = a 2 * b 0 - a 0 * b 2 := by simpa [Quat.mat3_cast] using g (·.c2.y)
  have g22 : 1 - 2 * (q.x * q.x + q.y * q.y) = a 0 * b 1 - a 1 * b 0 := by simpa [Quat.mat3_cast] using g (·.c2.z)
  rw [← e0, ← e1, ← e2, ← e3] at n'
  rw [← e1, ← e2] at g22
  rw [← e2, ← e3] at g00
  rw [← e1, ← e3] at g11
  rw [← e0, ← e1, ← e2, ← e3] at g01 g02 g10 g12 g20 g21
  have nq : ‖Q‖ = 1 := by
    rw [← sq_eq_sq₀ (norm_nonneg _) (by norm_num), norm_sq_quat]
    linarith
  refine ⟨Q, nq, ?_, ?_, ?_⟩
  · rw [unit_columns nq]
    ext
    · rfl
    · change Q.re ^ 2 + Q.imI ^ 2 - Q.imJ ^ 2 - Q.imK ^ 2 = a 0
      linear_combination n' + g00
    · exact g01
    · exact g02
  · rw [unit_columns nq]
    ext
    · rfl
    · exact g10
    · change Q.re ^ 2 - Q.imI ^ 2 + Q.imJ ^ 2 - Q.imK ^ 2 = b 1
      linear_combination n' + g11
    · exact g12
  · rw [unit_columns nq]
    ext
    · rfl
    · exact g20.trans c0.symm
    · exact g21.trans c1.symm
    · change Q.re ^ 2 - Q.imI ^ 2 - Q.imJ ^ 2 + Q.imK ^ 2 = cross3 a b 2
      rw [c2]
      linear_combination n' + g22

/-- the frame computed from an almost unit direction -/
theorem lookAt_frame {f up : V3 F32} {D : Space} (hD : ‖D‖ = 1) (hf : NearV f D (1 / 2 ^ 20))
    (hu : ∀ i, (coord up i).IsFin = true) (u1 : 1 / 2 ^ 30 ≤ ‖exactly up‖) (u2 : ‖exactly up‖ ≤ 2 ^ 60)
    (s1 : 1 / 2 ^ 11 ≤ Real.sin (angle (exactly up) D)) :
    NearV (V3.normalize (V3.cross up f)) (normalize (cross3 (exactly up) D)) (47 / 2 ^ 24 / Real.sin (angle (exactly up) D)) ∧
    NearV (V3.cross f (V3.normalize (V3.cross up f))) (cross3 D (normalize (cross3 (exactly up) D)))
      (68 / 2 ^ 24 / Real.sin (angle (exactly up) D)) := by
  have s2 : Real.sin (angle (exactly up) D) ≤ 1 := Real.sin_le_one _
  have nc : ‖cross3 (exactly up) D‖ = ‖exactly up‖ * Real.sin (angle (exactly up) D) := by
    rw [norm_cross3, hD, mul_one]
  generalize Real.sin (angle (exactly up) D) = σ at *
  have σ0 : 0 < σ := lt_of_lt_of_le (by norm_num) s1
  have U := NearV.exact hu
  have up0 : 0 < ‖exactly up‖ := lt_of_lt_of_le (by norm_num) u1
  have C : NearV (V3.cross up f) (cross3 (exactly up) D) (20.2 / 2 ^ 24 * ‖exactly up‖) := by
    refine (U.cross hf (A := ‖exactly up‖) (B := 1 + 1 / 2 ^ 20) (by rw [add_zero]) (by rw [hD]) (by linarith)).mono ?_
    have : (1 : ℝ) / 2 ^ 147 ≤ 0.01 / 2 ^ 24 * (1 / 2 ^ 30) := by norm_num
    have : 0.01 / 2 ^ 24 * (1 / 2 ^ 30 : ℝ) ≤ 0.01 / 2 ^ 24 * ‖exactly up‖ := by gcongr
    rw [zero_mul, add_zero]
    linarith
  have lo : 1 / 2 ^ 49 ≤ ‖exactly up‖ * σ := by
    calc (1 : ℝ) / 2 ^ 49 ≤ 1 / 2 ^ 30 * (1 / 2 ^ 11) := by norm_num
      _ ≤ _ := by gcongr
  have hi : ‖exactly up‖ * σ ≤ 2 ^ 62 := by
    calc ‖exactly up‖ * σ ≤ 2 ^ 60 * 1 := by gcongr
      _ ≤ _ := by norm_num
  have ratio : 20.2 / 2 ^ 24 * ‖exactly up‖ ≤ ‖exactly up‖ * σ / 4 := by
    have : ‖exactly up‖ * (20.2 / 2 ^ 24) ≤ ‖exactly up‖ * (σ / 4) :=
      mul_le_mul_of_nonneg_left (by linarith) up0.le
    linarith
  have err : 6.001 / 2 ^ 24 + 2 * (20.2 / 2 ^ 24 * ‖exactly up‖) / (‖exactly up‖ * σ) ≤ 47 / 2 ^ 24 / σ := by
    have e : 2 * (20.2 / 2 ^ 24 * ‖exactly up‖) / (‖exactly up‖ * σ) = 40.4 / 2 ^ 24 / σ := by field_simp; norm_num
    rw [e, le_div_iff₀ σ0, add_mul, div_mul_cancel₀ _ σ0.ne']
    have : 6.001 / 2 ^ 24 * σ ≤ 6.001 / 2 ^ 24 * 1 := by gcongr
    linarith
  have S : NearV (V3.normalize (V3.cross up f)) (normalize (cross3 (exactly up) D)) (47 / 2 ^ 24 / σ) := by
    refine (C.normalize (by rw [nc]; exact lo) (by rw [nc]; exact hi) (by rw [nc]; exact ratio)).mono ?_
    rw [nc]; exact err
  have ns : ‖normalize (cross3 (exactly up) D)‖ = 1 := by
    refine norm_normalize (norm_pos_iff.1 ?_)
    rw [nc]; positivity
  have eσ : 47 / 2 ^ 24 / σ ≤ 0.01 := by
    rw [div_le_iff₀ σ0]
    calc (47 : ℝ) / 2 ^ 24 ≤ 0.01 * (1 / 2 ^ 11) := by norm_num
      _ ≤ _ := by gcongr
  refine ⟨S, (hf.cross S (A := 1 + 1 / 2 ^ 20) (B := 1.01) (by rw [hD]) (by rw [ns]; linarith) (by norm_num)).mono ?_⟩
  rw [ns]
  have : 20.99 / 2 ^ 24 ≤ 20.99 / 2 ^ 24 / σ := by
    rw [le_div_iff₀ σ0]
    calc (20.99 : ℝ) / 2 ^ 24 * σ ≤ 20.99 / 2 ^ 24 * 1 := by gcongr
      _ = _ := mul_one _
  have e : (68 : ℝ) / 2 ^ 24 / σ = 47 / 2 ^ 24 / σ + 20.99 / 2 ^ 24 / σ + 0.01 / 2 ^ 24 / σ := by ring
  have p : 0 ≤ 0.01 / 2 ^ 24 / σ := by positivity
  have p1 : 1 / 2 ^ 20 * (47 / 2 ^ 24 / σ) ≤ 1 / 2 ^ 20 * 0.01 := by gcongr
  rw [e]
  linarith

theorem norm_vecQ_sub (a b : Space) : ‖vecQ a - vecQ b‖ = ‖a - b‖ := by
  rw [← sq_eq_sq₀ (norm_nonneg _) (norm_nonneg _), norm_sq_quat, EuclideanSpace.norm_sq_eq, Fin.sum_univ_three]
  simp only [re_sub, imI_sub, imJ_sub, imK_sub, Real.norm_eq_abs, sq_abs, PiLp.sub_apply]
  change (0 - 0 : ℝ) ^ 2 + _ + _ + _ = _
  rw [sub_self]
  change 0 ^ 2 + (a 0 - b 0) ^ 2 + (a 1 - b 1) ^ 2 + (a 2 - b 2) ^ 2 = _
  ring

/-- the double cross product of a unit vector with one perpendicular to it -/
theorem cross3_cross3 {D s : Space} (hs : ‖s‖ = 1) (ho : ⟪s, D⟫ = 0) : cross3 s (cross3 D s) = D := by
  have s1 : s 0 * s 0 + s 1 * s 1 + s 2 * s 2 = 1 := by rw [← inner_eq_dot, real_inner_self_eq_norm_sq, hs]; norm_num
  rw [inner_eq_dot] at ho
  obtain ⟨a, b, c⟩ := cross3_apply s (cross3 D s)
  obtain ⟨d, e, f⟩ := cross3_apply D s
  ext i
  fin_cases i
  · refine a.trans ?_
    rw [e, f]
    change _ = D 0
    linear_combination D 0 * s1 - s 0 * ho
  · refine b.trans ?_
    rw [d, f]
    change _ = D 1
    linear_combination D 1 * s1 - s 1 * ho
  · refine c.trans ?_
    rw [d, e]
    change _ = D 2
    linear_combination D 2 * s1 - s 2 * ho

theorem lookAt_core {f up : V3 F32} {D : Space} (hD : ‖D‖ = 1) (hf : NearV f D (1 / 2 ^ 20))
    (hu : ∀ i, (coord up i).IsFin = true) (u1 : 1 / 2 ^ 30 ≤ ‖exactly up‖) (u2 : ‖exactly up‖ ≤ 2 ^ 60)
    (s1 : 1 / 2 ^ 11 ≤ Real.sin (angle (exactly up) D)) :
    let q := M3.quat_cast ⟨V3.normalize (V3.cross up f), V3.cross f (V3.normalize (V3.cross up f)), f⟩
    q.Finite ∧ ∃ Q : ℍ[ℝ], ‖Q‖ = 1 ∧ Q * axisQ 0 * Q⁻¹ = vecQ (normalize (cross3 (exactly up) D) : Space) ∧
      Q * axisQ 1 * Q⁻¹ = vecQ (cross3 D (normalize (cross3 (exactly up) D))) ∧ Q * axisQ 2 * Q⁻¹ = vecQ D ∧
      (‖exactQ q - Q‖ ≤ 440 / 2 ^ 24 / Real.sin (angle (exactly up) D) ∨
        ‖exactQ q + Q‖ ≤ 440 / 2 ^ 24 / Real.sin (angle (exactly up) D)) := by
  intro q
  obtain ⟨S, U⟩ := lookAt_frame hD hf hu u1 u2 s1
  have s2 : Real.sin (angle (exactly up) D) ≤ 1 := Real.sin_le_one _
  have nc : ‖cross3 (exactly up) D‖ = ‖exactly up‖ * Real.sin (angle (exactly up) D) := by
    rw [norm_cross3, hD, mul_one]
  generalize Real.sin (angle (exactly up) D) = σ at *
  have σ0 : 0 < σ := lt_of_lt_of_le (by norm_num) s1
  have up0 : 0 < ‖exactly up‖ := lt_of_lt_of_le (by norm_num) u1
  have ns : ‖normalize (cross3 (exactly up) D)‖ = 1 := by
    refine norm_normalize (norm_pos_iff.1 ?_)
    rw [nc]; positivity
  have so : ⟪normalize (cross3 (exactly up) D), D⟫ = 0 := by
    unfold NormedSpace.normalize
    rw [real_inner_smul_left, inner_cross3_right, mul_zero]
  generalize normalize (cross3 (exactly up) D) = s at *
  have nu : ‖cross3 D s‖ = 1 := by
    rw [norm_cross3, hD, ns, angle_comm, inner_eq_zero_iff_angle_eq_pi_div_two s D |>.1 so, Real.sin_pi_div_two]
    norm_num
  have o : ⟪s, cross3 D s⟫ = 0 := by rw [real_inner_comm]; exact inner_cross3_right D s
  obtain ⟨Q, nQ, q0, q1, q2⟩ := exists_unit_of_frame ns nu o
  rw [cross3_cross3 ns so] at q2
  have big : 68 / 2 ^ 24 ≤ 68 / 2 ^ 24 / σ := by
    rw [le_div_iff₀ σ0]
    exact mul_le_of_le_one_right (by norm_num) s2
  have d1 : 68 / 2 ^ 24 / σ ≤ 1 / 64 := by
    rw [div_le_iff₀ σ0]
    linarith
  have r := quat_cast_near (m := ⟨V3.normalize (V3.cross up f), V3.cross f (V3.normalize (V3.cross up f)), f⟩) nQ
    (δ := 68 / 2 ^ 24 / σ) (fun c r => by
      have a := S.1 r; have b := U.1 r; have d := hf.1 r
      fin_cases c <;> fin_cases r <;> assumption)
    (fun c => by
      fin_cases c
      · change ‖vecQ (exactly _) - _ * axisQ 0 * _‖ ≤ _
        rw [q0, norm_vecQ_sub]
        refine S.2.trans ?_
        gcongr
        norm_num
      · change ‖vecQ (exactly _) - _ * axisQ 1 * _‖ ≤ _
        rw [q1, norm_vecQ_sub]
        exact U.2
      · change ‖vecQ (exactly _) - _ * axisQ 2 * _‖ ≤ _
        rw [q2, norm_vecQ_sub]
        refine hf.2.trans ?_
        linarith) d1
  have fin : 2 * (3 * (68 / 2 ^ 24 / σ) + 15 / 2 ^ 24) ≤ 440 / 2 ^ 24 / σ := by
    have e : (440 : ℝ) / 2 ^ 24 / σ = 408 / 2 ^ 24 / σ + 32 / 2 ^ 24 / σ := by ring
    have e' : (408 : ℝ) / 2 ^ 24 / σ = 6 * (68 / 2 ^ 24 / σ) := by ring
    have e'' : (32 : ℝ) / 2 ^ 24 / σ = 32 / 68 * (68 / 2 ^ 24 / σ) := by ring
    linarith
  exact ⟨r.1, Q, nQ, q0, q1, q2, r.2.imp (fun h => h.trans fin) (fun h => h.trans fin)⟩

/-! ### Back to a matrix -/

theorem cast_prod {a b : F32} (fa : a.IsFin = true) (fb : b.IsFin = true) (ha : |(a.val : ℝ)| ≤ 1.1) (hb : |(b.val : ℝ)| ≤ 1.1) :
    Close (a * b) (a.val * b.val) 1 1.21 (1.22 / 2 ^ 24) := by
  have A : Close a a.val 1 1.1 0 := ⟨fa, by rwa [mul_one], by simp⟩
  have B : Close b b.val 1 1.1 0 := ⟨fb, by rwa [mul_one], by simp⟩
  have m := A.mul B zero_le_one zero_le_one le_rfl (by norm_num) (by norm_num) le_rfl (by norm_num) (by norm_num) (by norm_num)
  rw [one_mul] at m
  exact m.weaken zero_le_one (by norm_num) (by norm_num)

theorem cast_off {x y : F32} {r s : ℝ} (hx : Close x r 1 1.21 (1.22 / 2 ^ 24)) (hy : Close y s 1 1.21 (1.22 / 2 ^ 24)) :
    Close ((lit 2 : F32) * (x + y)) (2 * (r + s)) 1 4.84 (15 / 2 ^ 24) ∧
    Close ((lit 2 : F32) * (x - y)) (2 * (r - s)) 1 4.84 (15 / 2 ^ 24) :=
  ⟨(Close.lit_mul lit_two.1 lit_two.2 (by norm_num) (hx.add hy zero_le_one (by norm_num) (by norm_num)) zero_le_one
    (by norm_num) (by norm_num) (by norm_num) (by norm_num) (by norm_num)).weaken zero_le_one (by norm_num) (by norm_num),
   (Close.lit_mul lit_two.1 lit_two.2 (by norm_num) (hx.sub hy zero_le_one (by norm_num) (by norm_num)) zero_le_one
    (by norm_num) (by norm_num) (by norm_num) (by norm_num) (by norm_num)).weaken zero_le_one (by norm_num) (by norm_num)⟩

theorem cast_diag {x : F32} {r : ℝ} (hx : Close x r 1 4.84 (15 / 2 ^ 24)) : Near (lit 1 - x) (1 - r) (21 / 2 ^ 24) := by
  have one : Close (lit 1 : F32) 1 1 1 0 := ⟨lit_one_real.1, by norm_num, by rw [lit_one_real.2]; norm_num⟩
  exact (close_near (one.sub hx zero_le_one (by norm_num) (by norm_num))).mono (by norm_num)

/-- Cauchy and Schwarz for two terms -/
theorem cauchy_two {a b c d A B : ℝ} (h1 : a ^ 2 + b ^ 2 ≤ A ^ 2) (h2 : c ^ 2 + d ^ 2 ≤ B ^ 2) (hA : 0 ≤ A) (hB : 0 ≤ B) :
    |a * c + b * d| ≤ A * B := by
  refine abs_le_of_sq_le_sq ?_ (by positivity)
  calc (a * c + b * d) ^ 2 ≤ (a ^ 2 + b ^ 2) * (c ^ 2 + d ^ 2) := by nlinarith [sq_nonneg (a * d - b * c)]
    _ ≤ A ^ 2 * B ^ 2 := by gcongr
    _ = (A * B) ^ 2 := by ring

theorem cast_off_real {ε a b c d A B C D : ℝ} (e0 : 0 ≤ ε) (hε : ε ≤ 0.1)
    (h1 : (a - A) ^ 2 + (b - B) ^ 2 + (c - C) ^ 2 + (d - D) ^ 2 ≤ ε ^ 2)
    (h2 : a ^ 2 + b ^ 2 + c ^ 2 + d ^ 2 ≤ (1 + ε) ^ 2) (h3 : A ^ 2 + B ^ 2 + C ^ 2 + D ^ 2 = 1) :
    |2 * (a * b + c * d) - 2 * (A * B + C * D)| ≤ 4.2 * ε := by
  have t1 : |(a - A) * b + (c - C) * d| ≤ ε * (1 + ε) :=
    cauchy_two (by nlinarith [sq_nonneg (b - B), sq_nonneg (d - D)]) (by nlinarith [sq_nonneg a, sq_nonneg c]) e0 (by linarith)
  have t2 : |(b - B) * A + (d - D) * C| ≤ ε * 1 :=
    cauchy_two (by nlinarith [sq_nonneg (a - A), sq_nonneg (c - C)]) (by nlinarith [sq_nonneg B, sq_nonneg D]) e0 zero_le_one
  rw [abs_le] at t1 t2 ⊢
  have : ε * (1 + ε) ≤ ε * 1.1 := by gcongr; linarith
  constructor <;> nlinarith

theorem cast_off_real' {ε a b c d A B C D : ℝ} (e0 : 0 ≤ ε) (hε : ε ≤ 0.1)
    (h1 : (a - A) ^ 2 + (b - B) ^ 2 + (c - C) ^ 2 + (d - D) ^ 2 ≤ ε ^ 2)
    (h2 : a ^ 2 + b ^ 2 + c ^ 2 + d ^ 2 ≤ (1 + ε) ^ 2) (h3 : A ^ 2 + B ^ 2 + C ^ 2 + D ^ 2 = 1) :
    |2 * (a * b - c * d) - 2 * (A * B - C * D)| ≤ 4.2 * ε := by
  have := cast_off_real (a := a) (b := b) (c := c) (d := -d) (A := A) (B := B) (C := C) (D := -D) e0 hε (by rw [show (-d - -D) ^ 2 = (d - D) ^ 2 by ring]; exact h1)
    (by rw [neg_sq]; exact h2) (by rw [neg_sq]; exact h3)
  rw [show 2 * (a * b - c * d) - 2 * (A * B - C * D) = 2 * (a * b + c * -d) - 2 * (A * B + C * -D) by ring]
  exact this

theorem cast_diag_real {ε a b c d A B C D : ℝ} (e0 : 0 ≤ ε) (hε : ε ≤ 0.1)
    (h1 : (a - A) ^ 2 + (b - B) ^ 2 + (c - C) ^ 2 + (d - D) ^ 2 ≤ ε ^ 2)
    (h2 : a ^ 2 + b ^ 2 + c ^ 2 + d ^ 2 ≤ (1 + ε) ^ 2) (h3 : A ^ 2 + B ^ 2 + C ^ 2 + D ^ 2 = 1) :
    |1 - 2 * (a * a + b * b) - (D ^ 2 + C ^ 2 - A ^ 2 - B ^ 2)| ≤ 4.2 * ε := by
  have t1 : |(a - A) * a + (b - B) * b| ≤ ε * (1 + ε) :=
    cauchy_two (by nlinarith [sq_nonneg (c - C), sq_nonneg (d - D)]) (by nlinarith [sq_nonneg c, sq_nonneg d]) e0 (by linarith)
  have t2 : |(a - A) * A + (b - B) * B| ≤ ε * 1 :=
    cauchy_two (by nlinarith [sq_nonneg (c - C), sq_nonneg (d - D)]) (by nlinarith [sq_nonneg C, sq_nonneg D]) e0 zero_le_one
  rw [abs_le] at t1 t2 ⊢
  have : ε * (1 + ε) ≤ ε * 1.1 := by gcongr; linarith
  constructor <;> nlinarith

theorem cast_shift {ε : ℝ} {f : F32} {r s : ℝ} (h1 : Close f r 1 4.84 (15 / 2 ^ 24)) (h2 : |r - s| ≤ 4.2 * ε) :
    Near f s (4.2 * ε + 21 / 2 ^ 24) := by
  refine ⟨h1.fin, ?_⟩
  have := (close_near h1).2
  have := abs_sub_le (f.val : ℝ) r s
  linarith

theorem cast_shift' {ε : ℝ} {f : F32} {r s : ℝ} (h1 : Near f r (21 / 2 ^ 24)) (h2 : |r - s| ≤ 4.2 * ε) :
    Near f s (4.2 * ε + 21 / 2 ^ 24) := by
  refine ⟨h1.1, ?_⟩
  have := h1.2
  have := abs_sub_le (f.val : ℝ) r s
  linarith

theorem mat3_cast_near0 {q : Quat F32} {Q : ℍ[ℝ]} {ε : ℝ} (hq : q.Finite) (hQ : ‖Q‖ = 1) (h : ‖exactQ q - Q‖ ≤ ε) (hε : ε ≤ 0.1) :
    Near (entry (Quat.mat3_cast q) 0 0) (Q * axisQ 0 * Q⁻¹).imI (4.2 * ε + 21 / 2 ^ 24) ∧
    Near (entry (Quat.mat3_cast q) 0 1) (Q * axisQ 0 * Q⁻¹).imJ (4.2 * ε + 21 / 2 ^ 24) ∧
    Near (entry (Quat.mat3_cast q) 0 2) (Q * axisQ 0 * Q⁻¹).imK (4.2 * ε + 21 / 2 ^ 24) := by
  have e0 : 0 ≤ ε := (norm_nonneg _).trans h
  have nq : ‖exactQ q‖ ≤ 1 + ε := by
    have := norm_sub_norm_le (exactQ q) Q
    rw [hQ] at this
    linarith
  obtain ⟨lw, lx, ly, lz⟩ := abs_part_le (exactQ q)
  have sQ : Q.re ^ 2 + Q.imI ^ 2 + Q.imJ ^ 2 + Q.imK ^ 2 = 1 := by rw [← norm_sq_quat, hQ]; norm_num
  have sD := norm_sq_quat (exactQ q - Q)
  have sq := norm_sq_quat (exactQ q)
  have bD : ‖exactQ q - Q‖ ^ 2 ≤ ε ^ 2 := by gcongr
  have bq : ‖exactQ q‖ ^ 2 ≤ (1 + ε) ^ 2 := by gcongr
  simp only [re_sub, imI_sub, imJ_sub, imK_sub] at sD
  obtain ⟨w, hw⟩ : ∃ w : ℝ, w = q.w.val := ⟨_, rfl⟩
  obtain ⟨x, hx⟩ : ∃ x : ℝ, x = q.x.val := ⟨_, rfl⟩
  obtain ⟨y, hy⟩ : ∃ y : ℝ, y = q.y.val := ⟨_, rfl⟩
  obtain ⟨z, hz⟩ : ∃ z : ℝ, z = q.z.val := ⟨_, rfl⟩
  have rw' : (exactQ q).re = w := hw.symm
  have rx : (exactQ q).imI = x := hx.symm
  have ry : (exactQ q).imJ = y := hy.symm
  have rz : (exactQ q).imK = z := hz.symm
  rw [rw'] at lw sD sq
  rw [rx] at lx sD sq
  rw [ry] at ly sD sq
  rw [rz] at lz sD sq
  have fw : q.w.IsFin = true := hq 3
  have fx : q.x.IsFin = true := hq 0
  have fy : q.y.IsFin = true := hq 1
  have fz : q.z.IsFin = true := hq 2
  have kw : |((q.w).val : ℝ)| ≤ 1.1 := by rw [← hw]; linarith
  have kx : |((q.x).val : ℝ)| ≤ 1.1 := by rw [← hx]; linarith
  have ky : |((q.y).val : ℝ)| ≤ 1.1 := by rw [← hy]; linarith
  have kz : |((q.z).val : ℝ)| ≤ 1.1 := by rw [← hz]; linarith
  have xx := cast_prod fx fx kx kx
  have yy := cast_prod fy fy ky ky
  have zz := cast_prod fz fz kz kz
  have xz := cast_prod fx fz kx kz
  have xy := cast_prod fx fy kx ky
  have yz := cast_prod fy fz ky kz
  have wx := cast_prod fw fx kw kx
  have wy := cast_prod fw fy kw ky
  have wz := cast_prod fw fz kw kz
  rw [← hx] at xx xz xy wx
  rw [← hy] at yy xy yz wy
  rw [← hz] at zz xz yz wz
  rw [← hw] at wx wy wz
  rw [sD] at bD
  rw [sq] at bq
  obtain ⟨p, q', r⟩ := col0 hQ
  refine ⟨?_, ?_, ?_⟩
  · rw [p]
    refine cast_shift' (cast_diag (cast_off yy zz).1) ?_
    have := cast_diag_real e0 hε (a := y) (b := z) (c := x) (d := w) (A := Q.imJ) (B := Q.imK) (C := Q.imI) (D := Q.re) (by linarith) (by linarith) (by linarith)
    exact this
  · rw [q']
    exact cast_shift (cast_off xy wz).1 (cast_off_real e0 hε (by linarith) (by linarith) (by linarith))
  · rw [r]
    refine cast_shift (cast_off xz wy).2 ?_
    exact cast_off_real' e0 hε (by linarith) (by linarith) (by linarith)

theorem mat3_cast_near1 {q : Quat F32} {Q : ℍ[ℝ]} {ε : ℝ} (hq : q.Finite) (hQ : ‖Q‖ = 1) (h : ‖exactQ q - Q‖ ≤ ε) (hε : ε ≤ 0.1) :
    Near (entry (Quat.mat3_cast q) 1 0) (Q * axisQ 1 * Q⁻¹).imI (4.2 * ε + 21 / 2 ^ 24) ∧
    Near (entry (Quat.mat3_cast q) 1 1) (Q * axisQ 1 * Q⁻¹).imJ (4.2 * ε + 21 / 2 ^ 24) ∧
    Near (entry (Quat.mat3_cast q) 1 2) (Q * axisQ 1 * Q⁻¹).imK (4.2 * ε + 21 / 2 ^ 24) := by
  have e0 : 0 ≤ ε := (norm_nonneg _).trans h
  have nq : ‖exactQ q‖ ≤ 1 + ε := by
    have := norm_sub_norm_le (exactQ q) Q
    rw [hQ] at this
    linarith
  obtain ⟨lw, lx, ly, lz⟩ := abs_part_le (exactQ q)
  have sQ : Q.re ^ 2 + Q.imI ^ 2 + Q.imJ ^ 2 + Q.imK ^ 2 = 1 := by rw [← norm_sq_quat, hQ]; norm_num
  have sD := norm_sq_quat (exactQ q - Q)
  have sq := norm_sq_quat (exactQ q)
  have bD : ‖exactQ q - Q‖ ^ 2 ≤ ε ^ 2 := by gcongr
  have bq : ‖exactQ q‖ ^ 2 ≤ (1 + ε) ^ 2 := by gcongr
  simp only [re_sub, imI_sub, imJ_sub, imK_sub] at sD
  obtain ⟨w, hw⟩ : ∃ w : ℝ, w = q.w.val := ⟨_, rfl⟩
  obtain ⟨x, hx⟩ : ∃ x : ℝ, x = q.x.val := ⟨_, rfl⟩
  obtain ⟨y, hy⟩ : ∃ y : ℝ, y = q.y.val := ⟨_, rfl⟩
  obtain ⟨z, hz⟩ : ∃ z : ℝ, z = q.z.val := ⟨_, rfl⟩
  have rw' : (exactQ q).re = w := hw.symm
  have rx : (exactQ q).imI = x := hx.symm
  have ry : (exactQ q).imJ = y := hy.symm
  have rz : (exactQ q).imK = z := hz.symm
  rw [rw'] at lw sD sq
  rw [rx] at lx sD sq
  rw [ry] at ly sD sq
  rw [rz] at lz sD sq
  have fw : q.w.IsFin = true := hq 3
  have fx : q.x.IsFin = true := hq 0
  have fy : q.y.IsFin = true := hq 1
  have fz : q.z.IsFin = true := hq 2
  have kw : |((q.w).val : ℝ)| ≤ 1.1 := by rw [← hw]; linarith
  have kx : |((q.x).val : ℝ)| ≤ 1.1 := by rw [← hx]; linarith
  have ky : |((q.y).val : ℝ)| ≤ 1.1 := by rw [← hy]; linarith
  have kz : |((q.z).val : ℝ)| ≤ 1.1 := by rw [← hz]; linarith
  have xx := cast_prod fx fx kx kx
  have yy := cast_prod fy fy ky ky
  have zz := cast_prod fz fz kz kz
  have xz := cast_prod fx fz kx kz
  have xy := cast_prod fx fy kx ky
  have yz := cast_prod fy fz ky kz
  have wx := cast_prod fw fx kw kx
  have wy := cast_prod fw fy kw ky
  have wz := cast_prod fw fz kw kz
  rw [← hx] at xx xz xy wx
  rw [← hy] at yy xy yz wy
  rw [← hz] at zz xz yz wz
  rw [← hw] at wx wy wz
  rw [sD] at bD
  rw [sq] at bq
  obtain ⟨p, q', r⟩ := col1 hQ
  refine ⟨?_, ?_, ?_⟩
  · rw [p]
    refine cast_shift (cast_off xy wz).2 ?_
    exact cast_off_real' e0 hε (by linarith) (by linarith) (by linarith)
  · rw [q']
    refine cast_shift' (cast_diag (cast_off xx zz).1) ?_
    have := cast_diag_real e0 hε (a := x) (b := z) (c := y) (d := w) (A := Q.imI) (B := Q.imK) (C := Q.imJ) (D := Q.re) (by linarith) (by linarith) (by linarith)
    rw [show Q.re ^ 2 - Q.imI ^ 2 + Q.imJ ^ 2 - Q.imK ^ 2 = Q.re ^ 2 + Q.imJ ^ 2 - Q.imI ^ 2 - Q.imK ^ 2 by ring]
    exact this
  · rw [r]
    exact cast_shift (cast_off yz wx).1 (cast_off_real e0 hε (by linarith) (by linarith) (by linarith))

theorem mat3_cast_near2 {q : Quat F32} {Q : ℍ[ℝ]} {ε : ℝ} (hq : q.Finite) (hQ : ‖Q‖ = 1) (h : ‖exactQ q - Q‖ ≤ ε) (hε : ε ≤ 0.1) :
    Near (entry (Quat.mat3_cast q) 2 0) (Q * axisQ 2 * Q⁻¹).imI (4.2 * ε + 21 / 2 ^ 24) ∧
    Near (entry (Quat.mat3_cast q) 2 1) (Q * axisQ 2 * Q⁻¹).imJ (4.2 * ε + 21 / 2 ^ 24) ∧
    Near (entry (Quat.mat3_cast q) 2 2) (Q * axisQ 2 * Q⁻¹).imK (4.2 * ε + 21 / 2 ^ 24) := by
  have e0 : 0 ≤ ε := (norm_nonneg _).trans h
  have nq : ‖exactQ q‖ ≤ 1 + ε := by
    have := norm_sub_norm_le (exactQ q) Q
    rw [hQ] at this
    linarith
  obtain ⟨lw, lx, ly, lz⟩ := abs_part_le (exactQ q)
  have sQ : Q.re ^ 2 + Q.imI ^ 2 + Q.imJ ^ 2 + Q.imK ^ 2 = 1 := by rw [← norm_sq_quat, hQ]; norm_num
  have sD := norm_sq_quat (exactQ q - Q)
  have sq := norm_sq_quat (exactQ q)
  have bD : ‖exactQ q - Q‖ ^ 2 ≤ ε ^ 2 := by gcongr
  have bq : ‖exactQ q‖ ^ 2 ≤ (1 + ε) ^ 2 := by gcongr
  simp only [re_sub, imI_sub, imJ_sub, imK_sub] at sD
  obtain ⟨w, hw⟩ : ∃ w : ℝ, w = q.w.val := ⟨_, rfl⟩
  obtain ⟨x, hx⟩ : ∃ x : ℝ, x = q.x.val := ⟨_, rfl⟩
  obtain ⟨y, hy⟩ : ∃ y : ℝ, y = q.y.val := ⟨_, rfl⟩
  obtain ⟨z, hz⟩ : ∃ z : ℝ, z = q.z.val := ⟨_, rfl⟩
  have rw' : (exactQ q).re = w := hw.symm
  have rx : (exactQ q).imI = x := hx.symm
  have ry : (exactQ q).imJ = y := hy.symm
  have rz : (exactQ q).imK = z := hz.symm
  rw [rw'] at lw sD sq
  rw [rx] at lx sD sq
  rw [ry] at ly sD sq
  rw [rz] at lz sD sq
  have fw : q.w.IsFin = true := hq 3
  have fx : q.x.IsFin = true := hq 0
  have fy : q.y.IsFin = true := hq 1
  have fz : q.z.IsFin = true := hq 2
  have kw : |((q.w).val : ℝ)| ≤ 1.1 := by rw [← hw]; linarith
  have kx : |((q.x).val : ℝ)| ≤ 1.1 := by rw [← hx]; linarith
  have ky : |((q.y).val : ℝ)| ≤ 1.1 := by rw [← hy]; linarith
  have kz : |((q.z).val : ℝ)| ≤ 1.1 := by rw [← hz]; linarith
  have xx := cast_prod fx fx kx kx
  have yy := cast_prod fy fy ky ky
  have zz := cast_prod fz fz kz kz
  have xz := cast_prod fx fz kx kz
  have xy := cast_prod fx fy kx ky
  have yz := cast_prod fy fz ky kz
  have wx := cast_prod fw fx kw kx
  have wy := cast_prod fw fy kw ky
  have wz := cast_prod fw fz kw kz
  rw [← hx] at xx xz xy wx
  rw [← hy] at yy xy yz wy
  rw [← hz] at zz xz yz wz
  rw [← hw] at wx wy wz
  rw [sD] at bD
  rw [sq] at bq
  obtain ⟨p, q', r⟩ := col2 hQ
  refine ⟨?_, ?_, ?_⟩
  · rw [p]
    exact cast_shift (cast_off xz wy).1 (cast_off_real e0 hε (by linarith) (by linarith) (by linarith))
  · rw [q']
    refine cast_shift (cast_off yz wx).2 ?_
    exact cast_off_real' e0 hε (by linarith) (by linarith) (by linarith)
  · rw [r]
    refine cast_shift' (cast_diag (cast_off xx yy).1) ?_
    have := cast_diag_real e0 hε (a := x) (b := y) (c := z) (d := w) (A := Q.imI) (B := Q.imJ) (C := Q.imK) (D := Q.re) (by linarith) (by linarith) (by linarith)
    rw [show Q.re ^ 2 - Q.imI ^ 2 - Q.imJ ^ 2 + Q.imK ^ 2 = Q.re ^ 2 + Q.imK ^ 2 - Q.imI ^ 2 - Q.imJ ^ 2 by ring]
    exact this

theorem mat3_cast_near {q : Quat F32} {Q : ℍ[ℝ]} {ε : ℝ} (hq : q.Finite) (hQ : ‖Q‖ = 1) (h : ‖exactQ q - Q‖ ≤ ε) (hε : ε ≤ 0.1)
    (c : Fin 3) :
    Near (entry (Quat.mat3_cast q) c 0) (Q * axisQ c * Q⁻¹).imI (4.2 * ε + 21 / 2 ^ 24) ∧
    Near (entry (Quat.mat3_cast q) c 1) (Q * axisQ c * Q⁻¹).imJ (4.2 * ε + 21 / 2 ^ 24) ∧
    Near (entry (Quat.mat3_cast q) c 2) (Q * axisQ c * Q⁻¹).imK (4.2 * ε + 21 / 2 ^ 24) := by
  fin_cases c
  · exact mat3_cast_near0 hq hQ h hε
  · exact mat3_cast_near1 hq hQ h hε
  · exact mat3_cast_near2 hq hQ h hε

end Zcm
