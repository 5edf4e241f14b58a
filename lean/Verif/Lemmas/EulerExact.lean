import Verif.Spec.Angles
import Verif.Spec.Turn
import Verif.Lemmas.F32TurnQuat
import Verif.Props.C61

/-!
# Euler angles of exact quaternions, and how close turns are
-/

namespace Zcm

open Quaternion

/-! ### Chords -/

theorem chord_eq (a b : ℝ) : chord a b = ‖(⟨Real.cos a, Real.sin a⟩ : ℂ) - ⟨Real.cos b, Real.sin b⟩‖ := by
  rw [Complex.norm_def, Complex.normSq_apply]
  simp only [Complex.sub_re, Complex.sub_im]
  rw [← sq, ← sq]
  rfl

theorem chord_triangle (a b c : ℝ) : chord a c ≤ chord a b + chord b c := by
  rw [chord_eq, chord_eq, chord_eq]
  exact norm_sub_le_norm_sub_add_norm_sub _ _ _

theorem chord_nonneg (a b : ℝ) : 0 ≤ chord a b := Real.sqrt_nonneg _

theorem chord_sq (a b : ℝ) : chord a b ^ 2 = (Real.cos a - Real.cos b) ^ 2 + (Real.sin a - Real.sin b) ^ 2 :=
  Real.sq_sqrt (by positivity)

theorem chord_sq' (a b : ℝ) : chord a b ^ 2 = 2 - 2 * Real.cos (a - b) := by
  rw [chord_sq, Real.cos_sub]
  linear_combination Real.sin_sq_add_cos_sq a + Real.sin_sq_add_cos_sq b

theorem chord_le (a b : ℝ) : chord a b ≤ |a - b| := by
  refine abs_le_of_sq_le_sq' ?_ (abs_nonneg _) |>.2
  rw [sq_abs, chord_sq']
  have := Real.one_sub_sq_div_two_le_cos (x := a - b)
  linarith

/-- the directions of two points that are close are close -/
theorem chord_polar {r R a b e : ℝ} (hr : 0 ≤ r) (hR : 0 < R) (he : 0 ≤ e)
    (h : (r * Real.cos a - R * Real.cos b) ^ 2 + (r * Real.sin a - R * Real.sin b) ^ 2 ≤ e ^ 2) :
    chord a b ≤ 2 * e / R := by
  rw [le_div_iff₀ hR]
  refine abs_le_of_sq_le_sq' ?_ (by positivity) |>.2
  rw [mul_pow, chord_sq']
  have h2 : (r * Real.cos a - R * Real.cos b) ^ 2 + (r * Real.sin a - R * Real.sin b) ^ 2 =
      r ^ 2 + R ^ 2 - 2 * r * R * Real.cos (a - b) := by
    rw [Real.cos_sub]
    linear_combination r ^ 2 * Real.sin_sq_add_cos_sq a + R ^ 2 * Real.sin_sq_add_cos_sq b
  rw [h2] at h
  have c1 := Real.cos_le_one (a - b)
  have c0 := Real.neg_one_le_cos (a - b)
  generalize Real.cos (a - b) = c at *
  have key : (2 - 2 * c) * R ^ 2 ≤ 4 * (r ^ 2 + R ^ 2 - 2 * r * R * c) := by
    rcases le_total 0 c with hc | hc
    · nlinarith [sq_nonneg (r - R * c), mul_nonneg (mul_nonneg hc (sub_nonneg.2 c1)) (sq_nonneg R), sq_nonneg R, mul_nonneg hc (sq_nonneg R)]
    · nlinarith [mul_nonneg (mul_nonneg hr hR.le) (neg_nonneg.2 hc), sq_nonneg r, sq_nonneg R, mul_nonneg (neg_nonneg.2 hc) (sq_nonneg R)]
  nlinarith

theorem chord_arcsin {a b e : ℝ} (ha : |a| ≤ 1) (hb : |b| < 1) (h : |a - b| ≤ e) :
    chord (Real.arcsin a) (Real.arcsin b) ≤ 3 * e / Real.sqrt (1 - b ^ 2) := by
  have e0 : 0 ≤ e := (abs_nonneg _).trans h
  obtain ⟨a0, a1⟩ := abs_le.1 ha
  obtain ⟨b0, b1⟩ := abs_lt.1 hb
  have hb2 : 0 < 1 - b ^ 2 := by nlinarith
  have ha2 : 0 ≤ 1 - a ^ 2 := by nlinarith
  set R := Real.sqrt (1 - b ^ 2) with hR
  have Rp : 0 < R := Real.sqrt_pos.2 hb2
  have R1 : R ≤ 1 := Real.sqrt_le_one.2 (by nlinarith)
  have R2 : R ^ 2 = 1 - b ^ 2 := Real.sq_sqrt hb2.le
  set A := Real.sqrt (1 - a ^ 2) with hA
  have A0 : 0 ≤ A := Real.sqrt_nonneg _
  have A2 : A ^ 2 = 1 - a ^ 2 := Real.sq_sqrt ha2
  have c : R * |A - R| ≤ 2 * e := by
    have : (A - R) * (A + R) = (b - a) * (b + a) := by linear_combination A2 - R2
    have h1 : |A - R| * (A + R) = |b - a| * |b + a| := by
      rw [← abs_mul, ← this, abs_mul, abs_of_nonneg (a := A + R) (by positivity)]
    have h2 : |b + a| ≤ 2 := by rw [abs_le]; constructor <;> linarith
    have h3 : |b - a| ≤ e := by rwa [abs_sub_comm]
    calc R * |A - R| ≤ |A - R| * (A + R) := by nlinarith [abs_nonneg (A - R)]
      _ = |b - a| * |b + a| := h1
      _ ≤ e * 2 := by gcongr
      _ = 2 * e := by ring
  rw [le_div_iff₀ Rp]
  have ch : chord (Real.arcsin a) (Real.arcsin b) ≤ |A - R| + |a - b| := by
    unfold chord
    rw [Real.cos_arcsin, Real.cos_arcsin, Real.sin_arcsin a0 a1, Real.sin_arcsin b0.le b1.le, ← hA, ← hR]
    refine Real.sqrt_le_iff.2 ⟨by positivity, ?_⟩
    have := mul_nonneg (abs_nonneg (A - R)) (abs_nonneg (a - b))
    nlinarith [sq_abs (A - R), sq_abs (a - b)]
  calc chord (Real.arcsin a) (Real.arcsin b) * R ≤ (|A - R| + |a - b|) * R := by gcongr
    _ = R * |A - R| + |a - b| * R := by ring
    _ ≤ 2 * e + e * 1 := by gcongr
    _ = 3 * e := by ring

/-! ### Turns -/

/-- turning by two angles whose directions are close gives quaternions that are close, up to sign -/
theorem turnQ_chord {n : Fin 3 → ℝ} (hn : ∑ i, n i ^ 2 = 1) (a b : ℝ) :
    ∃ s : ℝ, (s = 1 ∨ s = -1) ∧ ‖turnQ a n - s • turnQ b n‖ ≤ 0.708 * chord a b := by
  rw [Fin.sum_univ_three] at hn
  have key : ∀ s : ℝ, s ^ 2 = 1 → ‖turnQ a n - s • turnQ b n‖ ^ 2 = 2 - 2 * s * Real.cos (a / 2 - b / 2) := by
    intro s hs
    rw [norm_sq_quat, re_sub, imI_sub, imJ_sub, imK_sub, re_smul, imI_smul, imJ_smul, imK_smul, Real.cos_sub]
    simp only [turnQ, smul_eq_mul]
    linear_combination Real.sin_sq_add_cos_sq (a / 2) + s ^ 2 * Real.sin_sq_add_cos_sq (b / 2) + 
      (Real.sin (a / 2) - s * Real.sin (b / 2)) ^ 2 * hn + hs
  have c2 : chord a b ^ 2 = 4 - 4 * Real.cos (a / 2 - b / 2) ^ 2 := by
    rw [chord_sq', show a - b = 2 * (a / 2 - b / 2) by ring, Real.cos_two_mul]
    ring
  have k0 := Real.neg_one_le_cos (a / 2 - b / 2)
  have k1 := Real.cos_le_one (a / 2 - b / 2)
  have ch := chord_nonneg a b
  have fin : ∀ s : ℝ, s ^ 2 = 1 → 0 ≤ s * Real.cos (a / 2 - b / 2) → s * Real.cos (a / 2 - b / 2) ≤ 1 →
      ‖turnQ a n - s • turnQ b n‖ ≤ 0.708 * chord a b := by
    intro s hs h0 h1
    refine abs_le_of_sq_le_sq' ?_ (by positivity) |>.2
    rw [key s hs, mul_pow, c2]
    have : Real.cos (a / 2 - b / 2) ^ 2 = (s * Real.cos (a / 2 - b / 2)) ^ 2 := by rw [mul_pow, hs, one_mul]
    rw [this]
    nlinarith
  rcases le_total 0 (Real.cos (a / 2 - b / 2)) with h | h
  · exact ⟨1, Or.inl rfl, fin 1 (by norm_num) (by linarith) (by linarith)⟩
  · exact ⟨-1, Or.inr rfl, fin (-1) (by norm_num) (by linarith) (by linarith)⟩

theorem smul_sign_mul {s t : ℝ} (hs : s = 1 ∨ s = -1) (ht : t = 1 ∨ t = -1) : s * t = 1 ∨ s * t = -1 := by
  rcases hs with rfl | rfl <;> rcases ht with rfl | rfl <;> norm_num

theorem norm_sign_smul {s : ℝ} (hs : s = 1 ∨ s = -1) (Q : ℍ[ℝ]) : ‖s • Q‖ = ‖Q‖ := by
  rcases hs with rfl | rfl <;> simp [norm_smul]

/-- three turns -/
theorem euler_chords (a b c a' b' c' : ℝ) : ∃ s : ℝ, (s = 1 ∨ s = -1) ∧
    ‖turnQ c' ![0, 0, 1] * turnQ b' ![0, 1, 0] * turnQ a' ![1, 0, 0] -
      s • (turnQ c ![0, 0, 1] * turnQ b ![0, 1, 0] * turnQ a ![1, 0, 0])‖ ≤
      0.708 * (chord a' a + chord b' b + chord c' c) := by
  have u1 : ∑ i, (![1, 0, 0] : Fin 3 → ℝ) i ^ 2 = 1 := by simp [Fin.sum_univ_three]
  have u2 : ∑ i, (![0, 1, 0] : Fin 3 → ℝ) i ^ 2 = 1 := by simp [Fin.sum_univ_three]
  have u3 : ∑ i, (![0, 0, 1] : Fin 3 → ℝ) i ^ 2 = 1 := by simp [Fin.sum_univ_three]
  obtain ⟨s, hs, es⟩ := turnQ_chord u1 a' a
  obtain ⟨t, ht, et⟩ := turnQ_chord u2 b' b
  obtain ⟨r, hr, er⟩ := turnQ_chord u3 c' c
  have n1 := turnQ_norm (θ := a') u1
  have n1' := turnQ_norm (θ := a) u1
  have n2 := turnQ_norm (θ := b') u2
  have n2' := turnQ_norm (θ := b) u2
  have n3' := turnQ_norm (θ := c) u3
  generalize turnQ a' ![1, 0, 0] = A' at *
  generalize turnQ a ![1, 0, 0] = A at *
  generalize turnQ b' ![0, 1, 0] = B' at *
  generalize turnQ b ![0, 1, 0] = B at *
  generalize turnQ c' ![0, 0, 1] = C' at *
  generalize turnQ c ![0, 0, 1] = C at *
  refine ⟨r * t * s, smul_sign_mul (smul_sign_mul hr ht) hs, ?_⟩
  have e : C' * B' * A' - (r * t * s) • (C * B * A) =
      (C' - r • C) * B' * A' + (r • C) * (B' - t • B) * A' + (r • C) * (t • B) * (A' - s • A) := by
    simp only [sub_mul, mul_sub, smul_mul_assoc, mul_smul_comm, smul_smul, smul_sub]
    rw [show r * t * s = s * (r * t) by ring, show t * r = r * t by ring]
    abel
  rw [e]
  refine (norm_add₃_le).trans ?_
  rw [norm_mul, norm_mul, norm_mul, norm_mul, norm_mul, norm_mul, norm_sign_smul hr, norm_sign_smul ht, n1, n2, n2', n3']
  linarith

/-- The numbers from which the angles of the exact quaternion are read off. -/
theorem sinYaw_eq (Q : ℍ[ℝ]) : sinYaw Q = 2 * (Q.re * Q.imJ - Q.imI * Q.imK) / ‖Q‖ ^ 2 := by
  unfold sinYaw
  rw [Quaternion.inv_def, Quaternion.normSq_eq_norm_mul_self, ← sq]
  rw [mul_smul_comm, imK_smul, imK_mul, re_mul, imI_mul, imJ_mul, imK_mul, re_star, imI_star, imJ_star, imK_star, smul_eq_mul]
  simp only [vecQ, Matrix.cons_val_zero, Matrix.cons_val_one, Matrix.cons_val]
  field_simp
  ring

/-- The exact angles: the direction of the two numbers each of `pitch` and `roll` looks at, and the arc sine. -/
theorem euler_exact {Q : ℍ[ℝ]} (hQ : Q ≠ 0) (hc : 0 < cosYaw Q) :
    ∃ p r s : ℝ, (s = 1 ∨ s = -1) ∧
      ‖Q‖ ^ 2 * cosYaw Q * Real.cos p = Q.re * Q.re - Q.imI * Q.imI - Q.imJ * Q.imJ + Q.imK * Q.imK ∧
      ‖Q‖ ^ 2 * cosYaw Q * Real.sin p = 2 * (Q.imJ * Q.imK + Q.re * Q.imI) ∧
      ‖Q‖ ^ 2 * cosYaw Q * Real.cos r = Q.re * Q.re + Q.imI * Q.imI - Q.imJ * Q.imJ - Q.imK * Q.imK ∧
      ‖Q‖ ^ 2 * cosYaw Q * Real.sin r = 2 * (Q.imI * Q.imJ + Q.re * Q.imK) ∧
      ‖Q‖ • (turnQ r ![0, 0, 1] * turnQ (Real.arcsin (sinYaw Q)) ![0, 1, 0] * turnQ p ![1, 0, 0]) = s • Q := by
  have n0 : 0 < ‖Q‖ := norm_pos_iff.2 hQ
  have nQ := norm_sq_quat Q
  set q : Quat ℝ := ⟨Q.imI / ‖Q‖, Q.imJ / ‖Q‖, Q.imK / ‖Q‖, Q.re / ‖Q‖⟩ with hq
  have dq : Quat.dot q q = 1 := by
    simp only [Quat.dot, hq]
    field_simp
    linarith
  have lq : Quat.length q = 1 := by rw [Quat.length_eq_sqrt_dot, dq, Real.sqrt_one]
  have sS : (-2) * (q.x * q.z - q.w * q.y) = sinYaw Q := by
    rw [sinYaw_eq, hq]
    field_simp
    ring
  have hd' : q.x * q.x + q.y * q.y + q.z * q.z + q.w * q.w = 1 := by
    rw [← dq]; simp only [Quat.dot]
  have hX : (q.w * q.w - q.x * q.x - q.y * q.y + q.z * q.z) ^ 2 + (2 * (q.y * q.z + q.w * q.x)) ^ 2
      = 1 - ((-2) * (q.x * q.z - q.w * q.y)) ^ 2 := by clear_value q; clear nQ hq dq lq sS; grind
  have hB : (q.w * q.w + q.x * q.x - q.y * q.y - q.z * q.z) ^ 2 + (2 * (q.x * q.y + q.w * q.z)) ^ 2
      = 1 - ((-2) * (q.x * q.z - q.w * q.y)) ^ 2 := by clear_value q; clear nQ hq dq lq sS; grind
  have hS1 : ((-2) * (q.x * q.z - q.w * q.y)) ^ 2 ≤ 1 := by
    have := sq_nonneg (q.w * q.w - q.x * q.x - q.y * q.y + q.z * q.z)
    have := sq_nonneg (2 * (q.y * q.z + q.w * q.x))
    linarith
  have c2 : cosYaw Q ^ 2 = 1 - sinYaw Q ^ 2 := Real.sq_sqrt (by rw [← sS]; linarith)
  rw [sS, ← c2] at hX hB
  obtain ⟨p1, p2⟩ := arg_cos_sin hc.le hX
  obtain ⟨r1, r2⟩ := arg_cos_sin hc.le hB
  have l0 : (lit 0 : ℝ) = 0 := by simp
  have l1 : (lit 1 : ℝ) = 1 := by simp
  have l2 : (lit 2 : ℝ) = 2 := by simp
  have guard : ¬ (((q.w * q.w - q.x * q.x - q.y * q.y + q.z * q.z == (0 : ℝ)) && (2 * (q.y * q.z + q.w * q.x) == (0 : ℝ))) = true) := by
    intro h
    rw [Bool.and_eq_true, beq_iff_eq, beq_iff_eq] at h
    rw [h.1, h.2] at hX
    have : 0 < cosYaw Q ^ 2 := by positivity
    linarith
  have back := C61_reconstruct q lq
  simp only [Quat.eulerAngles, Quat.pitch, Quat.yaw, Quat.roll, l0, l1, l2, if_neg guard, F.atan2_real, F.asin_real,
    sS, clamp_self (x := sinYaw Q) (by rw [← sS]; exact hS1)] at back
  generalize Complex.arg ⟨q.w * q.w - q.x * q.x - q.y * q.y + q.z * q.z, 2 * (q.y * q.z + q.w * q.x)⟩ = p at *
  generalize Complex.arg ⟨q.w * q.w + q.x * q.x - q.y * q.y - q.z * q.z, 2 * (q.x * q.y + q.w * q.z)⟩ = r at *
  have T : turnQ r ![0, 0, 1] * turnQ (Real.arcsin (sinYaw Q)) ![0, 1, 0] * turnQ p ![1, 0, 0] =
      ham (Quat.ofEuler ⟨p, Real.arcsin (sinYaw Q), r⟩) := by
    rw [turnQ_euler, Quat.ofEuler_eq]
    rfl
  have nz := n0.ne'
  have hQ' : ‖Q‖ • ham q = Q := by
    have d : ∀ t : ℝ, ‖Q‖ * (t / ‖Q‖) = t := fun t => mul_div_cancel₀ t nz
    apply Quaternion.ext
    · rw [re_smul]; exact d _
    · rw [imI_smul]; exact d _
    · rw [imJ_smul]; exact d _
    · rw [imK_smul]; exact d _
  have m : ∀ {t u v : ℝ}, cosYaw Q * t = u → ‖Q‖ ^ 2 * u = v → ‖Q‖ ^ 2 * cosYaw Q * t = v := by
    intro t u v h h'
    rw [← h', ← h]; ring
  have sign : ∃ s : ℝ, (s = 1 ∨ s = -1) ∧ ‖Q‖ • ham (Quat.ofEuler ⟨p, Real.arcsin (sinYaw Q), r⟩) = s • Q := by
    rcases back with e | e
    · exact ⟨1, Or.inl rfl, by rw [e, hQ', one_smul]⟩
    · exact ⟨-1, Or.inr rfl, by rw [e, ham_neg, smul_neg, hQ', neg_one_smul]⟩
  obtain ⟨s, hs, e⟩ := sign
  refine ⟨p, r, s, hs, m p1 ?_, m p2 ?_, m r1 ?_, m r2 ?_, by rw [T]; exact e⟩ <;> simp only [hq] <;> field_simp

end Zcm
