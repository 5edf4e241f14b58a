import Verif.Props.C49
import Verif.Props.C50
import Verif.Props.C59
import Verif.Props.C60
import Verif.Props.C61
import Verif.Props.C63
import Verif.Props.C64
import Verif.Props.C44
import Verif.Props.C48
import Verif.Props.C57
import Verif.Props.C65

/-!
# C94: Different ways of building the same transform agree

Exact arithmetic.  The library offers several routes to the same rotation or the same view; the
theorems here say that the routes meet, also where they go through unrelated code (`lookAt` writes
matrix entries, `quatLookAt` extracts a quaternion from a matrix, `slerp` works with sines).
-/

namespace Zcm

theorem M4.mul_mulV (A B : M4 ℝ) (v : V4 ℝ) : A * B * v = A * (B * v) := by
  rw [← M4.coord_injective, M4.coord_mulV, M4.coord_mulV, M4.coord_mulV, M4.toMat_mul, Matrix.mulVec_mulVec]

theorem M4.default_mulV (v : V4 ℝ) : (M4.default : M4 ℝ) * v = v := by
  rw [← M4.coord_injective, M4.coord_mulV, M4.toMat_default, Matrix.one_mulVec]

theorem Quat.mul_mulV {p q : Quat ℝ} (hp : Quat.length p = 1) (hq : Quat.length q = 1) (v : V3 ℝ) :
    p * q * v = p * (q * v) := by
  have h : Quat.length (p * q) = 1 := by
    rw [← ham_norm, ham_mul, norm_mul, ham_norm, ham_norm, hp, hq, one_mul]
  rw [← pureQ_injective, pureQ_mulV h, pureQ_mulV hp, pureQ_mulV hq, ham_mul, mul_inv_rev]
  simp only [mul_assoc]

theorem Quat.inverse_of_unit {q : Quat ℝ} (hq : Quat.length q = 1) : Quat.inverse q = Quat.conjugate q := by
  rw [← ham_injective, ham_inverse, ham_conjugate, Quaternion.inv_def, ham_normSq, Quat.dot_self_of_length hq]
  simp

theorem Quat.length_conjugate {q : Quat ℝ} (hq : Quat.length q = 1) : Quat.length (Quat.conjugate q) = 1 := by
  rw [← ham_norm, ham_conjugate, norm_star, ham_norm, hq]

theorem Quat.mul_conj_mulV {q : Quat ℝ} (hq : Quat.length q = 1) (v : V3 ℝ) :
    q * (Quat.conjugate q * v) = v ∧ Quat.conjugate q * (q * v) = v := by
  have hc := Quat.length_conjugate hq
  have hz : ham q ≠ 0 := by
    intro h; rw [← ham_norm, h] at hq; simp at hq
  rw [← Quat.inverse_of_unit hq] at *
  constructor <;> rw [← pureQ_injective, pureQ_mulV (by assumption), pureQ_mulV (by assumption), ham_inverse] <;>
    simp [mul_assoc, hz]

theorem M4.inverse_unique {A B : M4 ℝ} (h : A * B = M4.default) : M4.inverse A = B := by
  rw [← M4.toMat_injective, M4.toMat_inverse]
  rw [← M4.toMat_injective, M4.toMat_mul, M4.toMat_default] at h
  exact Matrix.inv_eq_right_inv h

/-- C94: the inverse of the matrix of a unit quaternion is the matrix of the inverse quaternion, which
is also the transposed matrix. -/
theorem C94_inverse_quat (q : Quat ℝ) (hq : Quat.length q = 1) :
    M4.inverse (Quat.mat4_cast q) = Quat.mat4_cast (Quat.inverse q) ∧
    M4.inverse (Quat.mat4_cast q) = M4.transpose (Quat.mat4_cast q) ∧
    M3.inverse (Quat.mat3_cast q) = Quat.mat3_cast (Quat.inverse q) ∧
    M3.inverse (Quat.mat3_cast q) = M3.transpose (Quat.mat3_cast q) := by
  have h4 : Quat.mat4_cast q * Quat.mat4_cast (Quat.conjugate q) = M4.default := by
    apply M4.ext_mulV
    intro p w
    rw [M4.mul_mulV, (C57_mat4 _ p w (Quat.length_conjugate hq)).2.2.2, (C57_mat4 _ _ w hq).2.2.2,
      (Quat.mul_conj_mulV hq p).1, M4.default_mulV]
  have t3 := (C57_hom q q hq hq).2.2.2
  have o3 := (C57_rotation q ⟨0, 0, 0⟩ hq).2.1
  have i3 : M3.inverse (Quat.mat3_cast q) = M3.transpose (Quat.mat3_cast q) := by
    rw [← M3.toMat_injective, M3.toMat_inverse, M3.toMat_transpose]
    exact Matrix.inv_eq_left_inv o3
  refine ⟨?_, ?_, ?_, i3⟩
  · rw [Quat.inverse_of_unit hq]; exact M4.inverse_unique h4
  · rw [M4.inverse_unique h4]
    ext <;> simp [Quat.mat4_cast, M4.ofMat3, M4.transpose, Quat.mat3_cast, Quat.conjugate, V4.ofXYZ_W] <;> ring
  · rw [i3, Quat.inverse_of_unit hq, ← M3.toMat_injective, M3.toMat_transpose, t3]

/-- C94: inverses of the elementary transforms are the opposite elementary transforms. -/
theorem C94_inverse_elementary (v s : V3 ℝ) (a : ℝ) (hv : ∃ i, coord v i ≠ 0) (hs : ∀ i, coord s i ≠ 0) :
    M4.inverse (M4.translate M4.default v) = M4.translate M4.default (-v) ∧
    M4.inverse (M4.scale M4.default s) = M4.scale M4.default ⟨1 / s.x, 1 / s.y, 1 / s.z⟩ ∧
    M4.inverse (M4.rotate M4.default a v) = M4.rotate M4.default (-a) v ∧
    M4.rotate M4.default (-a) v = M4.rotate M4.default a (-v) := by
  have hx : s.x ≠ 0 := hs 0
  have hy : s.y ≠ 0 := hs 1
  have hz : s.z ≠ 0 := hs 2
  have e := V3.eq_length_mul hv
  have hn := V3.length_normalize hv
  have l0 : 0 < V3.length v := by rw [V3.length_eq_norm]; exact V3.norm_pos hv
  refine ⟨M4.inverse_unique (M4.ext_mulV fun p w => ?_), M4.inverse_unique (M4.ext_mulV fun p w => ?_),
    M4.inverse_unique ?_, M4.ext_mulV fun p w => ?_⟩
  · rw [M4.mul_mulV, (C48_translate M4.default v (-v) p w).2.2.2.1, (C48_translate M4.default v v _ w).2.2.2.1,
      M4.default_mulV]
    ext <;> simp
  · rw [M4.mul_mulV, (C48_scale M4.default v _ p w).2.1, (C48_scale M4.default v _ _ w).2.1, M4.default_mulV]
    ext <;> simp <;> field_simp
  · have := (C49_group a (-a) v 1 hv).2.2.2
    rw [this.1, add_neg_cancel, this.2]
  · have hn' : V3.length (-V3.normalize v) = 1 := by
      rw [V3.length_eq_norm, V3.eu_neg, norm_neg, ← V3.length_eq_norm, hn]
    have e' : -v = V3.length v * (-V3.normalize v) := by
      conv_lhs => rw [e]
      ext <;> simp
    rw [e', C49_rodrigues a _ _ p w hn' l0]
    conv_lhs => rw [e]
    rw [C49_rodrigues _ _ _ p w hn l0, Real.cos_neg, Real.sin_neg]
    generalize V3.normalize v = n
    ext <;> simp [V3.dot] <;> ring

/-- C94: `lookAtRH(eye, center, up)` undoes moving to `eye` and turning by `quatLookAtRH` of the
direction of sight. -/
theorem C94_lookAt_RH (eye center up : V3 ℝ) (h : ∃ i, coord (V3.cross (center - eye) up) i ≠ 0) :
    let q := Quat.lookAtRH (V3.normalize (center - eye)) up
    M4.inverse (M4.lookAtRH eye center up) = M4.translate M4.default eye * Quat.mat4_cast q ∧
    M4.lookAtRH eye center up = Quat.mat4_cast (Quat.conjugate q) * M4.translate M4.default (-eye) ∧
    (∀ p : V3 ℝ, M4.lookAtRH eye center up * hom p 1 = hom (Quat.inverse q * (p - eye)) 1) := by
  obtain ⟨f, s, d, l, hf, hs, hs', d0, l0, f1, s1, sf, hc, hd, hl⟩ := frame h
  have hq : ∃ i, coord (V3.cross up f) i ≠ 0 := by
    by_contra hcon
    push Not at hcon
    have h0 : (V3.cross up f).x = 0 := hcon 0
    have h1 : (V3.cross up f).y = 0 := hcon 1
    have h2 : (V3.cross up f).z = 0 := hcon 2
    have hx := congrArg V3.x hl
    have hy := congrArg V3.y hl
    have hz := congrArg V3.z hl
    simp at hx hy hz h0 h1 h2
    simp only [V3.dot] at s1
    have : l * (s.x * s.x + s.y * s.y + s.z * s.z) = 0 := by
      linear_combination (-s.x) * hx - s.y * hy - s.z * hz - s.x * h0 - s.y * h1 - s.z * h2
    rw [s1] at this
    linarith
  simp only [hf]
  have fl : V3.length f = 1 := V3.length_of_dot_self f1
  have hu := (C64_RH f up fl hq).1
  have hm : Quat.mat3_cast (Quat.lookAtRH f up) = (⟨s, V3.cross s f, -f⟩ : M3 ℝ) := by
    have hrot : RotEq (⟨s, V3.cross s f, -f⟩ : M3 ℝ) := by
      simp only [V3.dot] at f1 s1 sf
      apply RotEq.of_frame
      · simp; linarith
      · simp; grind
      · simp; linarith
      · simp; ring
      · simp; linarith
      · simp; ring
      · rw [M3.det_toMat]; simp [M3.determinant]; grind
    have e : Quat.lookAtRH f up = M3.quat_cast (⟨s, V3.cross s f, -f⟩ : M3 ℝ) := by
      simp only [Quat.lookAtRH]
      have e1 : V3.cross up (-f) = V3.cross f up := by ext <;> simp <;> ring
      have e2 : V3.cross (-f) s = V3.cross s f := by ext <;> simp <;> ring
      rw [e1, hs, e2]
    rw [e]
    exact hrot.quat_cast.2.1
  generalize Quat.lookAtRH f up = q at *
  have hM : M4.lookAtRH eye center up = Quat.mat4_cast (Quat.conjugate q) * M4.translate M4.default (-eye) := by
    apply M4.ext_mulV
    intro p w
    have c3 : Quat.conjugate q * (p - w * eye) = M3.transpose (Quat.mat3_cast q) * (p - w * eye) := by
      rw [← (C57_rotation _ _ (Quat.length_conjugate hu)).1]
      congr 1
      rw [← M3.toMat_injective, M3.toMat_transpose, (C57_hom q q hu hu).2.2.2]
    rw [M4.mul_mulV, (C48_translate M4.default (-eye) (-eye) p w).2.2.2.1, (C57_mat4 _ _ w (Quat.length_conjugate hu)).2.2.2]
    have : p + w * -eye = p - w * eye := by ext <;> simp <;> ring
    rw [this, c3, hm]
    simp only [M4.lookAtRH, hf, hs, M4.diag_real, M4.mulV_cols]
    ext <;> simp [V3.dot, M3.mulV_x, M3.mulV_y, M3.mulV_z, M3.transpose] <;> ring
  refine ⟨?_, hM, ?_⟩
  · apply M4.inverse_unique
    rw [hM]
    apply M4.ext_mulV
    intro p w
    rw [M4.mul_mulV, M4.mul_mulV, M4.mul_mulV, (C57_mat4 _ p w hu).2.2.2,
      (C48_translate M4.default eye eye _ w).2.2.2.1, (C48_translate M4.default (-eye) (-eye) _ w).2.2.2.1,
      (C57_mat4 _ _ w (Quat.length_conjugate hu)).2.2.2, M4.default_mulV]
    have : q * p + w * eye + w * -eye = q * p := by ext <;> simp
    rw [this, (Quat.mul_conj_mulV hu p).2]
  · intro p
    rw [hM, M4.mul_mulV, (C48_translate M4.default (-eye) (-eye) p 1).2.2.2.1,
      (C57_mat4 _ _ 1 (Quat.length_conjugate hu)).2.2.2, Quat.inverse_of_unit hu]
    congr 2
    ext <;> simp <;> ring

/-- C94: the same for the left-handed pair. -/
theorem C94_lookAt_LH (eye center up : V3 ℝ) (h : ∃ i, coord (V3.cross (center - eye) up) i ≠ 0) :
    let q := Quat.lookAtLH (V3.normalize (center - eye)) up
    M4.inverse (M4.lookAtLH eye center up) = M4.translate M4.default eye * Quat.mat4_cast q ∧
    M4.lookAtLH eye center up = Quat.mat4_cast (Quat.conjugate q) * M4.translate M4.default (-eye) ∧
    (∀ p : V3 ℝ, M4.lookAtLH eye center up * hom p 1 = hom (Quat.inverse q * (p - eye)) 1) := by
  obtain ⟨f, s, d, l, hf, hs, hs', d0, l0, f1, s1, sf, hc, hd, hl⟩ := frame h
  have hq : ∃ i, coord (V3.cross up f) i ≠ 0 := by
    by_contra hcon
    push Not at hcon
    have h0 : (V3.cross up f).x = 0 := hcon 0
    have h1 : (V3.cross up f).y = 0 := hcon 1
    have h2 : (V3.cross up f).z = 0 := hcon 2
    have hx := congrArg V3.x hl
    have hy := congrArg V3.y hl
    have hz := congrArg V3.z hl
    simp at hx hy hz h0 h1 h2
    simp only [V3.dot] at s1
    have : l * (s.x * s.x + s.y * s.y + s.z * s.z) = 0 := by
      linear_combination (-s.x) * hx - s.y * hy - s.z * hz - s.x * h0 - s.y * h1 - s.z * h2
    rw [s1] at this
    linarith
  simp only [hf]
  have fl : V3.length f = 1 := V3.length_of_dot_self f1
  have hu := (C64_LH f up fl hq).1
  have hm : Quat.mat3_cast (Quat.lookAtLH f up) = (⟨-s, V3.cross s f, f⟩ : M3 ℝ) := by
    have hrot : RotEq (⟨-s, V3.cross s f, f⟩ : M3 ℝ) := by
      simp only [V3.dot] at f1 s1 sf
      apply RotEq.of_frame
      · simp; linarith
      · simp; grind
      · simp; linarith
      · simp; ring
      · simp; linarith
      · simp; ring
      · rw [M3.det_toMat]; simp [M3.determinant]; grind
    have e : Quat.lookAtLH f up = M3.quat_cast (⟨-s, V3.cross s f, f⟩ : M3 ℝ) := by
      simp only [Quat.lookAtLH]
      have e2 : V3.cross f (-s) = V3.cross s f := by ext <;> simp <;> ring
      rw [hs', e2]
    rw [e]
    exact hrot.quat_cast.2.1
  generalize Quat.lookAtLH f up = q at *
  have hM : M4.lookAtLH eye center up = Quat.mat4_cast (Quat.conjugate q) * M4.translate M4.default (-eye) := by
    apply M4.ext_mulV
    intro p w
    have c3 : Quat.conjugate q * (p - w * eye) = M3.transpose (Quat.mat3_cast q) * (p - w * eye) := by
      rw [← (C57_rotation _ _ (Quat.length_conjugate hu)).1]
      congr 1
      rw [← M3.toMat_injective, M3.toMat_transpose, (C57_hom q q hu hu).2.2.2]
    rw [M4.mul_mulV, (C48_translate M4.default (-eye) (-eye) p w).2.2.2.1, (C57_mat4 _ _ w (Quat.length_conjugate hu)).2.2.2]
    have : p + w * -eye = p - w * eye := by ext <;> simp <;> ring
    rw [this, c3, hm]
    simp only [M4.lookAtLH, hf, hs', M4.diag_real, M4.mulV_cols]
    ext <;> simp [V3.dot, M3.mulV_x, M3.mulV_y, M3.mulV_z, M3.transpose] <;> ring
  refine ⟨?_, hM, ?_⟩
  · apply M4.inverse_unique
    rw [hM]
    apply M4.ext_mulV
    intro p w
    rw [M4.mul_mulV, M4.mul_mulV, M4.mul_mulV, (C57_mat4 _ p w hu).2.2.2,
      (C48_translate M4.default eye eye _ w).2.2.2.1, (C48_translate M4.default (-eye) (-eye) _ w).2.2.2.1,
      (C57_mat4 _ _ w (Quat.length_conjugate hu)).2.2.2, M4.default_mulV]
    have : q * p + w * eye + w * -eye = q * p := by ext <;> simp
    rw [this, (Quat.mul_conj_mulV hu p).2]
  · intro p
    rw [hM, M4.mul_mulV, (C48_translate M4.default (-eye) (-eye) p 1).2.2.2.1,
      (C57_mat4 _ _ 1 (Quat.length_conjugate hu)).2.2.2, Quat.inverse_of_unit hu]
    congr 2
    ext <;> simp <;> ring

/-- C94: the quaternion made from Euler angles gives the matrix that the three `rotate` calls give. -/
theorem C94_euler (pitch yaw roll : ℝ) :
    Quat.mat4_cast (Quat.ofEuler (⟨pitch, yaw, roll⟩ : V3 ℝ)) =
      M4.rotate (M4.rotate (M4.rotate M4.default roll ⟨0, 0, 1⟩) yaw ⟨0, 1, 0⟩) pitch ⟨1, 0, 0⟩ := by
  have l1 : V3.length (⟨1, 0, 0⟩ : V3 ℝ) = 1 := V3.length_of_dot_self (by simp [V3.dot])
  have l2 : V3.length (⟨0, 1, 0⟩ : V3 ℝ) = 1 := V3.length_of_dot_self (by simp [V3.dot])
  have l3 : V3.length (⟨0, 0, 1⟩ : V3 ℝ) = 1 := V3.length_of_dot_self (by simp [V3.dot])
  have q1 := Quat.length_angleAxis (a := pitch) l1
  have q2 := Quat.length_angleAxis (a := yaw) l2
  have q3 := Quat.length_angleAxis (a := roll) l3
  have q32 : Quat.length (Quat.angleAxis roll (⟨0, 0, 1⟩ : V3 ℝ) * Quat.angleAxis yaw ⟨0, 1, 0⟩) = 1 := by
    rw [← ham_norm, ham_mul, norm_mul, ham_norm, ham_norm, q3, q2, one_mul]
  rw [(C49_rotate _ pitch _).1, (C49_rotate _ yaw _).1, ← C59_matrix pitch _ l1, ← C59_matrix yaw _ l2,
    ← C59_matrix roll _ l3]
  obtain ⟨e, e1⟩ := C61_product pitch yaw roll
  apply M4.ext_mulV
  intro p w
  rw [(C57_mat4 _ p w e1).2.2.2, M4.mul_mulV, M4.mul_mulV, (C57_mat4 _ _ w q1).2.2.2, (C57_mat4 _ _ w q2).2.2.2,
    (C57_mat4 _ _ w q3).2.2.2, e, Quat.mul_mulV q32 q1, Quat.mul_mulV q3 q2]

/-- C94: rotating a quaternion and rotating a matrix are the same operation. -/
theorem C94_rotate (q : Quat ℝ) (hq : Quat.length q = 1) (a : ℝ) (v : V3 ℝ) (hv : ∃ i, coord v i ≠ 0) :
    Quat.mat4_cast (Quat.rotate q a v) = M4.rotate (Quat.mat4_cast q) a v := by
  have hn := V3.length_normalize hv
  have h1 := Quat.length_angleAxis (a := a) hn
  obtain ⟨e, el⟩ := C65_axis q a v hv
  rw [hq] at el
  have er : M4.rotate M4.default a v = M4.rotate M4.default a (V3.normalize v) := by
    conv_lhs => rw [V3.eq_length_mul hv]
    refine (C49_rotate M4.default a _).2 _ ?_ ?_
    · rw [V3.length_eq_norm]; exact V3.norm_pos hv
    · by_contra hc
      push Not at hc
      have : V3.dot (V3.normalize v) (V3.normalize v) = 0 := by
        have h0 : (V3.normalize v).x = 0 := hc 0
        have h1 : (V3.normalize v).y = 0 := hc 1
        have h2 : (V3.normalize v).z = 0 := hc 2
        simp [V3.dot, h0, h1, h2]
      rw [V3.dot_self_of_length hn] at this
      exact one_ne_zero this
  rw [(C49_rotate _ a _).1, er, ← C59_matrix a _ hn]
  apply M4.ext_mulV
  intro p w
  rw [(C57_mat4 _ p w el).2.2.2, M4.mul_mulV, (C57_mat4 _ _ w h1).2.2.2, (C57_mat4 _ _ w hq).2.2.2, e,
    Quat.mul_mulV hq h1]

/-- C94: `slerp` from the identity to a turn by at most half a turn is the turn by the corresponding
part of the angle (the hypothesis keeps the two end points out of the near-parallel fallback). -/
theorem C94_slerp_angleAxis (a t : ℝ) (n : V3 ℝ) (hn : V3.length n = 1) (h0 : 0 ≤ a) (h1 : a ≤ Real.pi)
    (h : Real.cos (a / 2) ≤ 1 - 1 / 8388608) :
    Quat.slerp Quat.default (Quat.angleAxis a n) t = Quat.angleAxis (t * a) n := by
  have hn' := V3.dot_self_of_length hn
  have hd : Quat.dot Quat.default (Quat.angleAxis a n) = Real.cos (a / 2) := by
    rw [Quat.angleAxis_eq]; simp [Quat.dot, Quat.default]
  have hc : 0 ≤ Real.cos (a / 2) := Real.cos_nonneg_of_mem_Icc ⟨by linarith, by linarith⟩
  have hz : nearest Quat.default (Quat.angleAxis a n) = Quat.angleAxis a n := by
    rw [nearest, hd, if_neg (not_lt.2 hc)]
  have harc : Real.arccos (Real.cos (a / 2)) = a / 2 := Real.arccos_cos (by linarith) (by linarith)
  have hs := (arccos_facts hc h).2
  rw [harc] at hs
  have hs' : Real.sin ((1 - t) * (a / 2)) =
      Real.sin (a / 2) * Real.cos (t * a / 2) - Real.cos (a / 2) * Real.sin (t * a / 2) := by
    rw [← Real.sin_sub]; congr 1; ring
  have ht : t * (a / 2) = t * a / 2 := by ring
  rw [Quat.slerp_eq, hd, abs_of_nonneg hc, if_neg (not_lt.2 h), hz, harc, hs', ht, Quat.angleAxis_eq, Quat.angleAxis_eq]
  generalize Real.sin (a / 2) = S at *
  ext <;> simp [Quat.default] <;> field_simp

/-- C94: `slerp` does not depend on the frame of reference: turning both end points by the same unit
quaternion, from the left or from the right, turns the result. -/
theorem C94_slerp_frame (r x y : Quat ℝ) (t : ℝ) (hr : Quat.length r = 1) :
    Quat.slerp (r * x) (r * y) t = r * Quat.slerp x y t ∧
    Quat.slerp (x * r) (y * r) t = Quat.slerp x y t * r := by
  have hr' := Quat.dot_self_of_length hr
  simp only [Quat.dot] at hr'
  have d1 : Quat.dot (r * x) (r * y) = Quat.dot x y := by
    have : Quat.dot (r * x) (r * y) = (r.x * r.x + r.y * r.y + r.z * r.z + r.w * r.w) * Quat.dot x y := by
      simp [Quat.dot]; ring
    rw [this, hr', one_mul]
  have d2 : Quat.dot (x * r) (y * r) = Quat.dot x y := by
    have : Quat.dot (x * r) (y * r) = (r.x * r.x + r.y * r.y + r.z * r.z + r.w * r.w) * Quat.dot x y := by
      simp [Quat.dot]; ring
    rw [this, hr', one_mul]
  have n1 : nearest (r * x) (r * y) = r * nearest x y := by
    simp only [nearest, d1]
    split_ifs
    · ext <;> simp <;> ring
    · rfl
  have n2 : nearest (x * r) (y * r) = nearest x y * r := by
    simp only [nearest, d2]
    split_ifs
    · ext <;> simp <;> ring
    · rfl
  rw [Quat.slerp_eq, Quat.slerp_eq, Quat.slerp_eq, d1, d2, n1, n2]
  generalize nearest x y = z
  split_ifs
  · constructor <;> ext <;> simp <;> ring
  · constructor <;> ext <;> simp <;> ring

/-- C94: `quat(u, v)` of two vectors that are not parallel is the turn about `u × v` by the angle
between them. -/
theorem C94_uv (U V : ℝ) (a b : V3 ℝ) (hU : 0 < U) (hV : 0 < V) (ha : V3.length a = 1)
    (hb : V3.length b = 1) (h : 0.000001 ≤ 1 + V3.dot a b) (hc : ∃ i, coord (V3.cross a b) i ≠ 0) :
    Quat.ofUV (U * a) (V * b) =
      Quat.angleAxis (Real.arccos (V3.dot a b)) (V3.normalize (V3.cross a b)) := by
  have ha' := V3.dot_self_of_length ha
  have hb' := V3.dot_self_of_length hb
  have ec := V3.eq_length_mul hc
  have n1 := V3.dot_self_of_length (V3.length_normalize hc)
  have l0 : 0 < V3.length (V3.cross a b) := by rw [V3.length_eq_norm]; exact V3.norm_pos hc
  rw [Quat.ofUV_eq hU hV ha' hb', if_neg (not_lt.2 h), Quat.angleAxis_eq]
  have hx := congrArg V3.x ec
  have hy := congrArg V3.y ec
  have hz := congrArg V3.z ec
  generalize V3.normalize (V3.cross a b) = n at *
  generalize V3.length (V3.cross a b) = l at *
  simp at hx hy hz
  have hl : l ^ 2 = 1 - V3.dot a b ^ 2 := by
    simp only [V3.dot] at *
    clear ha hb h hc ec
    have : l ^ 2 = l ^ 2 * (n.x * n.x + n.y * n.y + n.z * n.z) := by rw [n1, mul_one]
    grind
  have hd1 : V3.dot a b ≤ 1 := by nlinarith
  have hd0 : -1 ≤ V3.dot a b := by linarith
  have hC := Real.cos_arccos hd0 hd1
  have hS : Real.sin (Real.arccos (V3.dot a b)) = l := by
    rw [Real.sin_arccos, ← hl, Real.sqrt_sq l0.le]
  have hA0 := Real.arccos_nonneg (V3.dot a b)
  have hA1 := Real.arccos_le_pi (V3.dot a b)
  generalize Real.arccos (V3.dot a b) = A at *
  have c2 : Real.cos A = 2 * Real.cos (A / 2) ^ 2 - 1 := by
    rw [← Real.cos_two_mul]; congr 1; ring
  have s2 : Real.sin A = 2 * Real.sin (A / 2) * Real.cos (A / 2) := by
    rw [← Real.sin_two_mul]; congr 1; ring
  have cp : 0 < Real.cos (A / 2) := by
    have h0 : 0 ≤ Real.cos (A / 2) := Real.cos_nonneg_of_mem_Icc ⟨by linarith, by linarith⟩
    refine lt_of_le_of_ne h0 fun h0 => ?_
    rw [← h0] at c2
    norm_num at h
    linarith
  have e : (⟨a.y * b.z - a.z * b.y, a.z * b.x - a.x * b.z, a.x * b.y - a.y * b.x, 1 + V3.dot a b⟩ : Quat ℝ) =
      (2 * Real.cos (A / 2)) * (⟨n.x * Real.sin (A / 2), n.y * Real.sin (A / 2), n.z * Real.sin (A / 2), Real.cos (A / 2)⟩ : Quat ℝ) := by
    ext <;> simp
    · rw [hx, ← hS, s2]; ring
    · rw [hy, ← hS, s2]; ring
    · rw [hz, ← hS, s2]; ring
    · rw [← hC, c2]; ring
  rw [e, Quat.normalize_smul (by linarith), Quat.normalize_of_length_one]
  apply Quat.length_of_dot_self
  have := Real.sin_sq_add_cos_sq (A / 2)
  simp only [V3.dot] at n1
  simp only [Quat.dot]
  linear_combination Real.sin (A / 2) ^ 2 * n1 + this

/-- Non-vacuity: a line of sight along `x` with `y` up, and a quarter turn about `z`, which is not in
the near-parallel case of `slerp`. -/
example : (∃ i, coord (V3.cross ((⟨4, 2, 3⟩ : V3 ℝ) - ⟨1, 2, 3⟩) ⟨0, 1, 0⟩) i ≠ 0) ∧
    V3.length (⟨0, 0, 1⟩ : V3 ℝ) = 1 ∧ Real.cos (Real.pi / 2 / 2) ≤ 1 - 1 / 8388608 := by
  refine ⟨⟨2, by norm_num⟩, V3.length_of_dot_self (by simp [V3.dot]), ?_⟩
  have : Real.pi / 2 / 2 = Real.pi / 4 := by ring
  rw [this, Real.cos_pi_div_four]
  have := Real.sqrt_lt' (x := 2) (y := 3 / 2) (by norm_num)
  have h2 : √(2:ℝ) < 3 / 2 := this.2 (by norm_num)
  linarith

/-- Non-vacuity: `quat(u, v)` with a right angle between `u` and `v`. -/
example : (0.000001 : ℝ) ≤ 1 + V3.dot (⟨1, 0, 0⟩ : V3 ℝ) ⟨0, 1, 0⟩ ∧
    ∃ i, coord (V3.cross (⟨1, 0, 0⟩ : V3 ℝ) ⟨0, 1, 0⟩) i ≠ 0 :=
  ⟨by norm_num [V3.dot], 2, by simp⟩

end Zcm
