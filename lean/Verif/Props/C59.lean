import Verif.Lemmas.AngleAxis

/-!
# C59: `angleAxis`, `axis` and `angle`

Exact arithmetic.
-/

namespace Zcm

/-- C59: `angleAxis(a, n)` with a unit axis is a unit quaternion and acts by Rodrigues' formula; it
fixes the axis. -/
theorem C59_rodrigues (a : ℝ) (n p : V3 ℝ) (hn : V3.length n = 1) :
    Quat.length (Quat.angleAxis a n) = 1 ∧
    Quat.angleAxis a n * p =
      Real.cos a * p + Real.sin a * V3.cross n p + ((1 - Real.cos a) * V3.dot n p) * n ∧
    Quat.angleAxis a n * n = n := by
  have hn' := V3.dot_self_of_length hn
  refine ⟨Quat.length_angleAxis hn, Quat.angleAxis_mulV hn' p, ?_⟩
  rw [Quat.angleAxis_mulV hn' n, hn']
  ext <;> simp <;> ring

/-- C59: it turns every vector orthogonal to the axis by `a`, counter-clockwise about the axis. -/
theorem C59_angle (a : ℝ) (n p : V3 ℝ) (hn : V3.length n = 1) (hp : V3.dot n p = 0) :
    let p' := Quat.angleAxis a n * p
    V3.dot p p' = V3.dot p p * Real.cos a ∧
    V3.cross p p' = (V3.dot p p * Real.sin a) * n ∧
    V3.dot n p' = 0 ∧ V3.dot p' p' = V3.dot p p := by
  have hn' := V3.dot_self_of_length hn
  simp only [Quat.angleAxis_mulV hn' p, hp]
  have hcs := Real.sin_sq_add_cos_sq a
  simp only [V3.dot] at hn' hp
  generalize Real.sin a = s at *
  generalize Real.cos a = c at *
  refine ⟨?_, ?_, ?_, ?_⟩
  · simp [V3.dot]; ring
  · ext <;> simp [V3.dot] <;> grind
  · simp [V3.dot]; grind
  · simp [V3.dot]; grind

/-- C59: `angle` and `axis` recover the arguments of `angleAxis` for angles strictly between 0 and
2π (whatever the length of the axis). -/
theorem C59_recover (a : ℝ) (n : V3 ℝ) (h0 : 0 < a) (h1 : a < 2 * Real.pi) :
    Quat.angle (Quat.angleAxis a n) = a ∧ Quat.axis (Quat.angleAxis a n) = n := by
  have hs : 0 < Real.sin (a / 2) := Real.sin_pos_of_pos_of_lt_pi (by linarith) (by linarith)
  have hcs := Real.sin_sq_add_cos_sq (a / 2)
  constructor
  · rw [Quat.angleAxis_eq]
    simp only [Quat.angle, F.acos_real, lit_real]
    rw [Real.arccos_cos (by linarith) (by linarith)]
    push_cast; ring
  · have e : (1:ℝ) - Real.cos (a / 2) * Real.cos (a / 2) = Real.sin (a / 2) ^ 2 := by linarith
    rw [Quat.angleAxis_eq]
    simp only [Quat.axis, lit_real]
    push_cast
    rw [e, if_neg (by have := pow_pos hs 2; linarith), F.inversesqrt_real, Real.sqrt_sq hs.le]
    ext <;> simp <;> field_simp

/-- C59: conversely every unit quaternion is `angleAxis` of its own angle and axis; the axis is a unit
vector and the angle lies in [0, 2π]. -/
theorem C59_convert (q : Quat ℝ) (hq : Quat.length q = 1) :
    Quat.angleAxis (Quat.angle q) (Quat.axis q) = q ∧ V3.length (Quat.axis q) = 1 ∧
    0 ≤ Quat.angle q ∧ Quat.angle q ≤ 2 * Real.pi := by
  have h := Quat.dot_self_of_length hq
  simp only [Quat.dot] at h
  have hw1 : -1 ≤ q.w := by nlinarith [sq_nonneg q.x, sq_nonneg q.y, sq_nonneg q.z]
  have hw2 : q.w ≤ 1 := by nlinarith [sq_nonneg q.x, sq_nonneg q.y, sq_nonneg q.z]
  have ea : Quat.angle q / 2 = Real.arccos q.w := by
    simp only [Quat.angle, F.acos_real, lit_real]; push_cast; ring
  have hs : Real.sin (Quat.angle q / 2) = √(1 - q.w ^ 2) := by rw [ea, Real.sin_arccos]
  have hc : Real.cos (Quat.angle q / 2) = q.w := by rw [ea, Real.cos_arccos hw1 hw2]
  refine ⟨?_, ?_, ?_, ?_⟩
  · rw [Quat.angleAxis_eq, hs, hc]
    simp only [Quat.axis, lit_real]
    push_cast
    split_ifs with h0
    · have hx : q.x = 0 := by nlinarith [sq_nonneg q.x, sq_nonneg q.y, sq_nonneg q.z]
      have hy : q.y = 0 := by nlinarith [sq_nonneg q.x, sq_nonneg q.y, sq_nonneg q.z]
      have hz : q.z = 0 := by nlinarith [sq_nonneg q.x, sq_nonneg q.y, sq_nonneg q.z]
      have : √(1 - q.w ^ 2) = 0 := Real.sqrt_eq_zero_of_nonpos (by linarith [sq q.w])
      ext <;> simp [this, hx, hy, hz]
    · push Not at h0
      have e : 1 - q.w * q.w = 1 - q.w ^ 2 := by ring
      rw [e] at h0 ⊢
      have := Real.sqrt_pos.2 h0
      rw [F.inversesqrt_real]
      ext <;> simp <;> field_simp
  · apply V3.length_of_dot_self
    simp only [Quat.axis, lit_real]
    push_cast
    split_ifs with h0
    · simp [V3.dot]
    · push Not at h0
      have hsq := Real.mul_self_sqrt h0.le
      have := Real.sqrt_pos.2 h0
      rw [F.inversesqrt_real]
      simp only [V3.dot]
      generalize √(1 - q.w * q.w) = r at *
      field_simp
      linarith
  · have := Real.arccos_nonneg q.w
    linarith
  · have := Real.arccos_le_pi q.w
    linarith

/-- C59: rotations about the same axis add their angles; angle 0 is the identity; a full turn is minus
the identity (which acts as the identity), and the conjugate turns the other way. -/
theorem C59_group (a b : ℝ) (n : V3 ℝ) (hn : V3.length n = 1) :
    Quat.angleAxis a n * Quat.angleAxis b n = Quat.angleAxis (a + b) n ∧
    Quat.angleAxis 0 n = Quat.default ∧
    Quat.angleAxis (2 * Real.pi) n = -Quat.default ∧
    Quat.angleAxis (-a) n = Quat.conjugate (Quat.angleAxis a n) := by
  have hn' := V3.dot_self_of_length hn
  simp only [V3.dot] at hn'
  refine ⟨?_, ?_, ?_, ?_⟩
  · simp only [Quat.angleAxis_eq, add_div, Real.sin_add, Real.cos_add]
    ext <;> simp <;> grind
  · rw [Quat.angleAxis_eq]
    ext <;> simp [Quat.default]
  · rw [Quat.angleAxis_eq, show 2 * Real.pi / 2 = Real.pi by ring, Real.sin_pi, Real.cos_pi]
    ext <;> simp [Quat.default]
  · rw [Quat.angleAxis_eq, Quat.angleAxis_eq, neg_div, Real.sin_neg, Real.cos_neg]
    ext <;> simp [Quat.conjugate]

/-- C59: `mat4_cast(angleAxis(a, n))` is the matrix of `rotate(mat4(), a, n)`. -/
theorem C59_matrix (a : ℝ) (n : V3 ℝ) (hn : V3.length n = 1) :
    Quat.mat4_cast (Quat.angleAxis a n) = M4.rotate M4.default a n := by
  have hn' := V3.dot_self_of_length hn
  have h := Real.sin_sq_add_cos_sq (a / 2)
  have hs : Real.sin a = 2 * Real.sin (a / 2) * Real.cos (a / 2) := by
    rw [← Real.sin_two_mul]; congr 1; ring
  have hc : Real.cos a = 2 * Real.cos (a / 2) ^ 2 - 1 := by
    rw [← Real.cos_two_mul]; congr 1; ring
  rw [M4.rotate_eq, V3.normalize_of_length_one hn, ← M4.toMat_injective, M4.toMat_mul, M4.toMat_default,
    Matrix.one_mul, M4.toMat_injective, hs, hc, Quat.angleAxis_eq]
  simp only [V3.dot] at hn'
  generalize Real.sin (a / 2) = s at *
  generalize Real.cos (a / 2) = c at *
  simp only [Quat.mat4_cast, M4.ofMat3, V4.ofXYZ_W, Quat.mat3_cast, rodMat]
  ext <;> simp <;> grind

/-- Non-vacuity: a quarter turn about `z` takes `x` to `y`; its angle and axis are recovered. -/
example : Quat.angleAxis (Real.pi / 2) (⟨0, 0, 1⟩ : V3 ℝ) * (⟨1, 0, 0⟩ : V3 ℝ) = ⟨0, 1, 0⟩ ∧
    Quat.angle (Quat.angleAxis (Real.pi / 2) (⟨0, 0, 1⟩ : V3 ℝ)) = Real.pi / 2 ∧
    Quat.axis (Quat.angleAxis (Real.pi / 2) (⟨0, 0, 1⟩ : V3 ℝ)) = ⟨0, 0, 1⟩ := by
  have h : V3.length (⟨0, 0, 1⟩ : V3 ℝ) = 1 := V3.length_of_dot_self (by simp [V3.dot])
  have hp := Real.pi_pos
  refine ⟨?_, C59_recover _ _ (by linarith) (by linarith)⟩
  rw [(C59_rodrigues _ _ _ h).2.1]
  ext <;> simp [V3.dot]

end Zcm
