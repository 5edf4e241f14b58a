import Mathlib.Analysis.Real.Pi.Bounds
import Verif.Lemmas.AngleAxis
import Verif.Lemmas.RotQuat

/-!
# C61: Euler angle constructor and extraction

Exact arithmetic.  The Euler angles are `(pitch, yaw, roll)`, rotations about `x`, `y`, `z`.
-/

namespace Zcm

theorem Quat.ofEuler_eq (pitch yaw roll : ℝ) : Quat.ofEuler (⟨pitch, yaw, roll⟩ : V3 ℝ) =
    { w := Real.cos (pitch / 2) * Real.cos (yaw / 2) * Real.cos (roll / 2) +
        Real.sin (pitch / 2) * Real.sin (yaw / 2) * Real.sin (roll / 2),
      x := Real.sin (pitch / 2) * Real.cos (yaw / 2) * Real.cos (roll / 2) -
        Real.cos (pitch / 2) * Real.sin (yaw / 2) * Real.sin (roll / 2),
      y := Real.cos (pitch / 2) * Real.sin (yaw / 2) * Real.cos (roll / 2) +
        Real.sin (pitch / 2) * Real.cos (yaw / 2) * Real.sin (roll / 2),
      z := Real.cos (pitch / 2) * Real.cos (yaw / 2) * Real.sin (roll / 2) -
        Real.sin (pitch / 2) * Real.sin (yaw / 2) * Real.cos (roll / 2) } := by
  have h : ∀ x : ℝ, x * 0.5 = x / 2 := fun x => by ring
  have e : (lit 0.5 : ℝ) = 0.5 := by simp
  simp only [Quat.ofEuler, V3.sin, V3.cos, V3.applyOp, e]
  ext <;> simp [h]

/-- C61: `quat(vec3(pitch, yaw, roll))` is the product `Rz(roll) * Ry(yaw) * Rx(pitch)` of the axis
rotations, and a unit quaternion. -/
theorem C61_product (pitch yaw roll : ℝ) :
    Quat.ofEuler (⟨pitch, yaw, roll⟩ : V3 ℝ) =
      Quat.angleAxis roll ⟨0, 0, 1⟩ * Quat.angleAxis yaw ⟨0, 1, 0⟩ * Quat.angleAxis pitch ⟨1, 0, 0⟩ ∧
    Quat.length (Quat.ofEuler (⟨pitch, yaw, roll⟩ : V3 ℝ)) = 1 := by
  have e : Quat.ofEuler (⟨pitch, yaw, roll⟩ : V3 ℝ) =
      Quat.angleAxis roll ⟨0, 0, 1⟩ * Quat.angleAxis yaw ⟨0, 1, 0⟩ * Quat.angleAxis pitch ⟨1, 0, 0⟩ := by
    rw [Quat.ofEuler_eq]
    simp only [Quat.angleAxis_eq]
    ext <;> simp <;> ring
  refine ⟨e, ?_⟩
  rw [e, ← ham_norm, ham_mul, ham_mul, norm_mul, norm_mul, ham_norm, ham_norm, ham_norm,
    Quat.length_angleAxis, Quat.length_angleAxis, Quat.length_angleAxis]
  · norm_num
  all_goals exact V3.length_of_dot_self (by simp [V3.dot])

theorem arg_polar {r a : ℝ} (hr : 0 < r) (h0 : -Real.pi < a) (h1 : a ≤ Real.pi) :
    Complex.arg ⟨r * Real.cos a, r * Real.sin a⟩ = a := by
  have : (⟨r * Real.cos a, r * Real.sin a⟩ : ℂ) = (r : ℂ) * (Complex.cos a + Complex.sin a * Complex.I) := by
    apply Complex.ext <;> simp [← Complex.ofReal_cos, ← Complex.ofReal_sin]
  rw [this, Complex.arg_mul_cos_add_sin_mul_I hr ⟨h0, h1⟩]

/-- the numbers that the extraction functions look at -/
theorem euler_parts (pitch yaw roll : ℝ) :
    let q := Quat.ofEuler (⟨pitch, yaw, roll⟩ : V3 ℝ)
    2 * (q.y * q.z + q.w * q.x) = Real.cos yaw * Real.sin pitch ∧
    q.w * q.w - q.x * q.x - q.y * q.y + q.z * q.z = Real.cos yaw * Real.cos pitch ∧
    (-2) * (q.x * q.z - q.w * q.y) = Real.sin yaw ∧
    2 * (q.x * q.y + q.w * q.z) = Real.cos yaw * Real.sin roll ∧
    q.w * q.w + q.x * q.x - q.y * q.y - q.z * q.z = Real.cos yaw * Real.cos roll := by
  have hs : ∀ a : ℝ, Real.sin a = 2 * Real.sin (a / 2) * Real.cos (a / 2) := by
    intro a; rw [← Real.sin_two_mul]; congr 1; ring
  have hc : ∀ a : ℝ, Real.cos a = 2 * Real.cos (a / 2) ^ 2 - 1 := by
    intro a; rw [← Real.cos_two_mul]; congr 1; ring
  rw [Quat.ofEuler_eq, hs pitch, hc pitch, hs yaw, hc yaw, hs roll, hc roll]
  have h1 := Real.sin_sq_add_cos_sq (pitch / 2)
  have h2 := Real.sin_sq_add_cos_sq (yaw / 2)
  have h3 := Real.sin_sq_add_cos_sq (roll / 2)
  generalize Real.sin (pitch / 2) = a at *
  generalize Real.cos (pitch / 2) = b at *
  generalize Real.sin (yaw / 2) = c at *
  generalize Real.cos (yaw / 2) = d at *
  generalize Real.sin (roll / 2) = f at *
  generalize Real.cos (roll / 2) = g at *
  clear hs hc
  refine ⟨?_, ?_, ?_, ?_, ?_⟩ <;> grind

/-- C61: `eulerAngles(quat(e)) == e` when the yaw is strictly between -π/2 and π/2 and pitch and roll
lie in (-π, π]. -/
theorem C61_extract (pitch yaw roll : ℝ) (hy0 : -(Real.pi / 2) < yaw) (hy1 : yaw < Real.pi / 2)
    (hp0 : -Real.pi < pitch) (hp1 : pitch ≤ Real.pi) (hr0 : -Real.pi < roll) (hr1 : roll ≤ Real.pi) :
    Quat.eulerAngles (Quat.ofEuler (⟨pitch, yaw, roll⟩ : V3 ℝ)) = ⟨pitch, yaw, roll⟩ := by
  have hc := Real.cos_pos_of_mem_Ioo ⟨hy0, hy1⟩
  obtain ⟨h1, h2, h3, h4, h5⟩ := euler_parts pitch yaw roll
  generalize Quat.ofEuler (⟨pitch, yaw, roll⟩ : V3 ℝ) = q at *
  have l0 : (lit 0 : ℝ) = 0 := by simp
  have l1 : (lit 1 : ℝ) = 1 := by simp
  have l2 : (lit 2 : ℝ) = 2 := by simp
  simp only [Quat.eulerAngles, Quat.pitch, Quat.yaw, Quat.roll, l0, l1, l2, h1, h2, h3, h4, h5, F.atan2_real,
    arg_polar hc hp0 hp1, arg_polar hc hr0 hr1, F.asin_real]
  congr 1
  · rw [if_neg]
    intro h
    simp at h
    rcases h with ⟨h | h, h' | h'⟩
    · exact hc.ne' h
    · exact hc.ne' h
    · exact hc.ne' h'
    · have := Real.sin_sq_add_cos_sq pitch
      rw [h, h'] at this
      norm_num at this
  · have : F.clamp (Real.sin yaw) (-1) 1 = Real.sin yaw := by
      have a := Real.neg_one_le_sin yaw
      have b := Real.sin_le_one yaw
      simp only [F.clamp, F.min, F.max]
      split_ifs <;> linarith
    rw [this, Real.arcsin_sin (by linarith) (by linarith)]

/-- Non-vacuity: the angles (0.5, 1, -2) are in the range. -/
example : Quat.eulerAngles (Quat.ofEuler (⟨1/2, 1, -2⟩ : V3 ℝ)) = ⟨1/2, 1, -2⟩ := by
  have := Real.pi_gt_three
  apply C61_extract <;> linarith

/-- The five numbers read by the extraction functions determine the rotation matrix of a unit quaternion, unless `|sin(yaw)|` is 1. -/
theorem mat3_cast_of_parts {p q : Quat ℝ} (hp : Quat.dot p p = 1) (hq : Quat.dot q q = 1)
    (h1 : 2 * (p.y * p.z + p.w * p.x) = 2 * (q.y * q.z + q.w * q.x))
    (h2 : p.w * p.w - p.x * p.x - p.y * p.y + p.z * p.z = q.w * q.w - q.x * q.x - q.y * q.y + q.z * q.z)
    (h3 : (-2) * (p.x * p.z - p.w * p.y) = (-2) * (q.x * q.z - q.w * q.y))
    (h4 : 2 * (p.x * p.y + p.w * p.z) = 2 * (q.x * q.y + q.w * q.z))
    (h5 : p.w * p.w + p.x * p.x - p.y * p.y - p.z * p.z = q.w * q.w + q.x * q.x - q.y * q.y - q.z * q.z)
    (hs : 1 - ((-2) * (q.x * q.z - q.w * q.y)) ^ 2 ≠ 0) : Quat.mat3_cast p = Quat.mat3_cast q := by
  have key : ∀ r : Quat ℝ, Quat.dot r r = 1 →
      let a := 2 * (r.y * r.z + r.w * r.x)
      let b := r.w * r.w - r.x * r.x - r.y * r.y + r.z * r.z
      let s := (-2) * (r.x * r.z - r.w * r.y)
      let c := 2 * (r.x * r.y + r.w * r.z)
      let d := r.w * r.w + r.x * r.x - r.y * r.y - r.z * r.z
      2 * (r.x * r.y - r.w * r.z) * (1 - s ^ 2) = s * d * a - b * c ∧
      (1 - 2 * (r.x * r.x + r.z * r.z)) * (1 - s ^ 2) = b * d + s * c * a ∧
      2 * (r.x * r.z + r.w * r.y) * (1 - s ^ 2) = s * d * b + a * c ∧
      2 * (r.y * r.z - r.w * r.x) * (1 - s ^ 2) = s * c * b - a * d ∧
      1 - 2 * (r.y * r.y + r.z * r.z) = d ∧ 1 - 2 * (r.x * r.x + r.y * r.y) = b := by
    intro r hr
    simp only [Quat.dot] at hr
    obtain ⟨x, y, z, w⟩ := r
    simp only at hr ⊢
    refine ⟨?_, ?_, ?_, ?_, ?_, ?_⟩ <;> grind
  obtain ⟨p1, p2, p3, p4, p5, p6⟩ := key p hp
  obtain ⟨q1, q2, q3, q4, q5, q6⟩ := key q hq
  rw [h1, h2, h3, h4, h5] at p1 p2 p3 p4
  have c1 := mul_right_cancel₀ hs (p1.trans q1.symm)
  have c2 := mul_right_cancel₀ hs (p2.trans q2.symm)
  have c3 := mul_right_cancel₀ hs (p3.trans q3.symm)
  have c4 := mul_right_cancel₀ hs (p4.trans q4.symm)
  have c5 := p5.trans (h5.trans q5.symm)
  have c6 := p6.trans (h2.trans q6.symm)
  have l1 : (lit 1 : ℝ) = 1 := by simp
  have l2 : (lit 2 : ℝ) = 2 := by simp
  simp only [Quat.mat3_cast, l1, l2]
  ext <;> simp only
  all_goals first | exact c1 | exact c2 | exact c3 | exact c4 | exact c5 | exact c6 | exact h1 | exact h4 | linarith

theorem arg_cos_sin {x y r : ℝ} (hr : 0 ≤ r) (h : x ^ 2 + y ^ 2 = r ^ 2) :
    r * Real.cos (Complex.arg ⟨x, y⟩) = x ∧ r * Real.sin (Complex.arg ⟨x, y⟩) = y := by
  have hn : ‖(⟨x, y⟩ : ℂ)‖ = r := by
    rw [Complex.norm_def, Complex.normSq_mk, ← sq, ← sq, h, Real.sqrt_sq hr]
  have := Complex.norm_mul_cos_arg (⟨x, y⟩ : ℂ)
  have h2 := Complex.norm_mul_sin_arg (⟨x, y⟩ : ℂ)
  rw [hn] at this h2
  exact ⟨this, h2⟩

theorem clamp_self {x : ℝ} (h : x ^ 2 ≤ 1) : F.clamp x (-1) 1 = x := by
  have a := abs_le.mp ((sq_le_one_iff_abs_le_one x).mp h)
  simp only [F.clamp, F.min, F.max]
  split_ifs <;> linarith

/-- C61: conversely, for every unit quaternion, gimbal lock included, `quat(eulerAngles(q))` is `q` or
`-q`, so it describes the same rotation. -/
theorem C61_reconstruct (q : Quat ℝ) (hq : Quat.length q = 1) :
    Quat.ofEuler (Quat.eulerAngles q) = q ∨ Quat.ofEuler (Quat.eulerAngles q) = -q := by
  have hd : Quat.dot q q = 1 := Quat.dot_self_of_length hq
  have hd' : q.x * q.x + q.y * q.y + q.z * q.z + q.w * q.w = 1 := by
    rw [← hd]; simp only [Quat.dot]
  have hX : (q.w * q.w - q.x * q.x - q.y * q.y + q.z * q.z) ^ 2 + (2 * (q.y * q.z + q.w * q.x)) ^ 2
      = 1 - ((-2) * (q.x * q.z - q.w * q.y)) ^ 2 := by clear hq hd; grind
  have hB : (q.w * q.w + q.x * q.x - q.y * q.y - q.z * q.z) ^ 2 + (2 * (q.x * q.y + q.w * q.z)) ^ 2
      = 1 - ((-2) * (q.x * q.z - q.w * q.y)) ^ 2 := by clear hq hd; grind
  have hS1 : ((-2) * (q.x * q.z - q.w * q.y)) ^ 2 ≤ 1 := by nlinarith
  have l0 : (lit 0 : ℝ) = 0 := by simp
  have l1 : (lit 1 : ℝ) = 1 := by simp
  have l2 : (lit 2 : ℝ) = 2 := by simp
  by_cases hs : 1 - ((-2) * (q.x * q.z - q.w * q.y)) ^ 2 = 0
  · left
    have hX0 : q.w * q.w - q.x * q.x - q.y * q.y + q.z * q.z = 0 := by nlinarith
    have hX1 : 2 * (q.y * q.z + q.w * q.x) = 0 := by nlinarith
    have hB0 : q.w * q.w + q.x * q.x - q.y * q.y - q.z * q.z = 0 := by nlinarith
    have hB1 : 2 * (q.x * q.y + q.w * q.z) = 0 := by nlinarith
    have hw : q.w ^ 2 + q.x ^ 2 = (√2 / 2) ^ 2 := by
      rw [div_pow, Real.sq_sqrt (by norm_num)]; nlinarith
    obtain ⟨hc, hsn⟩ := arg_cos_sin (by positivity) hw
    have hr : Complex.arg ⟨0, 0⟩ = 0 := Complex.arg_zero
    simp only [Quat.eulerAngles, Quat.pitch, Quat.yaw, Quat.roll, l0, l1, l2, hX0, hX1, hB0, hB1, F.atan2_real,
      F.asin_real, clamp_self hS1, Quat.ofEuler_eq, hr]
    have hcase : (-2) * (q.x * q.z - q.w * q.y) = 1 ∨ (-2) * (q.x * q.z - q.w * q.y) = -1 :=
      by
      have h : ((-2) * (q.x * q.z - q.w * q.y) - 1) * ((-2) * (q.x * q.z - q.w * q.y) + 1) = 0 := by linarith
      rcases mul_eq_zero.mp h with h | h
      · left; linarith
      · right; linarith
    have hp : 2 * Complex.arg ⟨q.w, q.x⟩ / 2 = Complex.arg ⟨q.w, q.x⟩ := by ring
    have h4 : ∀ s : ℝ, s * (Real.pi / 2) / 2 = s * (Real.pi / 4) := fun s => by ring
    rcases hcase with hS | hS
    · have h0 : (q.w - q.y) ^ 2 + (q.x + q.z) ^ 2 = 0 := by linear_combination hd' - hS
      have e1 : q.y = q.w := by
        have := pow_eq_zero_iff two_ne_zero |>.mp (le_antisymm (by linarith [sq_nonneg (q.x + q.z)]) (sq_nonneg (q.w - q.y)))
        linarith
      have e2 : q.z = -q.x := by
        have := pow_eq_zero_iff two_ne_zero |>.mp (le_antisymm (by linarith [sq_nonneg (q.w - q.y)]) (sq_nonneg (q.x + q.z)))
        linarith
      rw [hS, Real.arcsin_one]
      have hq4 : Real.pi / 2 / 2 = Real.pi / 4 := by ring
      ext <;> simp [hp, hq4, Real.cos_pi_div_four, Real.sin_pi_div_four, e1, e2] <;> linarith
    · have h0 : (q.w + q.y) ^ 2 + (q.x - q.z) ^ 2 = 0 := by linear_combination hd' - (-1) * hS
      have e1 : q.y = -q.w := by
        have := pow_eq_zero_iff two_ne_zero |>.mp (le_antisymm (by linarith [sq_nonneg (q.x - q.z)]) (sq_nonneg (q.w + q.y)))
        linarith
      have e2 : q.z = q.x := by
        have := pow_eq_zero_iff two_ne_zero |>.mp (le_antisymm (by linarith [sq_nonneg (q.w + q.y)]) (sq_nonneg (q.x - q.z)))
        linarith
      rw [hS, Real.arcsin_neg_one]
      have hq4 : -(Real.pi / 2) / 2 = -(Real.pi / 4) := by ring
      ext <;> simp [hp, hq4, Real.cos_neg, Real.sin_neg, Real.cos_pi_div_four, Real.sin_pi_div_four, e1, e2] <;> linarith
  · have hpos : 0 < 1 - ((-2) * (q.x * q.z - q.w * q.y)) ^ 2 := lt_of_le_of_ne (by linarith) (Ne.symm hs)
    have hsq := Real.sq_sqrt hpos.le
    obtain ⟨a1, a2⟩ := arg_cos_sin (Real.sqrt_nonneg _) (hX.trans hsq.symm)
    obtain ⟨b1, b2⟩ := arg_cos_sin (Real.sqrt_nonneg _) (hB.trans hsq.symm)
    have hp : Quat.eulerAngles q = ⟨Complex.arg ⟨q.w * q.w - q.x * q.x - q.y * q.y + q.z * q.z, 2 * (q.y * q.z + q.w * q.x)⟩,
        Real.arcsin ((-2) * (q.x * q.z - q.w * q.y)),
        Complex.arg ⟨q.w * q.w + q.x * q.x - q.y * q.y - q.z * q.z, 2 * (q.x * q.y + q.w * q.z)⟩⟩ := by
      simp only [Quat.eulerAngles, Quat.pitch, Quat.yaw, Quat.roll, l0, l1, l2, F.atan2_real, F.asin_real, clamp_self hS1]
      rw [if_neg]
      intro h
      simp only [Bool.and_eq_true, beq_iff_eq] at h
      rw [h.1, h.2] at hX
      apply hs
      rw [← hX]; norm_num
    rw [hp]
    have hy := Real.cos_arcsin ((-2) * (q.x * q.z - q.w * q.y))
    have hab := abs_le.mp ((sq_le_one_iff_abs_le_one _).mp hS1)
    have hy2 := Real.sin_arcsin hab.1 hab.2
    obtain ⟨h1, h2, h3, h4, h5⟩ := euler_parts (Complex.arg ⟨q.w * q.w - q.x * q.x - q.y * q.y + q.z * q.z, 2 * (q.y * q.z + q.w * q.x)⟩)
      (Real.arcsin ((-2) * (q.x * q.z - q.w * q.y)))
      (Complex.arg ⟨q.w * q.w + q.x * q.x - q.y * q.y - q.z * q.z, 2 * (q.x * q.y + q.w * q.z)⟩)
    rw [hy] at h1 h2 h4 h5
    rw [a1] at h2
    rw [a2] at h1
    rw [hy2] at h3
    rw [b1] at h5
    rw [b2] at h4
    have hl := Quat.dot_self_of_length (C61_product (Complex.arg ⟨q.w * q.w - q.x * q.x - q.y * q.y + q.z * q.z, 2 * (q.y * q.z + q.w * q.x)⟩)
      (Real.arcsin ((-2) * (q.x * q.z - q.w * q.y)))
      (Complex.arg ⟨q.w * q.w + q.x * q.x - q.y * q.y - q.z * q.z, 2 * (q.x * q.y + q.w * q.z)⟩)).2
    exact Quat.eq_or_neg_of_mat3_cast hl hd (mat3_cast_of_parts hl hd h1 h2 h3 h4 h5 hs)

/-- Non-vacuity: the unit quaternion (1/2, 1/2, 1/2, -1/2) is in gimbal lock, its yaw is a quarter turn. -/
example : Quat.length ({ w := 1/2, x := 1/2, y := 1/2, z := -1/2 } : Quat ℝ) = 1 ∧
    Quat.yaw ({ w := 1/2, x := 1/2, y := 1/2, z := -1/2 } : Quat ℝ) = Real.pi / 2 := by
  refine ⟨Quat.length_of_dot_self (by simp [Quat.dot]; norm_num), ?_⟩
  have l1 : (lit 1 : ℝ) = 1 := by simp
  have l2 : (lit 2 : ℝ) = 2 := by simp
  have e : (-2 : ℝ) * (1/2 * (-1/2) - 1/2 * (1/2)) = 1 := by norm_num
  simp only [Quat.yaw, l1, l2, e, clamp_self (x := 1) (by norm_num), F.asin_real, Real.arcsin_one]

end Zcm
