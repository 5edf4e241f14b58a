import Verif.Lemmas.Hamilton

/-!
# Lemmas: unit quaternions and rotation matrices
-/

namespace Zcm

/-- the equations between the entries of a rotation matrix -/
structure RotEq (m : M3 ℝ) : Prop where
  n0 : m.c0.x * m.c0.x + m.c0.y * m.c0.y + m.c0.z * m.c0.z = 1
  n1 : m.c1.x * m.c1.x + m.c1.y * m.c1.y + m.c1.z * m.c1.z = 1
  n2 : m.c2.x * m.c2.x + m.c2.y * m.c2.y + m.c2.z * m.c2.z = 1
  o01 : m.c0.x * m.c1.x + m.c0.y * m.c1.y + m.c0.z * m.c1.z = 0
  o02 : m.c0.x * m.c2.x + m.c0.y * m.c2.y + m.c0.z * m.c2.z = 0
  o12 : m.c1.x * m.c2.x + m.c1.y * m.c2.y + m.c1.z * m.c2.z = 0
  r0 : m.c0.x * m.c0.x + m.c1.x * m.c1.x + m.c2.x * m.c2.x = 1
  r1 : m.c0.y * m.c0.y + m.c1.y * m.c1.y + m.c2.y * m.c2.y = 1
  r2 : m.c0.z * m.c0.z + m.c1.z * m.c1.z + m.c2.z * m.c2.z = 1
  r01 : m.c0.x * m.c0.y + m.c1.x * m.c1.y + m.c2.x * m.c2.y = 0
  r02 : m.c0.x * m.c0.z + m.c1.x * m.c1.z + m.c2.x * m.c2.z = 0
  r12 : m.c0.y * m.c0.z + m.c1.y * m.c1.z + m.c2.y * m.c2.z = 0
  f0x : m.c0.x = m.c1.y * m.c2.z - m.c1.z * m.c2.y
  f0y : m.c0.y = m.c1.z * m.c2.x - m.c1.x * m.c2.z
  f0z : m.c0.z = m.c1.x * m.c2.y - m.c1.y * m.c2.x
  f1x : m.c1.x = m.c2.y * m.c0.z - m.c2.z * m.c0.y
  f1y : m.c1.y = m.c2.z * m.c0.x - m.c2.x * m.c0.z
  f1z : m.c1.z = m.c2.x * m.c0.y - m.c2.y * m.c0.x
  f2x : m.c2.x = m.c0.y * m.c1.z - m.c0.z * m.c1.y
  f2y : m.c2.y = m.c0.z * m.c1.x - m.c0.x * m.c1.z
  f2z : m.c2.z = m.c0.x * m.c1.y - m.c0.y * m.c1.x

/-- columns orthonormal and positively oriented -/
theorem RotEq.of_frame {m : M3 ℝ}
    (n0 : m.c0.x * m.c0.x + m.c0.y * m.c0.y + m.c0.z * m.c0.z = 1)
    (n1 : m.c1.x * m.c1.x + m.c1.y * m.c1.y + m.c1.z * m.c1.z = 1)
    (n2 : m.c2.x * m.c2.x + m.c2.y * m.c2.y + m.c2.z * m.c2.z = 1)
    (o01 : m.c0.x * m.c1.x + m.c0.y * m.c1.y + m.c0.z * m.c1.z = 0)
    (o02 : m.c0.x * m.c2.x + m.c0.y * m.c2.y + m.c0.z * m.c2.z = 0)
    (o12 : m.c1.x * m.c2.x + m.c1.y * m.c2.y + m.c1.z * m.c2.z = 0)
    (hd : (toMat m).det = 1) : RotEq m := by
  have hA : (toMat m).transpose * toMat m = 1 := by
    rw [← M3.toMat_transpose, ← M3.toMat_mul, ← M3.toMat_default, M3.toMat_injective]
    ext <;> simp [M3.transpose, M3.default, M3.diag, M3.mul_c0x, M3.mul_c0y, M3.mul_c0z,
      M3.mul_c1x, M3.mul_c1y, M3.mul_c1z, M3.mul_c2x, M3.mul_c2y, M3.mul_c2z] <;> linarith
  have hB : toMat m * (toMat m).transpose = 1 := mul_eq_one_comm.1 hA
  have hC : (toMat m).adjugate = (toMat m).transpose := by
    have h1 := Matrix.adjugate_mul (toMat m)
    rw [hd, one_smul] at h1
    calc (toMat m).adjugate = (toMat m).adjugate * (toMat m * (toMat m).transpose) := by rw [hB, mul_one]
      _ = _ := by rw [← Matrix.mul_assoc, h1, one_mul]
  rw [← M3.toMat_adjugate, ← M3.toMat_transpose, M3.toMat_injective] at hC
  rw [← M3.toMat_transpose, ← M3.toMat_mul, ← M3.toMat_default, M3.toMat_injective] at hB
  have e := fun (f : M3 ℝ → ℝ) => congrArg f hB
  have b00 := e (·.c0.x)
  have b01 := e (·.c0.y)
  have b02 := e (·.c0.z)
  have b11 := e (·.c1.y)
  have b12 := e (·.c1.z)
  have b22 := e (·.c2.z)
  have g := fun (f : M3 ℝ → ℝ) => congrArg f hC
  have a00 := g (·.c0.x)
  have a01 := g (·.c0.y)
  have a02 := g (·.c0.z)
  have a10 := g (·.c1.x)
  have a11 := g (·.c1.y)
  have a12 := g (·.c1.z)
  have a20 := g (·.c2.x)
  have a21 := g (·.c2.y)
  have a22 := g (·.c2.z)
  clear e g hA hB hC hd
  simp [M3.transpose, M3.default, M3.diag, M3.mul_c0x, M3.mul_c0y, M3.mul_c0z,
      M3.mul_c1x, M3.mul_c1y, M3.mul_c1z, M3.mul_c2x, M3.mul_c2y, M3.mul_c2z] at b00 b01 b02 b11 b12 b22
  simp [M3.transpose, M3.adjugate] at a00 a01 a02 a10 a11 a12 a20 a21 a22
  constructor <;> linarith

theorem RotEq.of_rotation {m : M3 ℝ} (h : (toMat m).transpose * toMat m = 1) (hd : (toMat m).det = 1) :
    RotEq m := by
  have h' := h
  rw [← M3.toMat_transpose, ← M3.toMat_mul, ← M3.toMat_default, M3.toMat_injective] at h'
  have e := fun (f : M3 ℝ → ℝ) => congrArg f h'
  have b00 := e (·.c0.x)
  have b01 := e (·.c0.y)
  have b02 := e (·.c0.z)
  have b11 := e (·.c1.y)
  have b12 := e (·.c1.z)
  have b22 := e (·.c2.z)
  clear e h'
  simp [M3.transpose, M3.default, M3.diag, M3.mul_c0x, M3.mul_c0y, M3.mul_c0z,
      M3.mul_c1x, M3.mul_c1y, M3.mul_c1z, M3.mul_c2x, M3.mul_c2y, M3.mul_c2z] at b00 b01 b02 b11 b12 b22
  apply RotEq.of_frame _ _ _ _ _ _ hd <;> linarith

/-- recovering the quaternion from the matrix when the w component is chosen -/
theorem RotEq.castW {m : M3 ℝ} (h : RotEq m) {b k : ℝ} (hb : 4 * b * b = 1 + (m.c0.x + m.c1.y + m.c2.z))
    (hk : 4 * b * k = 1) :
    let q : Quat ℝ := ⟨(m.c1.z - m.c2.y) * k, (m.c2.x - m.c0.z) * k, (m.c0.y - m.c1.x) * k, b⟩
    Quat.dot q q = 1 ∧ Quat.mat3_cast q = m := by
  obtain ⟨⟨a, b', c⟩, ⟨d, e, f⟩, ⟨g, i, j⟩⟩ := m
  obtain ⟨h1, h2, h3, h4, h5, h6, h7, h8, h9, h10, h11, h12, h13, h14, h15, h16, h17, h18, h19, h20, h21⟩ := h
  have hk2 : k * k * (4 * (1 + (a + e + j))) = 1 := by
    simp only at hb
    have : (4 * b * k) * (4 * b * k) = 1 := by rw [hk]; norm_num
    linear_combination this - 4 * k * k * hb
  have hbk : b * k = 1 / 4 := by linarith
  simp only at *
  refine ⟨?_, ?_⟩
  · simp only [Quat.dot]; grind
  · ext <;> simp [Quat.mat3_cast] <;> grind

/-- recovering the quaternion from the matrix when the x component is chosen -/
theorem RotEq.castX {m : M3 ℝ} (h : RotEq m) {b k : ℝ} (hb : 4 * b * b = 1 + (m.c0.x - m.c1.y - m.c2.z))
    (hk : 4 * b * k = 1) :
    let q : Quat ℝ := ⟨b, (m.c0.y + m.c1.x) * k, (m.c2.x + m.c0.z) * k, (m.c1.z - m.c2.y) * k⟩
    Quat.dot q q = 1 ∧ Quat.mat3_cast q = m := by
  obtain ⟨⟨a, b', c⟩, ⟨d, e, f⟩, ⟨g, i, j⟩⟩ := m
  obtain ⟨h1, h2, h3, h4, h5, h6, h7, h8, h9, h10, h11, h12, h13, h14, h15, h16, h17, h18, h19, h20, h21⟩ := h
  have hk2 : k * k * (4 * (1 + (a - e - j))) = 1 := by
    simp only at hb
    have : (4 * b * k) * (4 * b * k) = 1 := by rw [hk]; norm_num
    linear_combination this - 4 * k * k * hb
  have hbk : b * k = 1 / 4 := by linarith
  simp only at *
  refine ⟨?_, ?_⟩
  · simp only [Quat.dot]; grind
  · ext <;> simp [Quat.mat3_cast] <;> grind

/-- recovering the quaternion from the matrix when the y component is chosen -/
theorem RotEq.castY {m : M3 ℝ} (h : RotEq m) {b k : ℝ} (hb : 4 * b * b = 1 + (m.c1.y - m.c0.x - m.c2.z))
    (hk : 4 * b * k = 1) :
    let q : Quat ℝ := ⟨(m.c0.y + m.c1.x) * k, b, (m.c1.z + m.c2.y) * k, (m.c2.x - m.c0.z) * k⟩
    Quat.dot q q = 1 ∧ Quat.mat3_cast q = m := by
  obtain ⟨⟨a, b', c⟩, ⟨d, e, f⟩, ⟨g, i, j⟩⟩ := m
  obtain ⟨h1, h2, h3, h4, h5, h6, h7, h8, h9, h10, h11, h12, h13, h14, h15, h16, h17, h18, h19, h20, h21⟩ := h
  have hk2 : k * k * (4 * (1 + (e - a - j))) = 1 := by
    simp only at hb
    have : (4 * b * k) * (4 * b * k) = 1 := by rw [hk]; norm_num
    linear_combination this - 4 * k * k * hb
  have hbk : b * k = 1 / 4 := by linarith
  simp only at *
  refine ⟨?_, ?_⟩
  · simp only [Quat.dot]; grind
  · ext <;> simp [Quat.mat3_cast] <;> grind

/-- recovering the quaternion from the matrix when the z component is chosen -/
theorem RotEq.castZ {m : M3 ℝ} (h : RotEq m) {b k : ℝ} (hb : 4 * b * b = 1 + (m.c2.z - m.c0.x - m.c1.y))
    (hk : 4 * b * k = 1) :
    let q : Quat ℝ := ⟨(m.c2.x + m.c0.z) * k, (m.c1.z + m.c2.y) * k, b, (m.c0.y - m.c1.x) * k⟩
    Quat.dot q q = 1 ∧ Quat.mat3_cast q = m := by
  obtain ⟨⟨a, b', c⟩, ⟨d, e, f⟩, ⟨g, i, j⟩⟩ := m
  obtain ⟨h1, h2, h3, h4, h5, h6, h7, h8, h9, h10, h11, h12, h13, h14, h15, h16, h17, h18, h19, h20, h21⟩ := h
  have hk2 : k * k * (4 * (1 + (j - a - e))) = 1 := by
    simp only at hb
    have : (4 * b * k) * (4 * b * k) = 1 := by rw [hk]; norm_num
    linear_combination this - 4 * k * k * hb
  have hbk : b * k = 1 / 4 := by linarith
  simp only at *
  refine ⟨?_, ?_⟩
  · simp only [Quat.dot]; grind
  · ext <;> simp [Quat.mat3_cast] <;> grind

theorem sum_sq_zero {a b c d : ℝ} (h : a ^ 2 + b ^ 2 + c ^ 2 + d ^ 2 = 0) : a = 0 ∧ b = 0 ∧ c = 0 ∧ d = 0 := by
  have ha := sq_nonneg a
  have hb := sq_nonneg b
  have hc := sq_nonneg c
  have hd := sq_nonneg d
  refine ⟨?_, ?_, ?_, ?_⟩ <;> refine pow_eq_zero_iff (two_ne_zero) |>.1 ?_ <;> linarith

/-- unit quaternions with the same matrix are equal up to sign -/
theorem Quat.eq_or_neg_of_mat3_cast {p q : Quat ℝ} (hp : Quat.dot p p = 1) (hq : Quat.dot q q = 1)
    (h : Quat.mat3_cast p = Quat.mat3_cast q) : p = q ∨ p = -q := by
  have e := fun (f : M3 ℝ → ℝ) => congrArg f h
  have b00 := e (·.c0.x)
  have b01 := e (·.c0.y)
  have b02 := e (·.c0.z)
  have b10 := e (·.c1.x)
  have b11 := e (·.c1.y)
  have b12 := e (·.c1.z)
  have b20 := e (·.c2.x)
  have b21 := e (·.c2.y)
  have b22 := e (·.c2.z)
  clear e
  simp [Quat.mat3_cast] at b00 b01 b02 b10 b11 b12 b20 b21 b22
  simp only [Quat.dot] at hp hq
  have key : (Quat.dot p q - 1) * (Quat.dot p q + 1) = 0 := by
    have xy : p.x * p.y = q.x * q.y := by linarith
    have xz : p.x * p.z = q.x * q.z := by linarith
    have yz : p.y * p.z = q.y * q.z := by linarith
    have wx : p.w * p.x = q.w * q.x := by linarith
    have wy : p.w * p.y = q.w * q.y := by linarith
    have wz : p.w * p.z = q.w * q.z := by linarith
    have xx : p.x * p.x = q.x * q.x := by linarith
    have yy : p.y * p.y = q.y * q.y := by linarith
    have zz : p.z * p.z = q.z * q.z := by linarith
    have ww : p.w * p.w = q.w * q.w := by linarith
    simp only [Quat.dot]
    grind
  rcases mul_eq_zero.1 key with h1 | h1
  · left
    simp only [Quat.dot] at h1
    have : (p.x - q.x) ^ 2 + (p.y - q.y) ^ 2 + (p.z - q.z) ^ 2 + (p.w - q.w) ^ 2 = 0 := by
      linear_combination hp + hq - 2 * h1
    obtain ⟨h1, h2, h3, h4⟩ := sum_sq_zero this
    ext <;> linarith
  · right
    simp only [Quat.dot] at h1
    have : (p.x + q.x) ^ 2 + (p.y + q.y) ^ 2 + (p.z + q.z) ^ 2 + (p.w + q.w) ^ 2 = 0 := by
      linear_combination hp + hq + 2 * h1
    obtain ⟨h1, h2, h3, h4⟩ := sum_sq_zero this
    ext <;> simp <;> linarith

/-- the matrix of a unit quaternion is a rotation -/
theorem RotEq.mat3_cast {q : Quat ℝ} (h : Quat.dot q q = 1) : RotEq (Quat.mat3_cast q) := by
  simp only [Quat.dot] at h
  constructor <;> simp [Quat.mat3_cast] <;> grind

/-- the selected component and its divisor -/
theorem biggest_real {t : ℝ} (h : 0 ≤ t) :
    let b : ℝ := F.sqrt (t + lit 1) * lit 0.5
    1 / 2 ≤ b ∧ 4 * b * b = 1 + t ∧ 4 * b * (lit 0.25 / b) = 1 := by
  simp only [F.sqrt_real, lit_real]
  push_cast
  have h1 : 1 ≤ √(t + 1) := Real.one_le_sqrt.2 (by linarith)
  have h2 := Real.mul_self_sqrt (show 0 ≤ t + 1 by linarith)
  refine ⟨by linarith, by linear_combination h2, ?_⟩
  field_simp
  norm_num

/-- `quat_cast` of a rotation matrix is a unit quaternion with that matrix; its selected component is
at least 1/2 -/
theorem RotEq.quat_cast {m : M3 ℝ} (h : RotEq m) :
    Quat.dot (M3.quat_cast m) (M3.quat_cast m) = 1 ∧ Quat.mat3_cast (M3.quat_cast m) = m ∧
    ∃ i, 1 / 2 ≤ coord (M3.quat_cast m) i := by
  simp only [M3.quat_cast]
  split_ifs with h1 h2 h3 h3 h2 h3 h3 <;> simp only at h1 h2 h3 ⊢
  · have hb := biggest_real (t := m.c2.z - m.c0.x - m.c1.y) (by linarith)
    exact ⟨(h.castZ hb.2.1 hb.2.2).1, (h.castZ hb.2.1 hb.2.2).2, 2, hb.1⟩
  · have hb := biggest_real (t := m.c1.y - m.c0.x - m.c2.z) (by linarith)
    exact ⟨(h.castY hb.2.1 hb.2.2).1, (h.castY hb.2.1 hb.2.2).2, 1, hb.1⟩
  · have hb := biggest_real (t := m.c2.z - m.c0.x - m.c1.y) (by linarith)
    exact ⟨(h.castZ hb.2.1 hb.2.2).1, (h.castZ hb.2.1 hb.2.2).2, 2, hb.1⟩
  · have hb := biggest_real (t := m.c0.x - m.c1.y - m.c2.z) (by linarith)
    exact ⟨(h.castX hb.2.1 hb.2.2).1, (h.castX hb.2.1 hb.2.2).2, 0, hb.1⟩
  · have hb := biggest_real (t := m.c2.z - m.c0.x - m.c1.y) (by linarith)
    exact ⟨(h.castZ hb.2.1 hb.2.2).1, (h.castZ hb.2.1 hb.2.2).2, 2, hb.1⟩
  · have hb := biggest_real (t := m.c1.y - m.c0.x - m.c2.z) (by linarith)
    exact ⟨(h.castY hb.2.1 hb.2.2).1, (h.castY hb.2.1 hb.2.2).2, 1, hb.1⟩
  · have hb := biggest_real (t := m.c2.z - m.c0.x - m.c1.y) (by linarith)
    exact ⟨(h.castZ hb.2.1 hb.2.2).1, (h.castZ hb.2.1 hb.2.2).2, 2, hb.1⟩
  · have hb := biggest_real (t := m.c0.x + m.c1.y + m.c2.z) (by linarith)
    exact ⟨(h.castW hb.2.1 hb.2.2).1, (h.castW hb.2.1 hb.2.2).2, 3, hb.1⟩

end Zcm
