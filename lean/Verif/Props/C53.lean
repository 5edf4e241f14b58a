import Verif.Lemmas.Decompose

/-!
# C53: `decompose_orthogonal` inverts composition

Exact arithmetic.  `decompose_orthogonal(M, scale, orientation, translation)` is modelled as a
function returning the triple (scale, orientation, translation); `o0` is the previous value of the
orientation argument.
-/

namespace Zcm

/-- the upper three numbers of column `c` -/
def column3 (M : M4 ℝ) (c : Fin 4) : V3 ℝ := ⟨entry M c 0, entry M c 1, entry M c 2⟩

/-- C53: a matrix whose upper 3x3 columns are non-zero and mutually orthogonal is recomposed from the
parts returned (the bottom row is not looked at: with bottom row (0,0,0,1) the whole matrix is
recovered, in general its upper three rows).  The orientation is a unit quaternion, and the scale
factors are all positive or all negative. -/
theorem C53_recompose (M : M4 ℝ) (o0 : Quat ℝ)
    (h0 : ∃ i, coord (column3 M 0) i ≠ 0) (h1 : ∃ i, coord (column3 M 1) i ≠ 0)
    (h2 : ∃ i, coord (column3 M 2) i ≠ 0)
    (h01 : V3.dot (column3 M 0) (column3 M 1) = 0) (h02 : V3.dot (column3 M 0) (column3 M 2) = 0)
    (h12 : V3.dot (column3 M 1) (column3 M 2) = 0) :
    ∃ (s : V3 ℝ) (q : Quat ℝ) (t : V3 ℝ), M4.decompose_orthogonal M o0 = (s, q, t) ∧
      Quat.length q = 1 ∧
      ((∀ i, 0 < coord s i) ∨ (∀ i, coord s i < 0)) ∧
      (∀ c, column3 (M4.translate M4.default t * Quat.mat4_cast q * M4.scale M4.default s) c = column3 M c) ∧
      ((∀ c, entry M c 3 = if c = 3 then 1 else 0) →
        M4.translate M4.default t * Quat.mat4_cast q * M4.scale M4.default s = M) := by
  have e0 : column3 M 0 = M4.up3 M.c0 := rfl
  have e1 : column3 M 1 = M4.up3 M.c1 := rfl
  have e2 : column3 M 2 = M4.up3 M.c2 := rfl
  have e3 : column3 M 3 = M4.up3 M.c3 := rfl
  -- it is enough to find the parts of the four columns
  suffices H : ∃ (s : V3 ℝ) (q : Quat ℝ), M4.decompose_orthogonal M o0 = (s, q, column3 M 3) ∧
      Quat.dot q q = 1 ∧ ((∀ i, 0 < coord s i) ∨ (∀ i, coord s i < 0)) ∧
      s.x * (Quat.mat3_cast q).c0 = column3 M 0 ∧ s.y * (Quat.mat3_cast q).c1 = column3 M 1 ∧
      s.z * (Quat.mat3_cast q).c2 = column3 M 2 by
    obtain ⟨s, q, hd, hq, hs, k0, k1, k2⟩ := H
    refine ⟨s, q, _, hd, Quat.length_of_dot_self hq, hs, ?_, ?_⟩
    · rw [compose_eq, k0, k1, k2]
      intro c
      fin_cases c <;> simp [column3]
    · intro hb
      rw [compose_eq, k0, k1, k2]
      have b0 : M.c0.w = 0 := hb 0
      have b1 : M.c1.w = 0 := hb 1
      have b2 : M.c2.w = 0 := hb 2
      have b3 : M.c3.w = 1 := hb 3
      ext <;> simp [e0, e1, e2, e3, M4.up3, b0, b1, b2, b3]
  rw [M4.decompose_eq, e0, e1, e2, e3]
  rw [e0] at h0 h01 h02
  rw [e1] at h1 h01 h12
  rw [e2] at h2 h02 h12
  generalize M4.up3 M.c0 = a at *
  generalize M4.up3 M.c1 = b at *
  generalize M4.up3 M.c2 = c at *
  obtain ⟨p0, u0, d0⟩ := V3.div_length h0
  obtain ⟨p1, u1, d1⟩ := V3.div_length h1
  obtain ⟨p2, u2, d2⟩ := V3.div_length h2
  generalize a / V3.length a = r0 at *
  generalize b / V3.length b = r1 at *
  generalize c / V3.length c = r2 at *
  generalize V3.length a = l0 at *
  generalize V3.length b = l1 at *
  generalize V3.length c = l2 at *
  subst d0 d1 d2
  have orth : ∀ {l m : ℝ} {u v : V3 ℝ}, 0 < l → 0 < m → V3.dot (l * u) (m * v) = 0 → V3.dot u v = 0 := by
    intro l m u v hl hm h
    have : l * m * V3.dot u v = 0 := by
      rw [← h]; simp [V3.dot]; ring
    rcases mul_eq_zero.1 this with h' | h'
    · exact absurd h' (mul_pos hl hm).ne'
    · exact h'
  have o01 := orth p0 p1 h01
  have o02 := orth p0 p2 h02
  have o12 := orth p1 p2 h12
  have hdet : (V3.dot r0 (V3.cross r1 r2) - 1) * (V3.dot r0 (V3.cross r1 r2) + 1) = 0 := by
    have hA : (toMat (⟨r0, r1, r2⟩ : M3 ℝ)).transpose * toMat (⟨r0, r1, r2⟩ : M3 ℝ) = 1 := by
      rw [← M3.toMat_transpose, ← M3.toMat_mul, ← M3.toMat_default, M3.toMat_injective]
      simp only [V3.dot] at u0 u1 u2 o01 o02 o12
      ext <;> simp [M3.transpose, M3.default, M3.diag, M3.mul_c0x, M3.mul_c0y, M3.mul_c0z,
        M3.mul_c1x, M3.mul_c1y, M3.mul_c1z, M3.mul_c2x, M3.mul_c2y, M3.mul_c2z] <;> linarith
    have hB := congrArg Matrix.det hA
    rw [Matrix.det_mul, Matrix.det_transpose, Matrix.det_one, M3.det_toMat] at hB
    have : M3.determinant (⟨r0, r1, r2⟩ : M3 ℝ) = V3.dot r0 (V3.cross r1 r2) := by
      simp [M3.determinant, V3.dot]; ring
    rw [this] at hB
    linear_combination hB
  split_ifs with hneg
  · have hd1 : V3.dot r0 (V3.cross r1 r2) = -1 := by
      rcases mul_eq_zero.1 hdet with h | h <;> linarith
    have hrot : RotEq (⟨-r0, -r1, -r2⟩ : M3 ℝ) := by
      simp only [V3.dot, V3.cross_x, V3.cross_y, V3.cross_z] at u0 u1 u2 o01 o02 o12 hd1
      apply RotEq.of_frame
      · simp; linarith
      · simp; linarith
      · simp; linarith
      · simp; linarith
      · simp; linarith
      · simp; linarith
      · rw [M3.det_toMat]; simp [M3.determinant]; linear_combination -hd1
    obtain ⟨hq, hm⟩ := hrot.orientOf o0
    refine ⟨_, _, rfl, hq, Or.inr ?_, ?_, ?_, ?_⟩
    · intro i; fin_cases i <;> simpa
    · rw [hm]; ext <;> simp
    · rw [hm]; ext <;> simp
    · rw [hm]; ext <;> simp
  · have hd1 : V3.dot r0 (V3.cross r1 r2) = 1 := by
      rcases mul_eq_zero.1 hdet with h | h <;> linarith
    have hrot : RotEq (⟨r0, r1, r2⟩ : M3 ℝ) := by
      simp only [V3.dot, V3.cross_x, V3.cross_y, V3.cross_z] at u0 u1 u2 o01 o02 o12 hd1
      apply RotEq.of_frame u0 u1 u2 o01 o02 o12
      rw [M3.det_toMat]; simp [M3.determinant]; linear_combination hd1
    obtain ⟨hq, hm⟩ := hrot.orientOf o0
    refine ⟨_, _, rfl, hq, Or.inl ?_, ?_, ?_, ?_⟩
    · intro i; fin_cases i <;> simpa
    · rw [hm]
    · rw [hm]
    · rw [hm]

/-- C53: decomposing `T(t) R(q) S(s)` with unit `q` and positive scale factors gives back `s` and `t`,
and `q` up to sign. -/
theorem C53_parts (t s : V3 ℝ) (q o0 : Quat ℝ) (hq : Quat.length q = 1) (hs : ∀ i, 0 < coord s i) :
    let M := M4.translate M4.default t * Quat.mat4_cast q * M4.scale M4.default s
    M4.decompose_orthogonal M o0 = (s, q, t) ∨ M4.decompose_orthogonal M o0 = (s, -q, t) := by
  intro M
  have hq' := Quat.dot_self_of_length hq
  have hr := RotEq.mat3_cast hq'
  have sx : 0 < s.x := hs 0
  have sy : 0 < s.y := hs 1
  have sz : 0 < s.z := hs 2
  have len : ∀ {l : ℝ} {u : V3 ℝ}, 0 < l → V3.dot u u = 1 → V3.length (l * u) = l ∧ (l * u) / l = u := by
    intro l u hl hu
    constructor
    · rw [V3.length_eq_norm, V3.eu_smul, norm_smul, ← V3.length_eq_norm, V3.length_of_dot_self hu,
        Real.norm_of_nonneg hl.le, mul_one]
    · ext <;> simp <;> field_simp
  have key : M4.decompose_orthogonal M o0 = (s, orientOf (Quat.mat3_cast q) o0, t) := by
    rw [M4.decompose_eq]
    simp only [M, compose_eq]
    have k : ∀ (p : V3 ℝ) (w : ℝ), M4.up3 (hom p w) = p := fun _ _ => rfl
    simp only [k]
    rw [(len sx hr.n0).1, (len sy hr.n1).1, (len sz hr.n2).1, (len sx hr.n0).2, (len sy hr.n1).2,
      (len sz hr.n2).2, if_neg]
    have f0 := hr.f0x
    have f1 := hr.f0y
    have f2 := hr.f0z
    have n0 := hr.n0
    have : V3.dot (Quat.mat3_cast q).c0 (V3.cross (Quat.mat3_cast q).c1 (Quat.mat3_cast q).c2) = 1 := by
      simp only [V3.dot, V3.cross_x, V3.cross_y, V3.cross_z]
      rw [← f0]
      linear_combination n0 - (Quat.mat3_cast q).c0.y * f1 - (Quat.mat3_cast q).c0.z * f2
    rw [this]; norm_num
  obtain ⟨ho, hm⟩ := hr.orientOf o0
  rcases Quat.eq_or_neg_of_mat3_cast ho hq' hm with h | h
  · left; rw [key, h]
  · right; rw [key, h]

/-- Non-vacuity: a mirroring diagonal matrix with translation meets the hypotheses of
`C53_recompose`. -/
example :
    let M : M4 ℝ := ⟨⟨2, 0, 0, 0⟩, ⟨0, -3, 0, 0⟩, ⟨0, 0, 4, 0⟩, ⟨5, 6, 7, 1⟩⟩
    (∃ i, coord (column3 M 0) i ≠ 0) ∧ (∃ i, coord (column3 M 1) i ≠ 0) ∧
    (∃ i, coord (column3 M 2) i ≠ 0) ∧ V3.dot (column3 M 0) (column3 M 1) = 0 ∧
    V3.dot (column3 M 0) (column3 M 2) = 0 ∧ V3.dot (column3 M 1) (column3 M 2) = 0 := by
  refine ⟨⟨0, ?_⟩, ⟨1, ?_⟩, ⟨2, ?_⟩, ?_, ?_, ?_⟩ <;> simp [column3, V3.dot]

/-- Non-vacuity of `C53_parts`. -/
example : Quat.length (Quat.wxyz (3/5) 0 0 (4/5) : Quat ℝ) = 1 ∧ ∀ i, 0 < coord (⟨1, 2, 3⟩ : V3 ℝ) i := by
  refine ⟨Quat.length_of_dot_self (by simp [Quat.dot]; norm_num), ?_⟩
  intro i; fin_cases i <;> simp

end Zcm
