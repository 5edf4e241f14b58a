import Verif.Lemmas.Rotate

/-!
# C50: lookAt builds a rigid view transform

Exact arithmetic.  Non-degenerate means that `center - eye` and `up` are not parallel, i.e. their
cross product is not zero (this includes `center ≠ eye`).
-/

namespace Zcm

theorem V3.ne_of_cross_ne {a b : V3 ℝ} (h : ∃ i, coord (V3.cross a b) i ≠ 0) : ∃ i, coord a i ≠ 0 := by
  by_contra hc
  push Not at hc
  have h0 : a.x = 0 := hc 0
  have h1 : a.y = 0 := hc 1
  have h2 : a.z = 0 := hc 2
  obtain ⟨i, hi⟩ := h
  apply hi
  fin_cases i <;> simp [h0, h1, h2]

/-- the view frame: `center = eye + d f`, `cross f up = l s`, with `f`, `s` orthonormal -/
theorem frame {eye center up : V3 ℝ} (h : ∃ i, coord (V3.cross (center - eye) up) i ≠ 0) :
    ∃ (f s : V3 ℝ) (d l : ℝ), V3.normalize (center - eye) = f ∧ V3.normalize (V3.cross f up) = s ∧
      V3.normalize (V3.cross up f) = -s ∧
      0 < d ∧ 0 < l ∧ V3.dot f f = 1 ∧ V3.dot s s = 1 ∧ V3.dot s f = 0 ∧
      center = eye + d * f ∧ V3.distance eye center = d ∧ V3.cross f up = l * s := by
  have hf := V3.ne_of_cross_ne h
  have e1 := V3.eq_length_mul hf
  have d0 : 0 < V3.length (center - eye) := by rw [V3.length_eq_norm]; exact V3.norm_pos hf
  have f1 := V3.dot_self_of_length (V3.length_normalize hf)
  have hd : V3.distance eye center = V3.length (center - eye) := by
    rw [V3.distance, V3.length_eq_norm, V3.length_eq_norm, V3.eu_sub, V3.eu_sub, norm_sub_rev]
  have hc : center = eye + (center - eye) := by ext <;> simp
  generalize V3.normalize (center - eye) = f at *
  generalize V3.length (center - eye) = d at *
  rw [e1] at hc
  have hs : ∃ i, coord (V3.cross f up) i ≠ 0 := by
    obtain ⟨i, hi⟩ := h
    rw [e1] at hi
    refine ⟨i, fun h0 => hi ?_⟩
    have : V3.cross (d * f) up = d * V3.cross f up := by ext <;> simp <;> ring
    rw [this]
    fin_cases i <;> simp at h0 <;> simp [h0]
  have e2 := V3.eq_length_mul hs
  have l0 : 0 < V3.length (V3.cross f up) := by rw [V3.length_eq_norm]; exact V3.norm_pos hs
  have s1 := V3.dot_self_of_length (V3.length_normalize hs)
  have hn : V3.normalize (V3.cross up f) = -V3.normalize (V3.cross f up) := by
    have : V3.cross up f = -V3.cross f up := by ext <;> simp <;> ring
    rw [this, ← V3.eu_injective, V3.eu_normalize, V3.eu_neg, V3.eu_neg, V3.eu_normalize, norm_neg, smul_neg]
  refine ⟨f, V3.normalize (V3.cross f up), d, V3.length (V3.cross f up), rfl, rfl, hn, d0, l0, f1, s1,
    ?_, hc, hd, e2⟩
  have : V3.length (V3.cross f up) * V3.dot (V3.normalize (V3.cross f up)) f = 0 := by
    have h1 : V3.dot (V3.length (V3.cross f up) * V3.normalize (V3.cross f up)) f =
      V3.length (V3.cross f up) * V3.dot (V3.normalize (V3.cross f up)) f := by
      simp [V3.dot]; ring
    rw [← h1, ← e2]; simp [V3.dot]; ring
  rcases mul_eq_zero.1 this with h | h
  · exact absurd h l0.ne'
  · exact h

/-- C50 for `lookAtRH`. -/
theorem C50_RH (eye center up : V3 ℝ) (h : ∃ i, coord (V3.cross (center - eye) up) i ≠ 0) :
    let M := M4.lookAtRH eye center up
    M * hom eye 1 = hom ⟨0, 0, 0⟩ 1 ∧
    M * hom center 1 = hom ⟨0, 0, -V3.distance eye center⟩ 1 ∧
    (∃ y z : ℝ, 0 < y ∧ M * hom up 0 = hom ⟨0, y, z⟩ 0) ∧
    M3.transpose (M4.toMat3 M) * M4.toMat3 M = M3.default ∧
    M3.determinant (M4.toMat3 M) = 1 ∧
    (∀ (p : V3 ℝ) (w : ℝ), M * hom p w = hom (M4.toMat3 M * (p - w * eye)) w) := by
  obtain ⟨f, s, d, l, hf, hs, -, d0, l0, f1, s1, sf, hc, hd, hl⟩ := frame h
  have hM : M4.lookAtRH eye center up = ⟨⟨s.x, (V3.cross s f).x, -f.x, 0⟩, ⟨s.y, (V3.cross s f).y, -f.y, 0⟩,
      ⟨s.z, (V3.cross s f).z, -f.z, 0⟩,
      ⟨-V3.dot s eye, -V3.dot (V3.cross s f) eye, V3.dot f eye, 1⟩⟩ := by
    simp only [M4.lookAtRH, hf, hs, M4.diag_real]
    simp
  have hlx := congrArg V3.x hl
  have hly := congrArg V3.y hl
  have hlz := congrArg V3.z hl
  simp only [hM, hd]
  subst hc
  simp [V3.dot] at hlx hly hlz f1 s1 sf
  refine ⟨?_, ?_, ⟨l, -V3.dot f up, l0, ?_⟩, ?_, ?_, ?_⟩
  · simp only [M4.mulV_cols]
    ext <;> simp [V3.dot] <;> ring
  · simp only [M4.mulV_cols]
    ext <;> simp [V3.dot] <;> grind
  · have hs0 : l * (s.x * up.x + s.y * up.y + s.z * up.z) = 0 := by grind
    have hs1 : s.x * up.x + s.y * up.y + s.z * up.z = 0 := by
      rcases mul_eq_zero.1 hs0 with h | h
      · exact absurd h l0.ne'
      · exact h
    simp only [M4.mulV_cols]
    ext <;> simp [V3.dot]
    · linarith
    · have : l = l * (s.x * s.x + s.y * s.y + s.z * s.z) := by rw [s1, mul_one]
      grind
    · ring
  · ext <;> simp [M3.mul_c0x, M3.mul_c0y, M3.mul_c0z, M3.mul_c1x, M3.mul_c1y, M3.mul_c1z, M3.mul_c2x,
      M3.mul_c2y, M3.mul_c2z, M3.transpose, M4.toMat3, M3.default, M3.diag] <;> grind
  · simp [M4.toMat3, M3.determinant]; grind
  · intro p w
    simp only [M4.mulV_cols]
    ext <;> simp [V3.dot, M3.mulV_x, M3.mulV_y, M3.mulV_z, M4.toMat3] <;> ring

/-- C50 for `lookAtLH`. -/
theorem C50_LH (eye center up : V3 ℝ) (h : ∃ i, coord (V3.cross (center - eye) up) i ≠ 0) :
    let M := M4.lookAtLH eye center up
    M * hom eye 1 = hom ⟨0, 0, 0⟩ 1 ∧
    M * hom center 1 = hom ⟨0, 0, V3.distance eye center⟩ 1 ∧
    (∃ y z : ℝ, 0 < y ∧ M * hom up 0 = hom ⟨0, y, z⟩ 0) ∧
    M3.transpose (M4.toMat3 M) * M4.toMat3 M = M3.default ∧
    M3.determinant (M4.toMat3 M) = 1 ∧
    (∀ (p : V3 ℝ) (w : ℝ), M * hom p w = hom (M4.toMat3 M * (p - w * eye)) w) := by
  obtain ⟨f, s, d, l, hf, -, hs, d0, l0, f1, s1, sf, hc, hd, hl⟩ := frame h
  have hM : M4.lookAtLH eye center up = ⟨⟨-s.x, (V3.cross s f).x, f.x, 0⟩, ⟨-s.y, (V3.cross s f).y, f.y, 0⟩,
      ⟨-s.z, (V3.cross s f).z, f.z, 0⟩,
      ⟨V3.dot s eye, -V3.dot (V3.cross s f) eye, -V3.dot f eye, 1⟩⟩ := by
    simp only [M4.lookAtLH, hf, hs, M4.diag_real]
    have : V3.cross f (-s) = V3.cross s f := by ext <;> simp <;> ring
    rw [this]
    simp [V3.dot]; ring
  have hlx := congrArg V3.x hl
  have hly := congrArg V3.y hl
  have hlz := congrArg V3.z hl
  simp only [hM, hd]
  subst hc
  simp [V3.dot] at hlx hly hlz f1 s1 sf
  refine ⟨?_, ?_, ⟨l, V3.dot f up, l0, ?_⟩, ?_, ?_, ?_⟩
  · simp only [M4.mulV_cols]
    ext <;> simp [V3.dot] <;> ring
  · simp only [M4.mulV_cols]
    ext <;> simp [V3.dot] <;> grind
  · have hs0 : l * (s.x * up.x + s.y * up.y + s.z * up.z) = 0 := by grind
    have hs1 : s.x * up.x + s.y * up.y + s.z * up.z = 0 := by
      rcases mul_eq_zero.1 hs0 with h | h
      · exact absurd h l0.ne'
      · exact h
    simp only [M4.mulV_cols]
    ext <;> simp [V3.dot]
    · linarith
    · have : l = l * (s.x * s.x + s.y * s.y + s.z * s.z) := by rw [s1, mul_one]
      grind
  · ext <;> simp [M3.mul_c0x, M3.mul_c0y, M3.mul_c0z, M3.mul_c1x, M3.mul_c1y, M3.mul_c1z, M3.mul_c2x,
      M3.mul_c2y, M3.mul_c2z, M3.transpose, M4.toMat3, M3.default, M3.diag] <;> grind
  · simp [M4.toMat3, M3.determinant]; grind
  · intro p w
    simp only [M4.mulV_cols]
    ext <;> simp [V3.dot, M3.mulV_x, M3.mulV_y, M3.mulV_z, M4.toMat3] <;> ring

/-- Non-vacuity: a non-degenerate camera whose `up` is not orthogonal to the view direction. -/
example : ∃ i, coord (V3.cross ((⟨1, 2, 3⟩ : V3 ℝ) - ⟨1, 1, 1⟩) ⟨0, 1, 0⟩) i ≠ 0 :=
  ⟨0, by simp; norm_num⟩

end Zcm
