import Verif.Lemmas.Affine

/-!
# C52: perspective projections map the frustum to the clip volume

Exact arithmetic.  The assertion of the perspective functions is `abs(aspect - epsilon) > 0`, so a
debug build stops for the single positive aspect ratio `2⁻²³`; it was probably meant to stop for
(nearly) zero aspects, which it lets through.
-/

namespace Zcm

theorem tan_half_pos {fovy : ℝ} (h0 : 0 < fovy) (h1 : fovy < Real.pi) : 0 < Real.tan (fovy / 2) :=
  Real.tan_pos_of_pos_of_lt_pi_div_two (by linarith) (by linarith)

theorem persp_assert {b : Build} {aspect : ℝ} (ha : b = .release ∨ aspect ≠ 1 / 8388608) :
    cassert b (decide (F.abs (aspect - (epsilonf : ℝ)) > lit 0)) = .ok () := by
  rcases ha with rfl | ha
  · rfl
  · have h : F.abs (aspect - (epsilonf : ℝ)) > lit 0 := by
      simp only [F.abs_real, epsilonf, lit_real, gt_iff_lt]
      push_cast
      exact abs_pos.2 (sub_ne_zero.2 ha)
    rw [decide_eq_true h]
    cases b <;> rfl

/-- the depth order is preserved by `d ↦ A - B / d` with `B > 0` -/
theorem depth_mono {A B d e : ℝ} (hB : 0 < B) (hd : 0 < d) : d < e → A - B / d < A - B / e := by
  intro h
  have := div_lt_div_of_pos_left hB hd h
  linarith

/-- C52 for `perspectiveRH_ZO`, for every build and aspect except the aspect `2⁻²³` in a debug
build (missing there: `C52_assert_false`).  `p` is the point before, `q` after the projection; the
distance of `p` along the view direction is `-p.z`. -/
theorem C52_RH_ZO_partial (b : Build) (fovy aspect zNear zFar : ℝ) (hf0 : 0 < fovy) (hf1 : fovy < Real.pi)
    (ha : 0 < aspect) (hn : 0 < zNear) (hfar : zNear < zFar)
    (hb : b = .release ∨ aspect ≠ 1 / 8388608) :
    ∃ M : M4 ℝ, M4.perspectiveRH_ZO b fovy aspect zNear zFar = .ok M ∧
      ∀ p q : V3 ℝ, ∀ w : ℝ, 0 < (-p.z) → M * hom p 1 = hom q w →
        w = (-p.z) ∧
        -- the frustum planes given by fovy and aspect go to ±1
        q.x / w = p.x / ((-p.z) * (aspect * Real.tan (fovy / 2))) ∧
        q.y / w = p.y / ((-p.z) * Real.tan (fovy / 2)) ∧
        -- depth: zNear goes to 0, zFar to 1
        q.z / w = zFar * ((-p.z) - zNear) / ((-p.z) * (zFar - zNear)) ∧
        ((-p.z) = zNear → q.z / w = 0) ∧ ((-p.z) = zFar → q.z / w = 1) ∧
        (zNear ≤ (-p.z) ∧ (-p.z) ≤ zFar ↔ 0 ≤ q.z / w ∧ q.z / w ≤ 1) ∧
        -- depth order is preserved
        (∀ p' q' : V3 ℝ, ∀ w' : ℝ, M * hom p' 1 = hom q' w' → (-p.z) < (-p'.z) →
          q.z / w < q'.z / w') := by
  have ht := tan_half_pos hf0 hf1
  simp only [M4.perspectiveRH_ZO, persp_assert hb, Res.ok_bind, Res.pure_eq]
  simp only [F.tan_real, lit_real, M4.diag_real]
  refine ⟨_, rfl, ?_⟩
  have h2 : fovy * (((0.5 : ℚ) : ℝ)) = fovy / 2 := by push_cast; ring
  rw [h2]
  generalize Real.tan (fovy / 2) = t at *
  have hnf : 0 < zFar - zNear := by linarith
  have hfn : zNear - zFar ≠ 0 := by linarith
  have hzf : 0 < zFar := by linarith
  have key : ∀ p q : V3 ℝ, ∀ w : ℝ, 0 < (-p.z) → (⟨⟨((1:ℚ):ℝ) / (aspect * t), 0, 0, 0⟩, ⟨0, ((1:ℚ):ℝ) / t, 0, 0⟩, ⟨0, 0, zFar / (zNear - zFar), -((1:ℚ):ℝ)⟩, ⟨0, 0, (-(zFar * zNear)) / (zFar - zNear), ((0:ℚ):ℝ)⟩⟩ : M4 ℝ) * hom p 1 = hom q w →
      w = (-p.z) ∧ q.x / w = p.x / ((-p.z) * (aspect * t)) ∧ q.y / w = p.y / ((-p.z) * t) ∧
      q.z / w = zFar * ((-p.z) - zNear) / ((-p.z) * (zFar - zNear)) := by
    intro p q w hd h
    simp only [M4.mulV_cols] at h
    have hx := congrArg V4.x h
    have hy := congrArg V4.y h
    have hz := congrArg V4.z h
    have hw := congrArg V4.w h
    simp at hx hy hz hw
    have hd' : p.z ≠ 0 := by intro h0; rw [h0] at hd; simp at hd
    refine ⟨hw.symm, ?_, ?_, ?_⟩
    · rw [← hw, ← hx]; field_simp
    · rw [← hw, ← hy]; field_simp
    · rw [← hw, ← hz]; field_simp; ring
  intro p q w hd h
  obtain ⟨hw, hx, hy, hz⟩ := key p q w hd h
  refine ⟨hw, hx, hy, hz, fun h => ?_, fun h => ?_, ?_, fun p' q' w' h' hlt => ?_⟩
  · rw [hz, h]; simp
  · rw [hz, h]; field_simp; 
  · rw [hz]
    have hden : 0 < (-p.z) * (zFar - zNear) := mul_pos hd hnf
    have e1 : 0 ≤ zFar * ((-p.z) - zNear) / ((-p.z) * (zFar - zNear)) ↔ zNear ≤ (-p.z) := by
      rw [le_div_iff₀ hden, zero_mul, mul_nonneg_iff_of_pos_left hzf, sub_nonneg]
    have e2 : zFar * ((-p.z) - zNear) / ((-p.z) * (zFar - zNear)) ≤ 1 ↔ (-p.z) ≤ zFar := by
      rw [div_le_one hden]
      constructor <;> intro h <;> nlinarith
    rw [← e1, ← e2]
  · obtain ⟨-, -, -, hz'⟩ := key p' q' w' (hd.trans hlt) h'
    rw [hz, hz']
    have e : ∀ x : ℝ, 0 < x → zFar * (x - zNear) / (x * (zFar - zNear)) =
        zFar / (zFar - zNear) - zFar * zNear / (zFar - zNear) / x := by
      intro x hx; field_simp
    rw [e _ hd, e _ (hd.trans hlt)]
    have := depth_mono (A := zFar / (zFar - zNear)) (B := zFar * zNear / (zFar - zNear)) (by positivity) hd hlt
    linarith

/-- C52 for `perspectiveRH_NO`, for every build and aspect except the aspect `2⁻²³` in a debug
build (missing there: `C52_assert_false`).  `p` is the point before, `q` after the projection; the
distance of `p` along the view direction is `-p.z`. -/
theorem C52_RH_NO_partial (b : Build) (fovy aspect zNear zFar : ℝ) (hf0 : 0 < fovy) (hf1 : fovy < Real.pi)
    (ha : 0 < aspect) (hn : 0 < zNear) (hfar : zNear < zFar)
    (hb : b = .release ∨ aspect ≠ 1 / 8388608) :
    ∃ M : M4 ℝ, M4.perspectiveRH_NO b fovy aspect zNear zFar = .ok M ∧
      ∀ p q : V3 ℝ, ∀ w : ℝ, 0 < (-p.z) → M * hom p 1 = hom q w →
        w = (-p.z) ∧
        -- the frustum planes given by fovy and aspect go to ±1
        q.x / w = p.x / ((-p.z) * (aspect * Real.tan (fovy / 2))) ∧
        q.y / w = p.y / ((-p.z) * Real.tan (fovy / 2)) ∧
        -- depth: zNear goes to -1, zFar to 1
        q.z / w = -1 + 2 * (zFar * ((-p.z) - zNear) / ((-p.z) * (zFar - zNear))) ∧
        ((-p.z) = zNear → q.z / w = -1) ∧ ((-p.z) = zFar → q.z / w = 1) ∧
        (zNear ≤ (-p.z) ∧ (-p.z) ≤ zFar ↔ -1 ≤ q.z / w ∧ q.z / w ≤ 1) ∧
        -- depth order is preserved
        (∀ p' q' : V3 ℝ, ∀ w' : ℝ, M * hom p' 1 = hom q' w' → (-p.z) < (-p'.z) →
          q.z / w < q'.z / w') := by
  have ht := tan_half_pos hf0 hf1
  simp only [M4.perspectiveRH_NO, persp_assert hb, Res.ok_bind, Res.pure_eq]
  simp only [F.tan_real, lit_real, M4.diag_real]
  refine ⟨_, rfl, ?_⟩
  have h2 : fovy * (((0.5 : ℚ) : ℝ)) = fovy / 2 := by push_cast; ring
  rw [h2]
  generalize Real.tan (fovy / 2) = t at *
  have hnf : 0 < zFar - zNear := by linarith
  have hfn : zNear - zFar ≠ 0 := by linarith
  have hzf : 0 < zFar := by linarith
  have key : ∀ p q : V3 ℝ, ∀ w : ℝ, 0 < (-p.z) → (⟨⟨((1:ℚ):ℝ) / (aspect * t), 0, 0, 0⟩, ⟨0, ((1:ℚ):ℝ) / t, 0, 0⟩, ⟨0, 0, (-(zFar + zNear)) / (zFar - zNear), -((1:ℚ):ℝ)⟩, ⟨0, 0, (-(((2:ℚ):ℝ) * zFar * zNear)) / (zFar - zNear), ((0:ℚ):ℝ)⟩⟩ : M4 ℝ) * hom p 1 = hom q w →
      w = (-p.z) ∧ q.x / w = p.x / ((-p.z) * (aspect * t)) ∧ q.y / w = p.y / ((-p.z) * t) ∧
      q.z / w = -1 + 2 * (zFar * ((-p.z) - zNear) / ((-p.z) * (zFar - zNear))) := by
    intro p q w hd h
    simp only [M4.mulV_cols] at h
    have hx := congrArg V4.x h
    have hy := congrArg V4.y h
    have hz := congrArg V4.z h
    have hw := congrArg V4.w h
    simp at hx hy hz hw
    have hd' : p.z ≠ 0 := by intro h0; rw [h0] at hd; simp at hd
    refine ⟨hw.symm, ?_, ?_, ?_⟩
    · rw [← hw, ← hx]; field_simp
    · rw [← hw, ← hy]; field_simp
    · rw [← hw, ← hz]; field_simp; ring
  intro p q w hd h
  obtain ⟨hw, hx, hy, hz⟩ := key p q w hd h
  refine ⟨hw, hx, hy, hz, fun h => ?_, fun h => ?_, ?_, fun p' q' w' h' hlt => ?_⟩
  · rw [hz, h]; simp
  · rw [hz, h]; field_simp; ring
  · rw [hz]
    have hden : 0 < (-p.z) * (zFar - zNear) := mul_pos hd hnf
    have e1 : 0 ≤ zFar * ((-p.z) - zNear) / ((-p.z) * (zFar - zNear)) ↔ zNear ≤ (-p.z) := by
      rw [le_div_iff₀ hden, zero_mul, mul_nonneg_iff_of_pos_left hzf, sub_nonneg]
    have e2 : zFar * ((-p.z) - zNear) / ((-p.z) * (zFar - zNear)) ≤ 1 ↔ (-p.z) ≤ zFar := by
      rw [div_le_one hden]
      constructor <;> intro h <;> nlinarith
    rw [← e1, ← e2]
    constructor <;> rintro ⟨h1, h2⟩ <;> constructor <;> linarith
  · obtain ⟨-, -, -, hz'⟩ := key p' q' w' (hd.trans hlt) h'
    rw [hz, hz']
    have e : ∀ x : ℝ, 0 < x → zFar * (x - zNear) / (x * (zFar - zNear)) =
        zFar / (zFar - zNear) - zFar * zNear / (zFar - zNear) / x := by
      intro x hx; field_simp
    rw [e _ hd, e _ (hd.trans hlt)]
    have := depth_mono (A := zFar / (zFar - zNear)) (B := zFar * zNear / (zFar - zNear)) (by positivity) hd hlt
    linarith

/-- C52 for `perspectiveLH_ZO`, for every build and aspect except the aspect `2⁻²³` in a debug
build (missing there: `C52_assert_false`).  `p` is the point before, `q` after the projection; the
distance of `p` along the view direction is `p.z`. -/
theorem C52_LH_ZO_partial (b : Build) (fovy aspect zNear zFar : ℝ) (hf0 : 0 < fovy) (hf1 : fovy < Real.pi)
    (ha : 0 < aspect) (hn : 0 < zNear) (hfar : zNear < zFar)
    (hb : b = .release ∨ aspect ≠ 1 / 8388608) :
    ∃ M : M4 ℝ, M4.perspectiveLH_ZO b fovy aspect zNear zFar = .ok M ∧
      ∀ p q : V3 ℝ, ∀ w : ℝ, 0 < p.z → M * hom p 1 = hom q w →
        w = p.z ∧
        -- the frustum planes given by fovy and aspect go to ±1
        q.x / w = p.x / (p.z * (aspect * Real.tan (fovy / 2))) ∧
        q.y / w = p.y / (p.z * Real.tan (fovy / 2)) ∧
        -- depth: zNear goes to 0, zFar to 1
        q.z / w = zFar * (p.z - zNear) / (p.z * (zFar - zNear)) ∧
        (p.z = zNear → q.z / w = 0) ∧ (p.z = zFar → q.z / w = 1) ∧
        (zNear ≤ p.z ∧ p.z ≤ zFar ↔ 0 ≤ q.z / w ∧ q.z / w ≤ 1) ∧
        -- depth order is preserved
        (∀ p' q' : V3 ℝ, ∀ w' : ℝ, M * hom p' 1 = hom q' w' → p.z < p'.z →
          q.z / w < q'.z / w') := by
  have ht := tan_half_pos hf0 hf1
  simp only [M4.perspectiveLH_ZO, persp_assert hb, Res.ok_bind, Res.pure_eq]
  simp only [F.tan_real, lit_real, M4.diag_real]
  refine ⟨_, rfl, ?_⟩
  have h2 : fovy * (((0.5 : ℚ) : ℝ)) = fovy / 2 := by push_cast; ring
  rw [h2]
  generalize Real.tan (fovy / 2) = t at *
  have hnf : 0 < zFar - zNear := by linarith
  have hfn : zNear - zFar ≠ 0 := by linarith
  have hzf : 0 < zFar := by linarith
  have key : ∀ p q : V3 ℝ, ∀ w : ℝ, 0 < p.z → (⟨⟨((1:ℚ):ℝ) / (aspect * t), 0, 0, 0⟩, ⟨0, ((1:ℚ):ℝ) / t, 0, 0⟩, ⟨0, 0, zFar / (zFar - zNear), ((1:ℚ):ℝ)⟩, ⟨0, 0, (-(zFar * zNear)) / (zFar - zNear), ((0:ℚ):ℝ)⟩⟩ : M4 ℝ) * hom p 1 = hom q w →
      w = p.z ∧ q.x / w = p.x / (p.z * (aspect * t)) ∧ q.y / w = p.y / (p.z * t) ∧
      q.z / w = zFar * (p.z - zNear) / (p.z * (zFar - zNear)) := by
    intro p q w hd h
    simp only [M4.mulV_cols] at h
    have hx := congrArg V4.x h
    have hy := congrArg V4.y h
    have hz := congrArg V4.z h
    have hw := congrArg V4.w h
    simp at hx hy hz hw
    have hd' : p.z ≠ 0 := by intro h0; rw [h0] at hd; simp at hd
    refine ⟨hw.symm, ?_, ?_, ?_⟩
    · rw [← hw, ← hx]; field_simp
    · rw [← hw, ← hy]; field_simp
    · rw [← hw, ← hz]; field_simp; ring
  intro p q w hd h
  obtain ⟨hw, hx, hy, hz⟩ := key p q w hd h
  refine ⟨hw, hx, hy, hz, fun h => ?_, fun h => ?_, ?_, fun p' q' w' h' hlt => ?_⟩
  · rw [hz, h]; simp
  · rw [hz, h]; field_simp; 
  · rw [hz]
    have hden : 0 < p.z * (zFar - zNear) := mul_pos hd hnf
    have e1 : 0 ≤ zFar * (p.z - zNear) / (p.z * (zFar - zNear)) ↔ zNear ≤ p.z := by
      rw [le_div_iff₀ hden, zero_mul, mul_nonneg_iff_of_pos_left hzf, sub_nonneg]
    have e2 : zFar * (p.z - zNear) / (p.z * (zFar - zNear)) ≤ 1 ↔ p.z ≤ zFar := by
      rw [div_le_one hden]
      constructor <;> intro h <;> nlinarith
    rw [← e1, ← e2]
  · obtain ⟨-, -, -, hz'⟩ := key p' q' w' (hd.trans hlt) h'
    rw [hz, hz']
    have e : ∀ x : ℝ, 0 < x → zFar * (x - zNear) / (x * (zFar - zNear)) =
        zFar / (zFar - zNear) - zFar * zNear / (zFar - zNear) / x := by
      intro x hx; field_simp
    rw [e _ hd, e _ (hd.trans hlt)]
    have := depth_mono (A := zFar / (zFar - zNear)) (B := zFar * zNear / (zFar - zNear)) (by positivity) hd hlt
    linarith

/-- C52 for `perspectiveLH_NO`, for every build and aspect except the aspect `2⁻²³` in a debug
build (missing there: `C52_assert_false`).  `p` is the point before, `q` after the projection; the
distance of `p` along the view direction is `p.z`. -/
theorem C52_LH_NO_partial (b : Build) (fovy aspect zNear zFar : ℝ) (hf0 : 0 < fovy) (hf1 : fovy < Real.pi)
    (ha : 0 < aspect) (hn : 0 < zNear) (hfar : zNear < zFar)
    (hb : b = .release ∨ aspect ≠ 1 / 8388608) :
    ∃ M : M4 ℝ, M4.perspectiveLH_NO b fovy aspect zNear zFar = .ok M ∧
      ∀ p q : V3 ℝ, ∀ w : ℝ, 0 < p.z → M * hom p 1 = hom q w →
        w = p.z ∧
        -- the frustum planes given by fovy and aspect go to ±1
        q.x / w = p.x / (p.z * (aspect * Real.tan (fovy / 2))) ∧
        q.y / w = p.y / (p.z * Real.tan (fovy / 2)) ∧
        -- depth: zNear goes to -1, zFar to 1
        q.z / w = -1 + 2 * (zFar * (p.z - zNear) / (p.z * (zFar - zNear))) ∧
        (p.z = zNear → q.z / w = -1) ∧ (p.z = zFar → q.z / w = 1) ∧
        (zNear ≤ p.z ∧ p.z ≤ zFar ↔ -1 ≤ q.z / w ∧ q.z / w ≤ 1) ∧
        -- depth order is preserved
        (∀ p' q' : V3 ℝ, ∀ w' : ℝ, M * hom p' 1 = hom q' w' → p.z < p'.z →
          q.z / w < q'.z / w') := by
  have ht := tan_half_pos hf0 hf1
  simp only [M4.perspectiveLH_NO, persp_assert hb, Res.ok_bind, Res.pure_eq]
  simp only [F.tan_real, lit_real, M4.diag_real]
  refine ⟨_, rfl, ?_⟩
  have h2 : fovy * (((0.5 : ℚ) : ℝ)) = fovy / 2 := by push_cast; ring
  rw [h2]
  generalize Real.tan (fovy / 2) = t at *
  have hnf : 0 < zFar - zNear := by linarith
  have hfn : zNear - zFar ≠ 0 := by linarith
  have hzf : 0 < zFar := by linarith
  have key : ∀ p q : V3 ℝ, ∀ w : ℝ, 0 < p.z → (⟨⟨((1:ℚ):ℝ) / (aspect * t), 0, 0, 0⟩, ⟨0, ((1:ℚ):ℝ) / t, 0, 0⟩, ⟨0, 0, (zFar + zNear) / (zFar - zNear), ((1:ℚ):ℝ)⟩, ⟨0, 0, (-(((2:ℚ):ℝ) * zFar * zNear)) / (zFar - zNear), ((0:ℚ):ℝ)⟩⟩ : M4 ℝ) * hom p 1 = hom q w →
      w = p.z ∧ q.x / w = p.x / (p.z * (aspect * t)) ∧ q.y / w = p.y / (p.z * t) ∧
      q.z / w = -1 + 2 * (zFar * (p.z - zNear) / (p.z * (zFar - zNear))) := by
    intro p q w hd h
    simp only [M4.mulV_cols] at h
    have hx := congrArg V4.x h
    have hy := congrArg V4.y h
    have hz := congrArg V4.z h
    have hw := congrArg V4.w h
    simp at hx hy hz hw
    have hd' : p.z ≠ 0 := by intro h0; rw [h0] at hd; simp at hd
    refine ⟨hw.symm, ?_, ?_, ?_⟩
    · rw [← hw, ← hx]; field_simp
    · rw [← hw, ← hy]; field_simp
    · rw [← hw, ← hz]; field_simp; ring
  intro p q w hd h
  obtain ⟨hw, hx, hy, hz⟩ := key p q w hd h
  refine ⟨hw, hx, hy, hz, fun h => ?_, fun h => ?_, ?_, fun p' q' w' h' hlt => ?_⟩
  · rw [hz, h]; simp
  · rw [hz, h]; field_simp; ring
  · rw [hz]
    have hden : 0 < p.z * (zFar - zNear) := mul_pos hd hnf
    have e1 : 0 ≤ zFar * (p.z - zNear) / (p.z * (zFar - zNear)) ↔ zNear ≤ p.z := by
      rw [le_div_iff₀ hden, zero_mul, mul_nonneg_iff_of_pos_left hzf, sub_nonneg]
    have e2 : zFar * (p.z - zNear) / (p.z * (zFar - zNear)) ≤ 1 ↔ p.z ≤ zFar := by
      rw [div_le_one hden]
      constructor <;> intro h <;> nlinarith
    rw [← e1, ← e2]
    constructor <;> rintro ⟨h1, h2⟩ <;> constructor <;> linarith
  · obtain ⟨-, -, -, hz'⟩ := key p' q' w' (hd.trans hlt) h'
    rw [hz, hz']
    have e : ∀ x : ℝ, 0 < x → zFar * (x - zNear) / (x * (zFar - zNear)) =
        zFar / (zFar - zNear) - zFar * zNear / (zFar - zNear) / x := by
      intro x hx; field_simp
    rw [e _ hd, e _ (hd.trans hlt)]
    have := depth_mono (A := zFar / (zFar - zNear)) (B := zFar * zNear / (zFar - zNear)) (by positivity) hd hlt
    linarith

/-- C52 fails for one positive aspect ratio: a debug build aborts for `aspect = 2⁻²³`, whatever the other
arguments; and the assertion does not stop `aspect = 0`. -/
theorem C52_assert_false (fovy zNear zFar : ℝ) :
    M4.perspectiveRH_ZO .debug fovy (1 / 8388608) zNear zFar = .abort ∧
    M4.perspectiveRH_NO .debug fovy (1 / 8388608) zNear zFar = .abort ∧
    M4.perspectiveLH_ZO .debug fovy (1 / 8388608) zNear zFar = .abort ∧
    M4.perspectiveLH_NO .debug fovy (1 / 8388608) zNear zFar = .abort ∧
    (∃ M, M4.perspectiveRH_ZO .debug fovy 0 zNear zFar = .ok M) := by
  have h : cassert .debug (decide (F.abs ((1 / 8388608 : ℝ) - (epsilonf : ℝ)) > lit 0)) = .abort := by
    have : ¬ F.abs ((1 / 8388608 : ℝ) - (epsilonf : ℝ)) > lit 0 := by
      simp [epsilonf]
    rw [decide_eq_false this]; rfl
  refine ⟨?_, ?_, ?_, ?_, ?_⟩
  · simp only [M4.perspectiveRH_ZO, h]; rfl
  · simp only [M4.perspectiveRH_NO, h]; rfl
  · simp only [M4.perspectiveLH_ZO, h]; rfl
  · simp only [M4.perspectiveLH_NO, h]; rfl
  · simp only [M4.perspectiveRH_ZO, persp_assert (b := .debug) (aspect := 0) (Or.inr (by norm_num)), Res.ok_bind,
      Res.pure_eq]
    exact ⟨_, rfl⟩

/-- Non-vacuity: parameters of an ordinary camera. -/
example : (0:ℝ) < 1 ∧ (1:ℝ) < Real.pi ∧ (0:ℝ) < 16 / 9 ∧ (16 / 9 : ℝ) ≠ 1 / 8388608 := by
  refine ⟨by norm_num, ?_, by norm_num, by norm_num⟩
  linarith [Real.two_le_pi]

end Zcm
