import Verif.Lemmas.Affine

/-!
# C51: orthographic projections map the box to the clip volume

Exact arithmetic.
-/

namespace Zcm

/-- C51 for `ortho(left, right, bottom, top)`: `z` is negated. -/
theorem C51_ortho (left right bottom top : ℝ) (hx : left ≠ right) (hy : bottom ≠ top) (p : V3 ℝ) :
    M4.ortho left right bottom top * hom p 1 =
      hom ⟨-1 + 2 * ((p.x - left) / (right - left)), -1 + 2 * ((p.y - bottom) / (top - bottom)), -p.z⟩ 1 := by
  have h1 := sub_ne_zero.2 hx.symm
  have h2 := sub_ne_zero.2 hy.symm
  simp only [M4.ortho, M4.diag_real, M4.mulV_cols, lit_real]
  ext <;> simp <;> field_simp <;> ring

/-- C51 for `orthoLH_ZO`: the position of the point in the box, rescaled. -/
theorem C51_LH_ZO (left right bottom top zNear zFar : ℝ) (hx : left ≠ right) (hy : bottom ≠ top)
    (hz : zNear ≠ zFar) (p : V3 ℝ) :
    M4.orthoLH_ZO left right bottom top zNear zFar * hom p 1 =
      hom ⟨-1 + 2 * ((p.x - left) / (right - left)), -1 + 2 * ((p.y - bottom) / (top - bottom)),
        (p.z - zNear) / (zFar - zNear)⟩ 1 := by
  have h1 := sub_ne_zero.2 hx.symm
  have h2 := sub_ne_zero.2 hy.symm
  have h3 := sub_ne_zero.2 hz.symm
  simp only [M4.orthoLH_ZO, M4.diag_real, M4.mulV_cols, lit_real]
  ext <;> simp <;> field_simp <;> ring

/-- C51 for `orthoLH_ZO`: a point lies in the box exactly when its image lies in the clip volume. -/
theorem C51_LH_ZO_clip (left right bottom top zNear zFar : ℝ) (hx : left < right) (hy : bottom < top)
    (hz : zNear < zFar) (p : V3 ℝ) :
    let q := M4.orthoLH_ZO left right bottom top zNear zFar * hom p 1
    (left ≤ p.x ∧ p.x ≤ right ↔ -1 ≤ q.x ∧ q.x ≤ 1) ∧
    (bottom ≤ p.y ∧ p.y ≤ top ↔ -1 ≤ q.y ∧ q.y ≤ 1) ∧
    (zNear ≤ p.z ∧ p.z ≤ zFar ↔ 0 ≤ q.z ∧ q.z ≤ 1) ∧ q.w = 1 := by
  intro q
  have hq : q = _ := C51_LH_ZO left right bottom top zNear zFar hx.ne hy.ne hz.ne p
  have key : ∀ a b t : ℝ, a < b → ((a ≤ t ∧ t ≤ b) ↔ 0 ≤ (t - a) / (b - a) ∧ (t - a) / (b - a) ≤ 1) := by
    intro a b t h
    have h' := sub_pos.2 h
    rw [le_div_iff₀ h', div_le_one h']
    constructor <;> rintro ⟨h1, h2⟩ <;> constructor <;> linarith
  rw [hq, key _ _ p.x hx, key _ _ p.y hy, key _ _ p.z hz]
  simp only [hom_x, hom_y, hom_z, hom_w]
  refine ⟨?_, ?_, ?_, trivial⟩ <;> constructor <;> rintro ⟨h1, h2⟩ <;> constructor <;> linarith

/-- C51 for `orthoLH_NO`: the position of the point in the box, rescaled. -/
theorem C51_LH_NO (left right bottom top zNear zFar : ℝ) (hx : left ≠ right) (hy : bottom ≠ top)
    (hz : zNear ≠ zFar) (p : V3 ℝ) :
    M4.orthoLH_NO left right bottom top zNear zFar * hom p 1 =
      hom ⟨-1 + 2 * ((p.x - left) / (right - left)), -1 + 2 * ((p.y - bottom) / (top - bottom)),
        -1 + 2 * ((p.z - zNear) / (zFar - zNear))⟩ 1 := by
  have h1 := sub_ne_zero.2 hx.symm
  have h2 := sub_ne_zero.2 hy.symm
  have h3 := sub_ne_zero.2 hz.symm
  simp only [M4.orthoLH_NO, M4.diag_real, M4.mulV_cols, lit_real]
  ext <;> simp <;> field_simp <;> ring

/-- C51 for `orthoLH_NO`: a point lies in the box exactly when its image lies in the clip volume. -/
theorem C51_LH_NO_clip (left right bottom top zNear zFar : ℝ) (hx : left < right) (hy : bottom < top)
    (hz : zNear < zFar) (p : V3 ℝ) :
    let q := M4.orthoLH_NO left right bottom top zNear zFar * hom p 1
    (left ≤ p.x ∧ p.x ≤ right ↔ -1 ≤ q.x ∧ q.x ≤ 1) ∧
    (bottom ≤ p.y ∧ p.y ≤ top ↔ -1 ≤ q.y ∧ q.y ≤ 1) ∧
    (zNear ≤ p.z ∧ p.z ≤ zFar ↔ -1 ≤ q.z ∧ q.z ≤ 1) ∧ q.w = 1 := by
  intro q
  have hq : q = _ := C51_LH_NO left right bottom top zNear zFar hx.ne hy.ne hz.ne p
  have key : ∀ a b t : ℝ, a < b → ((a ≤ t ∧ t ≤ b) ↔ 0 ≤ (t - a) / (b - a) ∧ (t - a) / (b - a) ≤ 1) := by
    intro a b t h
    have h' := sub_pos.2 h
    rw [le_div_iff₀ h', div_le_one h']
    constructor <;> rintro ⟨h1, h2⟩ <;> constructor <;> linarith
  rw [hq, key _ _ p.x hx, key _ _ p.y hy, key _ _ p.z hz]
  simp only [hom_x, hom_y, hom_z, hom_w]
  refine ⟨?_, ?_, ?_, trivial⟩ <;> constructor <;> rintro ⟨h1, h2⟩ <;> constructor <;> linarith

/-- C51 for `orthoRH_ZO`: the position of the point in the box, rescaled. -/
theorem C51_RH_ZO (left right bottom top zNear zFar : ℝ) (hx : left ≠ right) (hy : bottom ≠ top)
    (hz : zNear ≠ zFar) (p : V3 ℝ) :
    M4.orthoRH_ZO left right bottom top zNear zFar * hom p 1 =
      hom ⟨-1 + 2 * ((p.x - left) / (right - left)), -1 + 2 * ((p.y - bottom) / (top - bottom)),
        ((-p.z) - zNear) / (zFar - zNear)⟩ 1 := by
  have h1 := sub_ne_zero.2 hx.symm
  have h2 := sub_ne_zero.2 hy.symm
  have h3 := sub_ne_zero.2 hz.symm
  simp only [M4.orthoRH_ZO, M4.diag_real, M4.mulV_cols, lit_real]
  ext <;> simp <;> field_simp <;> ring

/-- C51 for `orthoRH_ZO`: a point lies in the box exactly when its image lies in the clip volume. -/
theorem C51_RH_ZO_clip (left right bottom top zNear zFar : ℝ) (hx : left < right) (hy : bottom < top)
    (hz : zNear < zFar) (p : V3 ℝ) :
    let q := M4.orthoRH_ZO left right bottom top zNear zFar * hom p 1
    (left ≤ p.x ∧ p.x ≤ right ↔ -1 ≤ q.x ∧ q.x ≤ 1) ∧
    (bottom ≤ p.y ∧ p.y ≤ top ↔ -1 ≤ q.y ∧ q.y ≤ 1) ∧
    (zNear ≤ (-p.z) ∧ (-p.z) ≤ zFar ↔ 0 ≤ q.z ∧ q.z ≤ 1) ∧ q.w = 1 := by
  intro q
  have hq : q = _ := C51_RH_ZO left right bottom top zNear zFar hx.ne hy.ne hz.ne p
  have key : ∀ a b t : ℝ, a < b → ((a ≤ t ∧ t ≤ b) ↔ 0 ≤ (t - a) / (b - a) ∧ (t - a) / (b - a) ≤ 1) := by
    intro a b t h
    have h' := sub_pos.2 h
    rw [le_div_iff₀ h', div_le_one h']
    constructor <;> rintro ⟨h1, h2⟩ <;> constructor <;> linarith
  rw [hq, key _ _ p.x hx, key _ _ p.y hy, key _ _ (-p.z) hz]
  simp only [hom_x, hom_y, hom_z, hom_w]
  refine ⟨?_, ?_, ?_, trivial⟩ <;> constructor <;> rintro ⟨h1, h2⟩ <;> constructor <;> linarith

/-- C51 for `orthoRH_NO`: the position of the point in the box, rescaled. -/
theorem C51_RH_NO (left right bottom top zNear zFar : ℝ) (hx : left ≠ right) (hy : bottom ≠ top)
    (hz : zNear ≠ zFar) (p : V3 ℝ) :
    M4.orthoRH_NO left right bottom top zNear zFar * hom p 1 =
      hom ⟨-1 + 2 * ((p.x - left) / (right - left)), -1 + 2 * ((p.y - bottom) / (top - bottom)),
        -1 + 2 * (((-p.z) - zNear) / (zFar - zNear))⟩ 1 := by
  have h1 := sub_ne_zero.2 hx.symm
  have h2 := sub_ne_zero.2 hy.symm
  have h3 := sub_ne_zero.2 hz.symm
  simp only [M4.orthoRH_NO, M4.diag_real, M4.mulV_cols, lit_real]
  ext <;> simp <;> field_simp <;> ring

/-- C51 for `orthoRH_NO`: a point lies in the box exactly when its image lies in the clip volume. -/
theorem C51_RH_NO_clip (left right bottom top zNear zFar : ℝ) (hx : left < right) (hy : bottom < top)
    (hz : zNear < zFar) (p : V3 ℝ) :
    let q := M4.orthoRH_NO left right bottom top zNear zFar * hom p 1
    (left ≤ p.x ∧ p.x ≤ right ↔ -1 ≤ q.x ∧ q.x ≤ 1) ∧
    (bottom ≤ p.y ∧ p.y ≤ top ↔ -1 ≤ q.y ∧ q.y ≤ 1) ∧
    (zNear ≤ (-p.z) ∧ (-p.z) ≤ zFar ↔ -1 ≤ q.z ∧ q.z ≤ 1) ∧ q.w = 1 := by
  intro q
  have hq : q = _ := C51_RH_NO left right bottom top zNear zFar hx.ne hy.ne hz.ne p
  have key : ∀ a b t : ℝ, a < b → ((a ≤ t ∧ t ≤ b) ↔ 0 ≤ (t - a) / (b - a) ∧ (t - a) / (b - a) ≤ 1) := by
    intro a b t h
    have h' := sub_pos.2 h
    rw [le_div_iff₀ h', div_le_one h']
    constructor <;> rintro ⟨h1, h2⟩ <;> constructor <;> linarith
  rw [hq, key _ _ p.x hx, key _ _ p.y hy, key _ _ (-p.z) hz]
  simp only [hom_x, hom_y, hom_z, hom_w]
  refine ⟨?_, ?_, ?_, trivial⟩ <;> constructor <;> rintro ⟨h1, h2⟩ <;> constructor <;> linarith

/-- Non-vacuity: a corner of a box that is not centred. -/
example : M4.orthoRH_ZO (1:ℝ) 3 2 6 1 5 * hom (⟨3, 2, -5⟩ : V3 ℝ) 1 = hom ⟨1, -1, 1⟩ 1 := by
  rw [C51_RH_ZO _ _ _ _ _ _ (by norm_num) (by norm_num) (by norm_num)]
  ext <;> simp <;> norm_num

end Zcm
