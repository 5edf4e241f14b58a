import Verif.Lemmas.Affine

/-!
# C48: translate and scale post-multiply

Exact arithmetic.  `mat4()` is the identity; `T(v) = translate(mat4(), v)`, `S(v) = scale(mat4(), v)`.
-/

namespace Zcm

/-- C48, translate. -/
theorem C48_translate (m : M4 ℝ) (u v p : V3 ℝ) (w : ℝ) :
    M4.translate m v = m * M4.translate M4.default v ∧
    M4.translate M4.default v * hom p 1 = hom (p + v) 1 ∧
    M4.translate M4.default v * hom p 0 = hom p 0 ∧
    M4.translate M4.default v * hom p w = hom (p + w * v) w ∧
    M4.translate (M4.translate m u) v = M4.translate m (u + v) ∧
    M4.translate m ⟨0, 0, 0⟩ = m := by
  refine ⟨?_, ?_, ?_, ?_, ?_, ?_⟩
  · rw [M4.mul_eq]
    simp only [M4.translate, M4.default_real, M4.mulV_cols]
    ext <;> simp
  · simp only [M4.translate, M4.default_real, M4.mulV_cols]
    ext <;> simp
  · simp only [M4.translate, M4.default_real, M4.mulV_cols]
    ext <;> simp
  · simp only [M4.translate, M4.default_real, M4.mulV_cols]
    ext <;> simp <;> ring
  · simp only [M4.translate]
    ext <;> simp <;> ring
  · simp only [M4.translate]
    ext <;> simp

/-- C48, scale. -/
theorem C48_scale (m : M4 ℝ) (u v p : V3 ℝ) (w : ℝ) :
    M4.scale m v = m * M4.scale M4.default v ∧
    M4.scale M4.default v * hom p w = hom (v * p) w ∧
    M4.scale (M4.scale m u) v = M4.scale m (u * v) ∧
    M4.scale m ⟨1, 1, 1⟩ = m := by
  refine ⟨?_, ?_, ?_, ?_⟩
  · rw [M4.mul_eq]
    simp only [M4.scale, M4.default_real, M4.mulV_cols]
    ext <;> simp
  · simp only [M4.scale, M4.default_real, M4.mulV_cols]
    ext <;> simp
  · simp only [M4.scale]
    ext <;> simp <;> ring
  · simp only [M4.scale]
    ext <;> simp

/-- Non-vacuity: the two transforms do not commute, so the order matters. -/
example : M4.translate (M4.scale (M4.default : M4 ℝ) ⟨2, 1, 1⟩) ⟨1, 0, 0⟩ * hom (⟨0, 0, 0⟩ : V3 ℝ) 1 = hom ⟨2, 0, 0⟩ 1 ∧
    M4.scale (M4.translate (M4.default : M4 ℝ) ⟨1, 0, 0⟩) ⟨2, 1, 1⟩ * hom (⟨0, 0, 0⟩ : V3 ℝ) 1 = hom ⟨1, 0, 0⟩ 1 := by
  constructor <;> simp only [M4.translate, M4.scale, M4.default_real, M4.mulV_cols] <;> ext <;> simp

end Zcm
