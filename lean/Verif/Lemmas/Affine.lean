import Verif.Spec.Affine
import Verif.Lemmas.Linear
import Verif.Lemmas.Normalize
import Verif.Model.MatrixTransform

/-!
# Lemmas: the transform matrices in exact arithmetic
-/

namespace Zcm

@[simp] theorem hom_x {β : Type} (p : V3 β) (w : β) : (hom p w).x = p.x := rfl
@[simp] theorem hom_y {β : Type} (p : V3 β) (w : β) : (hom p w).y = p.y := rfl
@[simp] theorem hom_z {β : Type} (p : V3 β) (w : β) : (hom p w).z = p.z := rfl
@[simp] theorem hom_w {β : Type} (p : V3 β) (w : β) : (hom p w).w = w := rfl

theorem V4.eq_hom {β : Type} (u : V4 β) : u = hom ⟨u.x, u.y, u.z⟩ u.w := rfl

/-- the entries of the default matrix -/
theorem M4.default_real : (M4.default : M4 ℝ) = ⟨⟨1, 0, 0, 0⟩, ⟨0, 1, 0, 0⟩, ⟨0, 0, 1, 0⟩, ⟨0, 0, 0, 1⟩⟩ := by
  ext <;> simp [M4.default, M4.diag]

/-- the entries of `diag` -/
theorem M4.diag_real (s : ℝ) : (M4.diag s : M4 ℝ) = ⟨⟨s, 0, 0, 0⟩, ⟨0, s, 0, 0⟩, ⟨0, 0, s, 0⟩, ⟨0, 0, 0, s⟩⟩ := by
  ext <;> simp [M4.diag]

theorem M4.mul_eq (a b : M4 ℝ) : a * b = ⟨a * b.c0, a * b.c1, a * b.c2, a * b.c3⟩ := by
  ext <;> simp [M4.mul_c0x, M4.mul_c0y, M4.mul_c0z, M4.mul_c0w, M4.mul_c1x, M4.mul_c1y, M4.mul_c1z,
    M4.mul_c1w, M4.mul_c2x, M4.mul_c2y, M4.mul_c2z, M4.mul_c2w, M4.mul_c3x, M4.mul_c3y, M4.mul_c3z,
    M4.mul_c3w, M4.mulV_x, M4.mulV_y, M4.mulV_z, M4.mulV_w, add_assoc]

theorem M4.mulV_cols (a : M4 ℝ) (v : V4 ℝ) : a * v = a.c0 * v.x + a.c1 * v.y + a.c2 * v.z + a.c3 * v.w := by
  ext <;> simp [M4.mulV_x, M4.mulV_y, M4.mulV_z, M4.mulV_w] <;> ring

/-- a matrix is determined by its action -/
theorem M4.ext_mulV {a b : M4 ℝ} (h : ∀ (p : V3 ℝ) (w : ℝ), a * hom p w = b * hom p w) : a = b := by
  have h0 := h ⟨1, 0, 0⟩ 0
  have h1 := h ⟨0, 1, 0⟩ 0
  have h2 := h ⟨0, 0, 1⟩ 0
  have h3 := h ⟨0, 0, 0⟩ 1
  simp only [M4.mulV_cols, V4.ext_iff] at h0 h1 h2 h3
  simp at h0 h1 h2 h3
  ext <;> simp [h0, h1, h2, h3]

end Zcm
