import Verif.Lemmas.RotQuat
import Verif.Lemmas.Rotate

/-!
# Lemmas: axis-angle quaternions in exact arithmetic
-/

namespace Zcm

theorem Quat.angleAxis_eq (a : ℝ) (n : V3 ℝ) : Quat.angleAxis a n =
    ⟨n.x * Real.sin (a / 2), n.y * Real.sin (a / 2), n.z * Real.sin (a / 2), Real.cos (a / 2)⟩ := by
  have h : a * (((0.5 : ℚ) : ℝ)) = a / 2 := by push_cast; ring
  simp only [Quat.angleAxis, F.sin_real, F.cos_real, lit_real, h, Quat.ofSV]
  ext <;> simp

theorem Quat.angleAxis_dot {a : ℝ} {n : V3 ℝ} (hn : V3.dot n n = 1) :
    Quat.dot (Quat.angleAxis a n) (Quat.angleAxis a n) = 1 := by
  have h := Real.sin_sq_add_cos_sq (a / 2)
  rw [Quat.angleAxis_eq]
  simp only [V3.dot] at hn
  simp only [Quat.dot]
  grind

theorem Quat.length_angleAxis {a : ℝ} {n : V3 ℝ} (hn : V3.length n = 1) :
    Quat.length (Quat.angleAxis a n) = 1 :=
  Quat.length_of_dot_self (Quat.angleAxis_dot (V3.dot_self_of_length hn))

/-- Rodrigues' formula for quaternions -/
theorem Quat.angleAxis_mulV {a : ℝ} {n : V3 ℝ} (hn : V3.dot n n = 1) (p : V3 ℝ) :
    Quat.angleAxis a n * p =
      Real.cos a * p + Real.sin a * V3.cross n p + ((1 - Real.cos a) * V3.dot n p) * n := by
  have h := Real.sin_sq_add_cos_sq (a / 2)
  have hs : Real.sin a = 2 * Real.sin (a / 2) * Real.cos (a / 2) := by
    rw [← Real.sin_two_mul]; congr 1; ring
  have hc : Real.cos a = 2 * Real.cos (a / 2) ^ 2 - 1 := by
    rw [← Real.cos_two_mul]; congr 1; ring
  rw [Quat.angleAxis_eq, hs, hc]
  simp only [V3.dot] at hn
  generalize Real.sin (a / 2) = s at *
  generalize Real.cos (a / 2) = c at *
  ext <;> simp [Quat.mulV_x, Quat.mulV_y, Quat.mulV_z, V3.dot] <;> grind

end Zcm
