import Verif.Model.Mat
import Verif.Spec.Clip

/-!
# Specification: cameras whose projection can be undone in binary32
-/

namespace Zcm

/-- Sensible parameters of a perspective projection that is to be inverted: opening angle, aspect ratio and planes not extreme, the
far plane at least twice and at most 65536 times as far away as the near plane. -/
structure Camera (fovy aspect zNear zFar : F32) : Prop extends Lens fovy aspect zNear zFar where
  angle : 1 / 2 ^ 10 ≤ (fovy.val : ℝ) ∧ Real.tan (fovy.val / 2) ≤ 2 ^ 10
  shape : 1 / 2 ^ 10 ≤ (aspect.val : ℝ) ∧ (aspect.val : ℝ) ≤ 2 ^ 10
  near : 1 / 2 ^ 20 ≤ (zNear.val : ℝ)
  planes : 2 * (zNear.val : ℝ) ≤ zFar.val ∧ (zFar.val : ℝ) ≤ 2 ^ 16 * zNear.val

/-- Apply a projective matrix, or its inverse, to a point in the float arithmetic of the library: multiply, then divide by the fourth
component. -/
def divided (m : M4 F32) (p : V3 F32) : V3 F32 :=
  let q := m * V4.ofXYZ_W p (lit 1)
  ⟨q.x / q.w, q.y / q.w, q.z / q.w⟩

end Zcm
