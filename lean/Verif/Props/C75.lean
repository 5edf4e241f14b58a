import Verif.Lemmas.F32
import Verif.Lemmas.Ops
import Verif.Model.Geometric
import Verif.Spec.Coord

/-!
# C75: symmetric operations are bitwise symmetric in IEEE arithmetic

All statements are equalities of binary32 values (`F32`): equal values have equal bits, including the sign of
zero; there is a single NaN.
-/

namespace Zcm

/-- C75 for `float`: sum, product, `dot`, `distance`. -/
theorem C75_float (a b : F32) : a + b = b + a ∧ a * b = b * a ∧ F.dot a b = F.dot b a ∧
    F.distance a b = F.distance b a :=
  ⟨F32.add_comm' a b, F32.mul_comm' a b, F32.mul_comm' a b, F32.fabs_sub_comm a b⟩

/-- C75 for `vec2`: sum, componentwise product, sum and product with a scalar, `dot`, `distance`. -/
theorem C75_vec2 (a b : V2 F32) (s : F32) : a + b = b + a ∧ a * b = b * a ∧ a + s = s + a ∧ a * s = s * a ∧
    V2.dot a b = V2.dot b a ∧ V2.distance a b = V2.distance b a := by
  refine ⟨?_, ?_, ?_, ?_, ?_, ?_⟩
  · ext <;> simp [F32.add_comm']
  · ext <;> simp [F32.mul_comm']
  · ext <;> simp [F32.add_comm']
  · ext <;> simp [F32.mul_comm']
  · simp only [V2.dot, F32.mul_comm' a.x, F32.mul_comm' a.y]
  · simp only [V2.distance, V2.length, V2.sub_x, V2.sub_y, F32.sub_sq_comm a.x b.x, F32.sub_sq_comm a.y b.y]

/-- C75 for `vec3`: sum, componentwise product, sum and product with a scalar, `dot`, `distance`. -/
theorem C75_vec3 (a b : V3 F32) (s : F32) : a + b = b + a ∧ a * b = b * a ∧ a + s = s + a ∧ a * s = s * a ∧
    V3.dot a b = V3.dot b a ∧ V3.distance a b = V3.distance b a := by
  refine ⟨?_, ?_, ?_, ?_, ?_, ?_⟩
  · ext <;> simp [F32.add_comm']
  · ext <;> simp [F32.mul_comm']
  · ext <;> simp [F32.add_comm']
  · ext <;> simp [F32.mul_comm']
  · simp only [V3.dot, F32.mul_comm' a.x, F32.mul_comm' a.y, F32.mul_comm' a.z]
  · simp only [V3.distance, V3.length, V3.sub_x, V3.sub_y, V3.sub_z, F32.sub_sq_comm a.x b.x, F32.sub_sq_comm a.y b.y, F32.sub_sq_comm a.z b.z]

/-- C75 for `vec4`: sum, componentwise product, sum and product with a scalar, `dot`, `distance`. -/
theorem C75_vec4 (a b : V4 F32) (s : F32) : a + b = b + a ∧ a * b = b * a ∧ a + s = s + a ∧ a * s = s * a ∧
    V4.dot a b = V4.dot b a ∧ V4.distance a b = V4.distance b a := by
  refine ⟨?_, ?_, ?_, ?_, ?_, ?_⟩
  · ext <;> simp [F32.add_comm']
  · ext <;> simp [F32.mul_comm']
  · ext <;> simp [F32.add_comm']
  · ext <;> simp [F32.mul_comm']
  · simp only [V4.dot, F32.mul_comm' a.x, F32.mul_comm' a.y, F32.mul_comm' a.z, F32.mul_comm' a.w]
  · simp only [V4.distance, V4.length, V4.sub_x, V4.sub_y, V4.sub_z, V4.sub_w, F32.sub_sq_comm a.x b.x, F32.sub_sq_comm a.y b.y, F32.sub_sq_comm a.z b.z, F32.sub_sq_comm a.w b.w]

/-- C75 for `quat`: sum and `dot`. -/
theorem C75_quat (a b : Quat F32) : a + b = b + a ∧ Quat.dot a b = Quat.dot b a := by
  refine ⟨?_, ?_⟩
  · ext <;> simp [F32.add_comm']
  · simp only [Quat.dot, F32.mul_comm' a.x, F32.mul_comm' a.y, F32.mul_comm' a.z, F32.mul_comm' a.w]

/-- Non-vacuity: the claim speaks about rounding (0.1 · 0.3 is not representable), overflow, infinities and
signed zeros, and symmetric does not mean trivial: subtraction is not symmetric. -/
example : (lit 0.1 : F32) * lit 0.3 = lit 0.3 * lit 0.1 ∧
    F.distance (lit 3 : F32) (lit 5) = lit 2 ∧ F.distance (F32.inf true) (lit 5) = .inf false ∧
    (lit 3 : F32) - lit 5 ≠ lit 5 - lit 3 := by decide +kernel

end Zcm
