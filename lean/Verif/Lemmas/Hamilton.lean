import Verif.Spec.Hamilton
import Verif.Lemmas.Normalize
import Verif.Lemmas.Linear

/-!
# Lemmas: the quaternion functions in exact arithmetic are Hamilton's
-/

namespace Zcm

open Quaternion

@[simp] theorem ham_re (q : Quat ℝ) : (ham q).re = q.w := rfl
@[simp] theorem ham_imI (q : Quat ℝ) : (ham q).imI = q.x := rfl
@[simp] theorem ham_imJ (q : Quat ℝ) : (ham q).imJ = q.y := rfl
@[simp] theorem ham_imK (q : Quat ℝ) : (ham q).imK = q.z := rfl
@[simp] theorem pureQ_re (v : V3 ℝ) : (pureQ v).re = 0 := rfl
@[simp] theorem pureQ_imI (v : V3 ℝ) : (pureQ v).imI = v.x := rfl
@[simp] theorem pureQ_imJ (v : V3 ℝ) : (pureQ v).imJ = v.y := rfl
@[simp] theorem pureQ_imK (v : V3 ℝ) : (pureQ v).imK = v.z := rfl

theorem ham_injective {a b : Quat ℝ} : ham a = ham b ↔ a = b := by
  constructor
  · intro h
    ext
    · exact congrArg QuaternionAlgebra.imI h
    · exact congrArg QuaternionAlgebra.imJ h
    · exact congrArg QuaternionAlgebra.imK h
    · exact congrArg QuaternionAlgebra.re h
  · rintro rfl; rfl

theorem pureQ_injective {a b : V3 ℝ} : pureQ a = pureQ b ↔ a = b := by
  constructor
  · intro h
    ext
    · exact congrArg QuaternionAlgebra.imI h
    · exact congrArg QuaternionAlgebra.imJ h
    · exact congrArg QuaternionAlgebra.imK h
  · rintro rfl; rfl

/-- the product of the library, component by component -/
theorem Quat.mul_real (a b : Quat ℝ) : a * b =
    ⟨a.w * b.x + a.x * b.w + a.y * b.z - a.z * b.y,
     a.w * b.y - a.x * b.z + a.y * b.w + a.z * b.x,
     a.w * b.z + a.x * b.y - a.y * b.x + a.z * b.w,
     a.w * b.w - a.x * b.x - a.y * b.y - a.z * b.z⟩ := by
  have h : a * b =
    (let ww := (a.z + a.x) * (b.x + b.y)
     let yy := (a.w - a.y) * (b.w + b.z)
     let zz := (a.w + a.y) * (b.w - b.z)
     let xx := ww + yy + zz
     let qq := (lit 0.5 : ℝ) * (xx + (a.z - a.x) * (b.x - b.y))
     Quat.ofFloats
       (qq - ww + (a.z - a.y) * (b.y - b.z))
       (qq - xx + (a.x + a.w) * (b.x + b.w))
       (qq - yy + (a.w - a.x) * (b.y + b.z))
       (qq - zz + (a.z + a.y) * (b.w - b.x))) := rfl
  rw [h]
  ext <;> simp <;> ring

@[simp] theorem Quat.mul_x (a b : Quat ℝ) : (a * b).x = a.w * b.x + a.x * b.w + a.y * b.z - a.z * b.y := by
  rw [Quat.mul_real]
@[simp] theorem Quat.mul_y (a b : Quat ℝ) : (a * b).y = a.w * b.y - a.x * b.z + a.y * b.w + a.z * b.x := by
  rw [Quat.mul_real]
@[simp] theorem Quat.mul_z (a b : Quat ℝ) : (a * b).z = a.w * b.z + a.x * b.y - a.y * b.x + a.z * b.w := by
  rw [Quat.mul_real]
@[simp] theorem Quat.mul_w (a b : Quat ℝ) : (a * b).w = a.w * b.w - a.x * b.x - a.y * b.y - a.z * b.z := by
  rw [Quat.mul_real]

theorem ham_mul (a b : Quat ℝ) : ham (a * b) = ham a * ham b := by
  ext <;> simp
theorem ham_add (a b : Quat ℝ) : ham (a + b) = ham a + ham b := by
  ext <;> simp
theorem ham_neg (a : Quat ℝ) : ham (-a) = -ham a := by
  ext <;> simp
theorem ham_default : ham Quat.default = 1 := by
  ext <;> simp [Quat.default]
theorem ham_conjugate (a : Quat ℝ) : ham (Quat.conjugate a) = star (ham a) := by
  ext <;> simp [Quat.conjugate]
theorem ham_mulS (a : Quat ℝ) (s : ℝ) : ham (a * s) = s • ham a := by
  ext <;> simp <;> ring
theorem ham_smul (a : Quat ℝ) (s : ℝ) : ham (s * a) = s • ham a := by
  ext <;> simp <;> ring
theorem ham_normSq (a : Quat ℝ) : Quaternion.normSq (ham a) = Quat.dot a a := by
  rw [Quaternion.normSq_def']; simp [Quat.dot]; ring
theorem ham_norm (a : Quat ℝ) : ‖ham a‖ = Quat.length a := by
  rw [Quat.length_eq_sqrt_dot, ← ham_normSq, Quaternion.normSq_eq_norm_mul_self, Real.sqrt_mul_self (norm_nonneg _)]
theorem ham_inverse (a : Quat ℝ) : ham (Quat.inverse a) = (ham a)⁻¹ := by
  rw [Quaternion.inv_def, ham_normSq, ← ham_conjugate, Quat.inverse]
  ext <;> simp [div_eq_inv_mul]
theorem ham_ne_zero {a : Quat ℝ} (h : ∃ i, coord a i ≠ 0) : ham a ≠ 0 := by
  intro h0
  obtain ⟨i, hi⟩ := h
  apply hi
  have hx : a.x = 0 := congrArg QuaternionAlgebra.imI h0
  have hy : a.y = 0 := congrArg QuaternionAlgebra.imJ h0
  have hz : a.z = 0 := congrArg QuaternionAlgebra.imK h0
  have hw : a.w = 0 := congrArg QuaternionAlgebra.re h0
  fin_cases i <;> simp [hx, hy, hz, hw]

/-- `q * v`, component by component -/
theorem Quat.mulV_real (q : Quat ℝ) (v : V3 ℝ) : q * v =
    v + (2 * q.w) * V3.cross ⟨q.x, q.y, q.z⟩ v + (2:ℝ) * V3.cross ⟨q.x, q.y, q.z⟩ (V3.cross ⟨q.x, q.y, q.z⟩ v) := by
  show v + q.w * ((lit 2 : ℝ) * V3.cross ⟨q.x, q.y, q.z⟩ v) +
    V3.cross ⟨q.x, q.y, q.z⟩ ((lit 2 : ℝ) * V3.cross ⟨q.x, q.y, q.z⟩ v) = _
  ext <;> simp <;> ring

theorem Quat.mulV_x (q : Quat ℝ) (v : V3 ℝ) : (q * v).x = v.x + (2 * q.w) * (q.y * v.z - q.z * v.y) +
    2 * (q.y * (q.x * v.y - q.y * v.x) - q.z * (q.z * v.x - q.x * v.z)) := by
  rw [Quat.mulV_real]; simp
theorem Quat.mulV_y (q : Quat ℝ) (v : V3 ℝ) : (q * v).y = v.y + (2 * q.w) * (q.z * v.x - q.x * v.z) +
    2 * (q.z * (q.y * v.z - q.z * v.y) - q.x * (q.x * v.y - q.y * v.x)) := by
  rw [Quat.mulV_real]; simp
theorem Quat.mulV_z (q : Quat ℝ) (v : V3 ℝ) : (q * v).z = v.z + (2 * q.w) * (q.x * v.y - q.y * v.x) +
    2 * (q.x * (q.z * v.x - q.x * v.z) - q.y * (q.y * v.z - q.z * v.y)) := by
  rw [Quat.mulV_real]; simp

/-- for a unit quaternion `q * v` is the sandwich product -/
theorem pureQ_mulV {q : Quat ℝ} (h : Quat.length q = 1) (v : V3 ℝ) :
    pureQ (q * v) = ham q * pureQ v * (ham q)⁻¹ := by
  have h := Quat.dot_self_of_length h
  rw [Quaternion.inv_def, ham_normSq, h, inv_one, one_smul]
  simp only [Quat.dot] at h
  ext <;> simp [Quat.mulV_x, Quat.mulV_y, Quat.mulV_z] <;> grind

end Zcm
