import Verif.Spec.Linear
import Verif.Lemmas.Ops
import Mathlib.Tactic.Linarith
import Mathlib.Tactic.FieldSimp

/-!
# Lemmas: the matrix functions in exact arithmetic are those of Mathlib matrices
-/

namespace Zcm

open Matrix

@[simp] theorem toMat_apply {M : Type → Type} {n : ℕ} [Entries M n] {β : Type} (m : M β) (r c : Fin n) :
    toMat m r c = entry m c r := rfl

@[simp] theorem entry_m2_00 {β : Type} (m : M2 β) : entry m 0 0 = m.c0.x := rfl
@[simp] theorem entry_m2_01 {β : Type} (m : M2 β) : entry m 0 1 = m.c0.y := rfl
@[simp] theorem entry_m2_10 {β : Type} (m : M2 β) : entry m 1 0 = m.c1.x := rfl
@[simp] theorem entry_m2_11 {β : Type} (m : M2 β) : entry m 1 1 = m.c1.y := rfl
theorem M2.mul_c0x (a b : M2 ℝ) : (a * b).c0.x = a.c0.x * b.c0.x + a.c1.x * b.c0.y := rfl
theorem M2.mul_c0y (a b : M2 ℝ) : (a * b).c0.y = a.c0.y * b.c0.x + a.c1.y * b.c0.y := rfl
theorem M2.mul_c1x (a b : M2 ℝ) : (a * b).c1.x = a.c0.x * b.c1.x + a.c1.x * b.c1.y := rfl
theorem M2.mul_c1y (a b : M2 ℝ) : (a * b).c1.y = a.c0.y * b.c1.x + a.c1.y * b.c1.y := rfl
theorem M2.mulV_x (a : M2 ℝ) (v : V2 ℝ) : (a * v).x = a.c0.x * v.x + a.c1.x * v.y := rfl
theorem M2.vMul_x (a : M2 ℝ) (v : V2 ℝ) : (v * a).x = v.x * a.c0.x + v.y * a.c0.y := rfl
theorem M2.mulV_y (a : M2 ℝ) (v : V2 ℝ) : (a * v).y = a.c0.y * v.x + a.c1.y * v.y := rfl
theorem M2.vMul_y (a : M2 ℝ) (v : V2 ℝ) : (v * a).y = v.x * a.c1.x + v.y * a.c1.y := rfl

theorem M2.toMat_injective {a b : M2 ℝ} : toMat a = toMat b ↔ a = b := by
  rw [← entry_inj2]
  exact ⟨fun h c r => congrFun (congrFun h r) c, fun h => Matrix.ext fun r c => h c r⟩
theorem M2.coord_injective {a b : V2 ℝ} : coord a = coord b ↔ a = b := by
  rw [← coord_inj2]; exact funext_iff
theorem M2.toMat_mul (a b : M2 ℝ) : toMat (a * b) = toMat a * toMat b := by
  ext r c; rw [Matrix.mul_apply, Fin.sum_univ_two]; fin_cases r <;> fin_cases c <;> rfl
theorem M2.toMat_add (a b : M2 ℝ) : toMat (a + b) = toMat a + toMat b := by
  ext r c; fin_cases r <;> fin_cases c <;> rfl
theorem M2.toMat_sub (a b : M2 ℝ) : toMat (a - b) = toMat a - toMat b := by
  ext r c; fin_cases r <;> fin_cases c <;> rfl
theorem M2.toMat_neg (a : M2 ℝ) : toMat (-a) = -toMat a := by
  ext r c; fin_cases r <;> fin_cases c <;> rfl
theorem M2.toMat_smul (s : ℝ) (a : M2 ℝ) : toMat (s * a) = s • toMat a := by
  ext r c; fin_cases r <;> fin_cases c <;> rfl
theorem M2.toMat_mulS (a : M2 ℝ) (s : ℝ) : toMat (a * s) = s • toMat a := by
  ext r c; fin_cases r <;> fin_cases c <;> exact mul_comm _ _
theorem M2.toMat_divS (a : M2 ℝ) (s : ℝ) : toMat (a / s) = s⁻¹ • toMat a := by
  ext r c; fin_cases r <;> fin_cases c <;> exact div_eq_inv_mul _ _
theorem M2.toMat_default : toMat (M2.default : M2 ℝ) = 1 := by
  ext r c
  fin_cases r <;> fin_cases c <;> simp [M2.default, M2.diag, Matrix.one_apply]
theorem M2.coord_mulV (a : M2 ℝ) (v : V2 ℝ) : coord (a * v) = toMat a *ᵥ coord v := by
  ext r; simp only [Matrix.mulVec, dotProduct, Fin.sum_univ_two]
  fin_cases r <;> simp [M2.mulV_x, M2.mulV_y]
theorem M2.coord_vMul (v : V2 ℝ) (a : M2 ℝ) : coord (v * a) = coord v ᵥ* toMat a := by
  ext r; simp only [Matrix.vecMul, dotProduct, Fin.sum_univ_two]
  fin_cases r <;> simp [M2.vMul_x, M2.vMul_y]
theorem M2.toMat_transpose (a : M2 ℝ) : toMat (M2.transpose a) = (toMat a)ᵀ := by
  ext r c; fin_cases r <;> fin_cases c <;> rfl
theorem M2.det_toMat (a : M2 ℝ) : (toMat a).det = M2.determinant a := by
  simp [Matrix.det_fin_two, M2.determinant]
theorem M2.toMat_adjugate (a : M2 ℝ) : toMat (M2.adjugate a) = (toMat a).adjugate := by
  ext r c
  rw [Matrix.adjugate_fin_two]
  fin_cases r <;> fin_cases c <;> simp [M2.adjugate, M2.ofFloats]
theorem M2.inverse_eq (a : M2 ℝ) : M2.inverse a = M2.adjugate a / M2.determinant a := by
  ext <;> simp [M2.inverse, M2.adjugate, M2.determinant, M2.ofFloats, div_eq_mul_inv]
theorem M2.toMat_inverse (a : M2 ℝ) : toMat (M2.inverse a) = (toMat a)⁻¹ := by
  rw [Matrix.inv_def, Ring.inverse_eq_inv', M2.inverse_eq, M2.toMat_divS, M2.toMat_adjugate, M2.det_toMat]

@[simp] theorem entry_m3_00 {β : Type} (m : M3 β) : entry m 0 0 = m.c0.x := rfl
@[simp] theorem entry_m3_01 {β : Type} (m : M3 β) : entry m 0 1 = m.c0.y := rfl
@[simp] theorem entry_m3_02 {β : Type} (m : M3 β) : entry m 0 2 = m.c0.z := rfl
@[simp] theorem entry_m3_10 {β : Type} (m : M3 β) : entry m 1 0 = m.c1.x := rfl
@[simp] theorem entry_m3_11 {β : Type} (m : M3 β) : entry m 1 1 = m.c1.y := rfl
@[simp] theorem entry_m3_12 {β : Type} (m : M3 β) : entry m 1 2 = m.c1.z := rfl
@[simp] theorem entry_m3_20 {β : Type} (m : M3 β) : entry m 2 0 = m.c2.x := rfl
@[simp] theorem entry_m3_21 {β : Type} (m : M3 β) : entry m 2 1 = m.c2.y := rfl
@[simp] theorem entry_m3_22 {β : Type} (m : M3 β) : entry m 2 2 = m.c2.z := rfl
theorem M3.mul_c0x (a b : M3 ℝ) : (a * b).c0.x = a.c0.x * b.c0.x + a.c1.x * b.c0.y + a.c2.x * b.c0.z := rfl
theorem M3.mul_c0y (a b : M3 ℝ) : (a * b).c0.y = a.c0.y * b.c0.x + a.c1.y * b.c0.y + a.c2.y * b.c0.z := rfl
theorem M3.mul_c0z (a b : M3 ℝ) : (a * b).c0.z = a.c0.z * b.c0.x + a.c1.z * b.c0.y + a.c2.z * b.c0.z := rfl
theorem M3.mul_c1x (a b : M3 ℝ) : (a * b).c1.x = a.c0.x * b.c1.x + a.c1.x * b.c1.y + a.c2.x * b.c1.z := rfl
theorem M3.mul_c1y (a b : M3 ℝ) : (a * b).c1.y = a.c0.y * b.c1.x + a.c1.y * b.c1.y + a.c2.y * b.c1.z := rfl
theorem M3.mul_c1z (a b : M3 ℝ) : (a * b).c1.z = a.c0.z * b.c1.x + a.c1.z * b.c1.y + a.c2.z * b.c1.z := rfl
theorem M3.mul_c2x (a b : M3 ℝ) : (a * b).c2.x = a.c0.x * b.c2.x + a.c1.x * b.c2.y + a.c2.x * b.c2.z := rfl
theorem M3.mul_c2y (a b : M3 ℝ) : (a * b).c2.y = a.c0.y * b.c2.x + a.c1.y * b.c2.y + a.c2.y * b.c2.z := rfl
theorem M3.mul_c2z (a b : M3 ℝ) : (a * b).c2.z = a.c0.z * b.c2.x + a.c1.z * b.c2.y + a.c2.z * b.c2.z := rfl
theorem M3.mulV_x (a : M3 ℝ) (v : V3 ℝ) : (a * v).x = a.c0.x * v.x + a.c1.x * v.y + a.c2.x * v.z := rfl
theorem M3.vMul_x (a : M3 ℝ) (v : V3 ℝ) : (v * a).x = a.c0.x * v.x + a.c0.y * v.y + a.c0.z * v.z := rfl
theorem M3.mulV_y (a : M3 ℝ) (v : V3 ℝ) : (a * v).y = a.c0.y * v.x + a.c1.y * v.y + a.c2.y * v.z := rfl
theorem M3.vMul_y (a : M3 ℝ) (v : V3 ℝ) : (v * a).y = a.c1.x * v.x + a.c1.y * v.y + a.c1.z * v.z := rfl
theorem M3.mulV_z (a : M3 ℝ) (v : V3 ℝ) : (a * v).z = a.c0.z * v.x + a.c1.z * v.y + a.c2.z * v.z := rfl
theorem M3.vMul_z (a : M3 ℝ) (v : V3 ℝ) : (v * a).z = a.c2.x * v.x + a.c2.y * v.y + a.c2.z * v.z := rfl

theorem M3.toMat_injective {a b : M3 ℝ} : toMat a = toMat b ↔ a = b := by
  rw [← entry_inj3]
  exact ⟨fun h c r => congrFun (congrFun h r) c, fun h => Matrix.ext fun r c => h c r⟩
theorem M3.coord_injective {a b : V3 ℝ} : coord a = coord b ↔ a = b := by
  rw [← coord_inj3]; exact funext_iff
theorem M3.toMat_mul (a b : M3 ℝ) : toMat (a * b) = toMat a * toMat b := by
  ext r c; rw [Matrix.mul_apply, Fin.sum_univ_three]; fin_cases r <;> fin_cases c <;> rfl
theorem M3.toMat_add (a b : M3 ℝ) : toMat (a + b) = toMat a + toMat b := by
  ext r c; fin_cases r <;> fin_cases c <;> rfl
theorem M3.toMat_sub (a b : M3 ℝ) : toMat (a - b) = toMat a - toMat b := by
  ext r c; fin_cases r <;> fin_cases c <;> rfl
theorem M3.toMat_neg (a : M3 ℝ) : toMat (-a) = -toMat a := by
  ext r c; fin_cases r <;> fin_cases c <;> rfl
theorem M3.toMat_smul (s : ℝ) (a : M3 ℝ) : toMat (s * a) = s • toMat a := by
  ext r c; fin_cases r <;> fin_cases c <;> rfl
theorem M3.toMat_mulS (a : M3 ℝ) (s : ℝ) : toMat (a * s) = s • toMat a := by
  ext r c; fin_cases r <;> fin_cases c <;> exact mul_comm _ _
theorem M3.toMat_divS (a : M3 ℝ) (s : ℝ) : toMat (a / s) = s⁻¹ • toMat a := by
  ext r c; fin_cases r <;> fin_cases c <;> exact div_eq_inv_mul _ _
theorem M3.toMat_default : toMat (M3.default : M3 ℝ) = 1 := by
  ext r c
  fin_cases r <;> fin_cases c <;> simp [M3.default, M3.diag, Matrix.one_apply]
theorem M3.coord_mulV (a : M3 ℝ) (v : V3 ℝ) : coord (a * v) = toMat a *ᵥ coord v := by
  ext r; simp only [Matrix.mulVec, dotProduct, Fin.sum_univ_three]
  fin_cases r <;> simp [M3.mulV_x, M3.mulV_y, M3.mulV_z]
theorem M3.coord_vMul (v : V3 ℝ) (a : M3 ℝ) : coord (v * a) = coord v ᵥ* toMat a := by
  ext r; simp only [Matrix.vecMul, dotProduct, Fin.sum_univ_three]
  fin_cases r <;> simp [M3.vMul_x, M3.vMul_y, M3.vMul_z] <;> ring
theorem M3.toMat_transpose (a : M3 ℝ) : toMat (M3.transpose a) = (toMat a)ᵀ := by
  ext r c; fin_cases r <;> fin_cases c <;> rfl
theorem M3.det_toMat (a : M3 ℝ) : (toMat a).det = M3.determinant a := by
  simp [Matrix.det_fin_three, M3.determinant]; ring
theorem M3.toMat_adjugate (a : M3 ℝ) : toMat (M3.adjugate a) = (toMat a).adjugate := by
  ext r c
  rw [Matrix.adjugate_fin_three]
  fin_cases r <;> fin_cases c <;> simp [M3.adjugate] <;> ring
theorem M3.inverse_eq (a : M3 ℝ) : M3.inverse a = M3.adjugate a / M3.determinant a := by
  ext <;> simp [M3.inverse, M3.adjugate, M3.determinant, div_eq_mul_inv]
theorem M3.toMat_inverse (a : M3 ℝ) : toMat (M3.inverse a) = (toMat a)⁻¹ := by
  rw [Matrix.inv_def, Ring.inverse_eq_inv', M3.inverse_eq, M3.toMat_divS, M3.toMat_adjugate, M3.det_toMat]

@[simp] theorem entry_m4_00 {β : Type} (m : M4 β) : entry m 0 0 = m.c0.x := rfl
@[simp] theorem entry_m4_01 {β : Type} (m : M4 β) : entry m 0 1 = m.c0.y := rfl
@[simp] theorem entry_m4_02 {β : Type} (m : M4 β) : entry m 0 2 = m.c0.z := rfl
@[simp] theorem entry_m4_03 {β : Type} (m : M4 β) : entry m 0 3 = m.c0.w := rfl
@[simp] theorem entry_m4_10 {β : Type} (m : M4 β) : entry m 1 0 = m.c1.x := rfl
@[simp] theorem entry_m4_11 {β : Type} (m : M4 β) : entry m 1 1 = m.c1.y := rfl
@[simp] theorem entry_m4_12 {β : Type} (m : M4 β) : entry m 1 2 = m.c1.z := rfl
@[simp] theorem entry_m4_13 {β : Type} (m : M4 β) : entry m 1 3 = m.c1.w := rfl
@[simp] theorem entry_m4_20 {β : Type} (m : M4 β) : entry m 2 0 = m.c2.x := rfl
@[simp] theorem entry_m4_21 {β : Type} (m : M4 β) : entry m 2 1 = m.c2.y := rfl
@[simp] theorem entry_m4_22 {β : Type} (m : M4 β) : entry m 2 2 = m.c2.z := rfl
@[simp] theorem entry_m4_23 {β : Type} (m : M4 β) : entry m 2 3 = m.c2.w := rfl
@[simp] theorem entry_m4_30 {β : Type} (m : M4 β) : entry m 3 0 = m.c3.x := rfl
@[simp] theorem entry_m4_31 {β : Type} (m : M4 β) : entry m 3 1 = m.c3.y := rfl
@[simp] theorem entry_m4_32 {β : Type} (m : M4 β) : entry m 3 2 = m.c3.z := rfl
@[simp] theorem entry_m4_33 {β : Type} (m : M4 β) : entry m 3 3 = m.c3.w := rfl
theorem M4.mul_c0x (a b : M4 ℝ) : (a * b).c0.x = a.c0.x * b.c0.x + a.c1.x * b.c0.y + a.c2.x * b.c0.z + a.c3.x * b.c0.w := rfl
theorem M4.mul_c0y (a b : M4 ℝ) : (a * b).c0.y = a.c0.y * b.c0.x + a.c1.y * b.c0.y + a.c2.y * b.c0.z + a.c3.y * b.c0.w := rfl
theorem M4.mul_c0z (a b : M4 ℝ) : (a * b).c0.z = a.c0.z * b.c0.x + a.c1.z * b.c0.y + a.c2.z * b.c0.z + a.c3.z * b.c0.w := rfl
theorem M4.mul_c0w (a b : M4 ℝ) : (a * b).c0.w = a.c0.w * b.c0.x + a.c1.w * b.c0.y + a.c2.w * b.c0.z + a.c3.w * b.c0.w := rfl
theorem M4.mul_c1x (a b : M4 ℝ) : (a * b).c1.x = a.c0.x * b.c1.x + a.c1.x * b.c1.y + a.c2.x * b.c1.z + a.c3.x * b.c1.w := rfl
theorem M4.mul_c1y (a b : M4 ℝ) : (a * b).c1.y = a.c0.y * b.c1.x + a.c1.y * b.c1.y + a.c2.y * b.c1.z + a.c3.y * b.c1.w := rfl
theorem M4.mul_c1z (a b : M4 ℝ) : (a * b).c1.z = a.c0.z * b.c1.x + a.c1.z * b.c1.y + a.c2.z * b.c1.z + a.c3.z * b.c1.w := rfl
theorem M4.mul_c1w (a b : M4 ℝ) : (a * b).c1.w = a.c0.w * b.c1.x + a.c1.w * b.c1.y + a.c2.w * b.c1.z + a.c3.w * b.c1.w := rfl
theorem M4.mul_c2x (a b : M4 ℝ) : (a * b).c2.x = a.c0.x * b.c2.x + a.c1.x * b.c2.y + a.c2.x * b.c2.z + a.c3.x * b.c2.w := rfl
theorem M4.mul_c2y (a b : M4 ℝ) : (a * b).c2.y = a.c0.y * b.c2.x + a.c1.y * b.c2.y + a.c2.y * b.c2.z + a.c3.y * b.c2.w := rfl
theorem M4.mul_c2z (a b : M4 ℝ) : (a * b).c2.z = a.c0.z * b.c2.x + a.c1.z * b.c2.y + a.c2.z * b.c2.z + a.c3.z * b.c2.w := rfl
theorem M4.mul_c2w (a b : M4 ℝ) : (a * b).c2.w = a.c0.w * b.c2.x + a.c1.w * b.c2.y + a.c2.w * b.c2.z + a.c3.w * b.c2.w := rfl
theorem M4.mul_c3x (a b : M4 ℝ) : (a * b).c3.x = a.c0.x * b.c3.x + a.c1.x * b.c3.y + a.c2.x * b.c3.z + a.c3.x * b.c3.w := rfl
theorem M4.mul_c3y (a b : M4 ℝ) : (a * b).c3.y = a.c0.y * b.c3.x + a.c1.y * b.c3.y + a.c2.y * b.c3.z + a.c3.y * b.c3.w := rfl
theorem M4.mul_c3z (a b : M4 ℝ) : (a * b).c3.z = a.c0.z * b.c3.x + a.c1.z * b.c3.y + a.c2.z * b.c3.z + a.c3.z * b.c3.w := rfl
theorem M4.mul_c3w (a b : M4 ℝ) : (a * b).c3.w = a.c0.w * b.c3.x + a.c1.w * b.c3.y + a.c2.w * b.c3.z + a.c3.w * b.c3.w := rfl
theorem M4.mulV_x (a : M4 ℝ) (v : V4 ℝ) : (a * v).x = a.c0.x * v.x + a.c1.x * v.y + (a.c2.x * v.z + a.c3.x * v.w) := rfl
theorem M4.vMul_x (a : M4 ℝ) (v : V4 ℝ) : (v * a).x = a.c0.x * v.x + a.c0.y * v.y + a.c0.z * v.z + a.c0.w * v.w := rfl
theorem M4.mulV_y (a : M4 ℝ) (v : V4 ℝ) : (a * v).y = a.c0.y * v.x + a.c1.y * v.y + (a.c2.y * v.z + a.c3.y * v.w) := rfl
theorem M4.vMul_y (a : M4 ℝ) (v : V4 ℝ) : (v * a).y = a.c1.x * v.x + a.c1.y * v.y + a.c1.z * v.z + a.c1.w * v.w := rfl
theorem M4.mulV_z (a : M4 ℝ) (v : V4 ℝ) : (a * v).z = a.c0.z * v.x + a.c1.z * v.y + (a.c2.z * v.z + a.c3.z * v.w) := rfl
theorem M4.vMul_z (a : M4 ℝ) (v : V4 ℝ) : (v * a).z = a.c2.x * v.x + a.c2.y * v.y + a.c2.z * v.z + a.c2.w * v.w := rfl
theorem M4.mulV_w (a : M4 ℝ) (v : V4 ℝ) : (a * v).w = a.c0.w * v.x + a.c1.w * v.y + (a.c2.w * v.z + a.c3.w * v.w) := rfl
theorem M4.vMul_w (a : M4 ℝ) (v : V4 ℝ) : (v * a).w = a.c3.x * v.x + a.c3.y * v.y + a.c3.z * v.z + a.c3.w * v.w := rfl

theorem M4.toMat_injective {a b : M4 ℝ} : toMat a = toMat b ↔ a = b := by
  rw [← entry_inj4]
  exact ⟨fun h c r => congrFun (congrFun h r) c, fun h => Matrix.ext fun r c => h c r⟩
theorem M4.coord_injective {a b : V4 ℝ} : coord a = coord b ↔ a = b := by
  rw [← coord_inj4]; exact funext_iff
theorem M4.toMat_mul (a b : M4 ℝ) : toMat (a * b) = toMat a * toMat b := by
  ext r c; rw [Matrix.mul_apply, Fin.sum_univ_four]; fin_cases r <;> fin_cases c <;> rfl
theorem M4.toMat_add (a b : M4 ℝ) : toMat (a + b) = toMat a + toMat b := by
  ext r c; fin_cases r <;> fin_cases c <;> rfl
theorem M4.toMat_sub (a b : M4 ℝ) : toMat (a - b) = toMat a - toMat b := by
  ext r c; fin_cases r <;> fin_cases c <;> rfl
theorem M4.toMat_neg (a : M4 ℝ) : toMat (-a) = -toMat a := by
  ext r c; fin_cases r <;> fin_cases c <;> rfl
theorem M4.toMat_smul (s : ℝ) (a : M4 ℝ) : toMat (s * a) = s • toMat a := by
  ext r c; fin_cases r <;> fin_cases c <;> rfl
theorem M4.toMat_mulS (a : M4 ℝ) (s : ℝ) : toMat (a * s) = s • toMat a := by
  ext r c; fin_cases r <;> fin_cases c <;> exact mul_comm _ _
theorem M4.toMat_divS (a : M4 ℝ) (s : ℝ) : toMat (a / s) = s⁻¹ • toMat a := by
  ext r c; fin_cases r <;> fin_cases c <;> exact div_eq_inv_mul _ _
theorem M4.toMat_default : toMat (M4.default : M4 ℝ) = 1 := by
  ext r c
  fin_cases r <;> fin_cases c <;> simp [M4.default, M4.diag, Matrix.one_apply]
theorem M4.coord_mulV (a : M4 ℝ) (v : V4 ℝ) : coord (a * v) = toMat a *ᵥ coord v := by
  ext r; simp only [Matrix.mulVec, dotProduct, Fin.sum_univ_four]
  fin_cases r <;> simp [M4.mulV_x, M4.mulV_y, M4.mulV_z, M4.mulV_w] <;> ring
theorem M4.coord_vMul (v : V4 ℝ) (a : M4 ℝ) : coord (v * a) = coord v ᵥ* toMat a := by
  ext r; simp only [Matrix.vecMul, dotProduct, Fin.sum_univ_four]
  fin_cases r <;> simp [M4.vMul_x, M4.vMul_y, M4.vMul_z, M4.vMul_w] <;> ring
theorem M4.toMat_transpose (a : M4 ℝ) : toMat (M4.transpose a) = (toMat a)ᵀ := by
  ext r c; fin_cases r <;> fin_cases c <;> rfl
theorem M4.det_toMat (a : M4 ℝ) : (toMat a).det = M4.determinant a := by
  simp [Matrix.det_succ_row_zero, Fin.sum_univ_succ, Matrix.det_fin_three, M4.determinant, Fin.succAbove]
  ring
set_option maxHeartbeats 1000000 in
theorem M4.toMat_adjugate (a : M4 ℝ) : toMat (M4.adjugate a) = (toMat a).adjugate := by
  ext r c
  rw [Matrix.adjugate_fin_succ_eq_det_submatrix, Matrix.det_fin_three]
  fin_cases r <;> fin_cases c <;> simp [M4.adjugate, Fin.succAbove] <;> ring
theorem M4.inverse_eq (a : M4 ℝ) : M4.inverse a = M4.adjugate a / M4.determinant a := by
  have h : ∀ m : M4 ℝ, (m.c0 * (⟨(M4.adjugate m).c0.x, (M4.adjugate m).c1.x, (M4.adjugate m).c2.x, (M4.adjugate m).c3.x⟩ : V4 ℝ)).x +
      (m.c0 * (⟨(M4.adjugate m).c0.x, (M4.adjugate m).c1.x, (M4.adjugate m).c2.x, (M4.adjugate m).c3.x⟩ : V4 ℝ)).y +
      ((m.c0 * (⟨(M4.adjugate m).c0.x, (M4.adjugate m).c1.x, (M4.adjugate m).c2.x, (M4.adjugate m).c3.x⟩ : V4 ℝ)).z +
      (m.c0 * (⟨(M4.adjugate m).c0.x, (M4.adjugate m).c1.x, (M4.adjugate m).c2.x, (M4.adjugate m).c3.x⟩ : V4 ℝ)).w) = M4.determinant m := by
    intro m
    simp [M4.adjugate, M4.determinant]; ring
  show M4.adjugate a * ((lit 1 : ℝ) / (_ : ℝ)) = _
  rw [show M4.adjugate a / M4.determinant a = M4.adjugate a * ((lit 1 : ℝ) / M4.determinant a) by
    ext <;> simp [div_eq_mul_inv]]
  congr 2
  exact h a
theorem M4.toMat_inverse (a : M4 ℝ) : toMat (M4.inverse a) = (toMat a)⁻¹ := by
  rw [Matrix.inv_def, Ring.inverse_eq_inv', M4.inverse_eq, M4.toMat_divS, M4.toMat_adjugate, M4.det_toMat]

end Zcm
