import Verif.Spec.Coord
import Verif.Lemmas.F32
import Verif.Model.Common

/-!
# C27: isnan and isinf classify per component
-/

namespace Zcm

open F32

/-- C27, scalar: `isnan` is exactly `x != x`, `isinf` exactly `x == ±∞`, and no value is both. -/
theorem C27_float (x : F32) :
    (F.isnan x = true ↔ x = .nan) ∧ (F.isnan x = true ↔ (x == x) = false) ∧
    (F.isinf x = true ↔ ∃ s, x = .inf s) ∧
    ¬ (F.isnan x = true ∧ F.isinf x = true) ∧
    (x.IsFin = true ↔ F.isnan x = false ∧ F.isinf x = false) := by
  have hb : ∀ y : F32, y ≠ .nan → (y == y) = true := fun y hy => beq_iff.2 ⟨hy, hy, rfl⟩
  cases x with
  | nan => simp [F.isnan, FloatOps.isnan, F.isinf, FloatOps.isinf, IsFin]
  | inf s => simp [F.isnan, FloatOps.isnan, F.isinf, FloatOps.isinf, IsFin, hb (inf s) (by simp)]
  | fin s k h => simp [F.isnan, FloatOps.isnan, F.isinf, FloatOps.isinf, IsFin, hb (fin s k h) (by simp)]

/-- C27, `vec2`. -/
theorem C27_vec2 (x : V2 F32) (i : Fin 2) :
    (coord (V2.isnan x) i = true ↔ coord x i = .nan) ∧
    (coord (V2.isinf x) i = true ↔ ∃ s, coord x i = .inf s) := by
  fin_cases i <;> exact ⟨(C27_float _).1, (C27_float _).2.2.1⟩

/-- C27, `vec3`. -/
theorem C27_vec3 (x : V3 F32) (i : Fin 3) :
    (coord (V3.isnan x) i = true ↔ coord x i = .nan) ∧
    (coord (V3.isinf x) i = true ↔ ∃ s, coord x i = .inf s) := by
  fin_cases i <;> exact ⟨(C27_float _).1, (C27_float _).2.2.1⟩

/-- C27, `vec4`. -/
theorem C27_vec4 (x : V4 F32) (i : Fin 4) :
    (coord (V4.isnan x) i = true ↔ coord x i = .nan) ∧
    (coord (V4.isinf x) i = true ↔ ∃ s, coord x i = .inf s) := by
  fin_cases i <;> exact ⟨(C27_float _).1, (C27_float _).2.2.1⟩

/-- C27, `quat`. -/
theorem C27_quat (x : Quat F32) (i : Fin 4) :
    (coord (Quat.isnan x) i = true ↔ coord x i = .nan) ∧
    (coord (Quat.isinf x) i = true ↔ ∃ s, coord x i = .inf s) := by
  fin_cases i <;> exact ⟨(C27_float _).1, (C27_float _).2.2.1⟩

/-- Non-vacuity: 0/0 is NaN, 1/0 is infinite. -/
example : V2.isnan (⟨lit 0 / lit 0, lit 1 / lit 0⟩ : V2 F32) = ⟨true, false⟩ ∧
    V2.isinf (⟨lit 0 / lit 0, lit 1 / lit 0⟩ : V2 F32) = ⟨false, true⟩ := by decide +kernel

end Zcm
