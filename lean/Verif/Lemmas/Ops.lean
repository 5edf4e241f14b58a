import Verif.Model.Quat

/-!
# Components of the results of the operators, as rewrite rules
-/

namespace Zcm

variable {α : Type} [Add α] [Sub α] [Mul α] [Div α] [Neg α] [FloatOps α] [Libm α]
  [LT α] [DecidableLT α] [LE α] [DecidableLE α] [BEq α]

@[simp] theorem Quat.ofSV_x (s : α) (v : V3 α) : (Quat.ofSV s v).x = v.x := rfl
@[simp] theorem Quat.ofVS_x (s : α) (v : V3 α) : (Quat.ofVS v s).x = v.x := rfl
@[simp] theorem Quat.ofSV_y (s : α) (v : V3 α) : (Quat.ofSV s v).y = v.y := rfl
@[simp] theorem Quat.ofVS_y (s : α) (v : V3 α) : (Quat.ofVS v s).y = v.y := rfl
@[simp] theorem Quat.ofSV_z (s : α) (v : V3 α) : (Quat.ofSV s v).z = v.z := rfl
@[simp] theorem Quat.ofVS_z (s : α) (v : V3 α) : (Quat.ofVS v s).z = v.z := rfl
@[simp] theorem Quat.ofSV_w (s : α) (v : V3 α) : (Quat.ofSV s v).w = s := rfl
@[simp] theorem Quat.ofVS_w (s : α) (v : V3 α) : (Quat.ofVS v s).w = s := rfl
@[simp] theorem V3.cross_x (a b : V3 α) : (V3.cross a b).x = a.y * b.z - a.z * b.y := rfl
@[simp] theorem V3.cross_y (a b : V3 α) : (V3.cross a b).y = a.z * b.x - a.x * b.z := rfl
@[simp] theorem V3.cross_z (a b : V3 α) : (V3.cross a b).z = a.x * b.y - a.y * b.x := rfl

@[simp] theorem F.sqrt_real (x : ℝ) : F.sqrt x = Real.sqrt x := rfl
@[simp] theorem F.abs_real (x : ℝ) : F.abs x = |x| := rfl
theorem F.inversesqrt_real (x : ℝ) : F.inversesqrt x = 1 / Real.sqrt x := by
  simp [F.inversesqrt]
@[simp] theorem F.sin_real (x : ℝ) : F.sin x = Real.sin x := rfl
@[simp] theorem F.cos_real (x : ℝ) : F.cos x = Real.cos x := rfl
@[simp] theorem F.tan_real (x : ℝ) : F.tan x = Real.tan x := rfl
@[simp] theorem F.asin_real (x : ℝ) : F.asin x = Real.arcsin x := rfl
@[simp] theorem F.acos_real (x : ℝ) : F.acos x = Real.arccos x := rfl
@[simp] theorem F.atan2_real (y x : ℝ) : F.atan2 y x = Complex.arg ⟨x, y⟩ := rfl

end Zcm
