import Verif.Model.Common

/-!
# Angle and trigonometry functions

Model of src/angle_and_trigonometry.cpp and src/detail/utils.hpp.
-/

namespace Zcm

variable {α : Type} [Add α] [Sub α] [Mul α] [Div α] [Neg α] [FloatOps α] [Libm α]
  [LT α] [DecidableLT α] [LE α] [DecidableLE α] [BEq α]

/-- `detail::applyOp(float, op)` src/detail/utils.hpp:11-15 -/
def applyOp1 (v : α) (op : α → α) : α := op v

/-- `detail::applyOp(vec2, op)` src/detail/utils.hpp:17-21 -/
def V2.applyOp (v : V2 α) (op : α → α) : V2 α := ⟨op v.x, op v.y⟩

/-- `detail::applyOp(vec3, op)` src/detail/utils.hpp:23-27 -/
def V3.applyOp (v : V3 α) (op : α → α) : V3 α := ⟨op v.x, op v.y, op v.z⟩

/-- `detail::applyOp(vec4, op)` src/detail/utils.hpp:29-33 -/
def V4.applyOp (v : V4 α) (op : α → α) : V4 α := ⟨op v.x, op v.y, op v.z, op v.w⟩

/-- `detail::degreesf` src/angle_and_trigonometry.cpp:14-17 -/
def degreesf (radians : α) : α := radians * lit 57.2957795130823

/-- `detail::radiansf` src/angle_and_trigonometry.cpp:19-22 -/
def radiansf (degrees : α) : α := degrees * lit 0.01745329251994

/-- `cos(float)` src/angle_and_trigonometry.cpp:29-32 -/
def F.cos (x : α) : α := applyOp1 x Libm.cosf

/-- `cos` on `vec2` src/angle_and_trigonometry.cpp:34-37 -/
def V2.cos (x : V2 α) : V2 α := V2.applyOp x Libm.cosf

/-- `cos` on `vec3` src/angle_and_trigonometry.cpp:39-42 -/
def V3.cos (x : V3 α) : V3 α := V3.applyOp x Libm.cosf

/-- `cos` on `vec4` src/angle_and_trigonometry.cpp:44-47 -/
def V4.cos (x : V4 α) : V4 α := V4.applyOp x Libm.cosf

/-- `sin(float)` src/angle_and_trigonometry.cpp:51-54 -/
def F.sin (x : α) : α := applyOp1 x Libm.sinf

/-- `sin` on `vec2` src/angle_and_trigonometry.cpp:56-59 -/
def V2.sin (x : V2 α) : V2 α := V2.applyOp x Libm.sinf

/-- `sin` on `vec3` src/angle_and_trigonometry.cpp:61-64 -/
def V3.sin (x : V3 α) : V3 α := V3.applyOp x Libm.sinf

/-- `sin` on `vec4` src/angle_and_trigonometry.cpp:66-69 -/
def V4.sin (x : V4 α) : V4 α := V4.applyOp x Libm.sinf

/-- `acos(float)` src/angle_and_trigonometry.cpp:74-77 -/
def F.acos (x : α) : α := applyOp1 x Libm.acosf

/-- `acos` on `vec2` src/angle_and_trigonometry.cpp:79-82 -/
def V2.acos (x : V2 α) : V2 α := V2.applyOp x Libm.acosf

/-- `acos` on `vec3` src/angle_and_trigonometry.cpp:84-87 -/
def V3.acos (x : V3 α) : V3 α := V3.applyOp x Libm.acosf

/-- `acos` on `vec4` src/angle_and_trigonometry.cpp:89-92 -/
def V4.acos (x : V4 α) : V4 α := V4.applyOp x Libm.acosf

/-- `acosh(float)` src/angle_and_trigonometry.cpp:97-100 -/
def F.acosh (x : α) : α := applyOp1 x Libm.acoshf

/-- `acosh` on `vec2` src/angle_and_trigonometry.cpp:102-105 -/
def V2.acosh (x : V2 α) : V2 α := V2.applyOp x Libm.acoshf

/-- `acosh` on `vec3` src/angle_and_trigonometry.cpp:107-110 -/
def V3.acosh (x : V3 α) : V3 α := V3.applyOp x Libm.acoshf

/-- `acosh` on `vec4` src/angle_and_trigonometry.cpp:112-115 -/
def V4.acosh (x : V4 α) : V4 α := V4.applyOp x Libm.acoshf

/-- `asin(float)` src/angle_and_trigonometry.cpp:121-124 -/
def F.asin (x : α) : α := applyOp1 x Libm.asinf

/-- `asin` on `vec2` src/angle_and_trigonometry.cpp:126-129 -/
def V2.asin (x : V2 α) : V2 α := V2.applyOp x Libm.asinf

/-- `asin` on `vec3` src/angle_and_trigonometry.cpp:131-134 -/
def V3.asin (x : V3 α) : V3 α := V3.applyOp x Libm.asinf

/-- `asin` on `vec4` src/angle_and_trigonometry.cpp:136-139 -/
def V4.asin (x : V4 α) : V4 α := V4.applyOp x Libm.asinf

/-- `asinh(float)` src/angle_and_trigonometry.cpp:143-146 -/
def F.asinh (x : α) : α := applyOp1 x Libm.asinhf

/-- `asinh` on `vec2` src/angle_and_trigonometry.cpp:148-151 -/
def V2.asinh (x : V2 α) : V2 α := V2.applyOp x Libm.asinhf

/-- `asinh` on `vec3` src/angle_and_trigonometry.cpp:153-156 -/
def V3.asinh (x : V3 α) : V3 α := V3.applyOp x Libm.asinhf

/-- `asinh` on `vec4` src/angle_and_trigonometry.cpp:158-161 -/
def V4.asinh (x : V4 α) : V4 α := V4.applyOp x Libm.asinhf

/-- `atan(float y, float x)` src/angle_and_trigonometry.cpp:165-168 -/
def F.atan2 (y x : α) : α := Libm.atan2f y x

/-- `atan(y, x)` on `vec2` src/angle_and_trigonometry.cpp:170-173 -/
def V2.atan2 (y x : V2 α) : V2 α := ⟨Libm.atan2f y.x x.x, Libm.atan2f y.y x.y⟩

/-- `atan(y, x)` on `vec3` src/angle_and_trigonometry.cpp:175-178 -/
def V3.atan2 (y x : V3 α) : V3 α := ⟨Libm.atan2f y.x x.x, Libm.atan2f y.y x.y, Libm.atan2f y.z x.z⟩

/-- `atan(y, x)` on `vec4` src/angle_and_trigonometry.cpp:180-183 -/
def V4.atan2 (y x : V4 α) : V4 α := ⟨Libm.atan2f y.x x.x, Libm.atan2f y.y x.y, Libm.atan2f y.z x.z, Libm.atan2f y.w x.w⟩

/-- `atan(float)` src/angle_and_trigonometry.cpp:187-190 -/
def F.atan (x : α) : α := applyOp1 x Libm.atanf

/-- `atan` on `vec2` src/angle_and_trigonometry.cpp:192-195 -/
def V2.atan (x : V2 α) : V2 α := V2.applyOp x Libm.atanf

/-- `atan` on `vec3` src/angle_and_trigonometry.cpp:197-200 -/
def V3.atan (x : V3 α) : V3 α := V3.applyOp x Libm.atanf

/-- `atan` on `vec4` src/angle_and_trigonometry.cpp:202-205 -/
def V4.atan (x : V4 α) : V4 α := V4.applyOp x Libm.atanf

/-- `atanh(float)` src/angle_and_trigonometry.cpp:210-213 -/
def F.atanh (x : α) : α := applyOp1 x Libm.atanhf

/-- `atanh` on `vec2` src/angle_and_trigonometry.cpp:215-218 -/
def V2.atanh (x : V2 α) : V2 α := V2.applyOp x Libm.atanhf

/-- `atanh` on `vec3` src/angle_and_trigonometry.cpp:220-223 -/
def V3.atanh (x : V3 α) : V3 α := V3.applyOp x Libm.atanhf

/-- `atanh` on `vec4` src/angle_and_trigonometry.cpp:225-228 -/
def V4.atanh (x : V4 α) : V4 α := V4.applyOp x Libm.atanhf

/-- `cosh(float)` src/angle_and_trigonometry.cpp:234-237 -/
def F.cosh (x : α) : α := applyOp1 x Libm.coshf

/-- `cosh` on `vec2` src/angle_and_trigonometry.cpp:239-242 -/
def V2.cosh (x : V2 α) : V2 α := V2.applyOp x Libm.coshf

/-- `cosh` on `vec3` src/angle_and_trigonometry.cpp:244-247 -/
def V3.cosh (x : V3 α) : V3 α := V3.applyOp x Libm.coshf

/-- `cosh` on `vec4` src/angle_and_trigonometry.cpp:249-252 -/
def V4.cosh (x : V4 α) : V4 α := V4.applyOp x Libm.coshf

/-- `degrees(float)` src/angle_and_trigonometry.cpp:256-259 -/
def F.degrees (x : α) : α := applyOp1 x degreesf

/-- `degrees` on `vec2` src/angle_and_trigonometry.cpp:261-264 -/
def V2.degrees (x : V2 α) : V2 α := V2.applyOp x degreesf

/-- `degrees` on `vec3` src/angle_and_trigonometry.cpp:266-269 -/
def V3.degrees (x : V3 α) : V3 α := V3.applyOp x degreesf

/-- `degrees` on `vec4` src/angle_and_trigonometry.cpp:271-274 -/
def V4.degrees (x : V4 α) : V4 α := V4.applyOp x degreesf

/-- `radians(float)` src/angle_and_trigonometry.cpp:278-281 -/
def F.radians (x : α) : α := applyOp1 x radiansf

/-- `radians` on `vec2` src/angle_and_trigonometry.cpp:283-286 -/
def V2.radians (x : V2 α) : V2 α := V2.applyOp x radiansf

/-- `radians` on `vec3` src/angle_and_trigonometry.cpp:288-291 -/
def V3.radians (x : V3 α) : V3 α := V3.applyOp x radiansf

/-- `radians` on `vec4` src/angle_and_trigonometry.cpp:293-296 -/
def V4.radians (x : V4 α) : V4 α := V4.applyOp x radiansf

/-- `sinh(float)` src/angle_and_trigonometry.cpp:301-304 -/
def F.sinh (x : α) : α := applyOp1 x Libm.sinhf

/-- `sinh` on `vec2` src/angle_and_trigonometry.cpp:306-309 -/
def V2.sinh (x : V2 α) : V2 α := V2.applyOp x Libm.sinhf

/-- `sinh` on `vec3` src/angle_and_trigonometry.cpp:311-314 -/
def V3.sinh (x : V3 α) : V3 α := V3.applyOp x Libm.sinhf

/-- `sinh` on `vec4` src/angle_and_trigonometry.cpp:316-319 -/
def V4.sinh (x : V4 α) : V4 α := V4.applyOp x Libm.sinhf

/-- `tan(float)` src/angle_and_trigonometry.cpp:325-328 -/
def F.tan (x : α) : α := applyOp1 x Libm.tanf

/-- `tan` on `vec2` src/angle_and_trigonometry.cpp:330-333 -/
def V2.tan (x : V2 α) : V2 α := V2.applyOp x Libm.tanf

/-- `tan` on `vec3` src/angle_and_trigonometry.cpp:335-338 -/
def V3.tan (x : V3 α) : V3 α := V3.applyOp x Libm.tanf

/-- `tan` on `vec4` src/angle_and_trigonometry.cpp:340-343 -/
def V4.tan (x : V4 α) : V4 α := V4.applyOp x Libm.tanf

/-- `tanh(float)` src/angle_and_trigonometry.cpp:349-352 -/
def F.tanh (x : α) : α := applyOp1 x Libm.tanhf

/-- `tanh` on `vec2` src/angle_and_trigonometry.cpp:354-357 -/
def V2.tanh (x : V2 α) : V2 α := V2.applyOp x Libm.tanhf

/-- `tanh` on `vec3` src/angle_and_trigonometry.cpp:359-362 -/
def V3.tanh (x : V3 α) : V3 α := V3.applyOp x Libm.tanhf

/-- `tanh` on `vec4` src/angle_and_trigonometry.cpp:364-367 -/
def V4.tanh (x : V4 α) : V4 α := V4.applyOp x Libm.tanhf

end Zcm
