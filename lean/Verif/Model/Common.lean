import Verif.Model.QuatBasic

/-!
# Common functions

Model of src/common.cpp.  Scalar `float` overloads are in namespace `F`, scalar `int` overloads
in `I`; the overloads on `vecN`, `ivecN`, `bvecN` are in `VN`, `IVN`, `BVN`.
-/

namespace Zcm

variable {α : Type} [Add α] [Sub α] [Mul α] [Div α] [Neg α] [FloatOps α] [Libm α]
  [LT α] [DecidableLT α] [LE α] [DecidableLE α] [BEq α]

/-- `abs(float)` src/common.cpp:19-22 -/
def F.abs (x : α) : α := FloatOps.fabs x

/-- `abs` on `vec2` src/common.cpp:24-27 -/
def V2.abs (x : V2 α) : V2 α :=
  ⟨F.abs x.x, F.abs x.y⟩

/-- `abs` on `vec3` src/common.cpp:29-32 -/
def V3.abs (x : V3 α) : V3 α :=
  ⟨F.abs x.x, F.abs x.y, F.abs x.z⟩

/-- `abs` on `vec4` src/common.cpp:34-37 -/
def V4.abs (x : V4 α) : V4 α :=
  ⟨F.abs x.x, F.abs x.y, F.abs x.z, F.abs x.w⟩

/-- `abs(int)` src/common.cpp:39-42: `std::abs`, undefined when the result is not representable (C11 7.22.6.1) -/
def I.abs (x : I32) : Res I32 := if x.toInt < 0 then I32.neg x else .ok x

/-- `abs` on `ivec2` src/common.cpp:44-47 -/
def IV2.abs (x : V2 I32) : Res (V2 I32) := do
  let a ← I.abs x.x
  let b ← I.abs x.y
  pure ⟨a, b⟩

/-- `abs` on `ivec3` src/common.cpp:49-52 -/
def IV3.abs (x : V3 I32) : Res (V3 I32) := do
  let a ← I.abs x.x
  let b ← I.abs x.y
  let c ← I.abs x.z
  pure ⟨a, b, c⟩

/-- `abs` on `ivec4` src/common.cpp:54-57 -/
def IV4.abs (x : V4 I32) : Res (V4 I32) := do
  let a ← I.abs x.x
  let b ← I.abs x.y
  let c ← I.abs x.z
  let d ← I.abs x.w
  pure ⟨a, b, c, d⟩

/-- `ceil(float)` src/common.cpp:63-66 -/
def F.ceil (x : α) : α := FloatOps.ceil x

/-- `ceil` on `vec2` src/common.cpp:68-71 -/
def V2.ceil (x : V2 α) : V2 α :=
  ⟨F.ceil x.x, F.ceil x.y⟩

/-- `ceil` on `vec3` src/common.cpp:73-76 -/
def V3.ceil (x : V3 α) : V3 α :=
  ⟨F.ceil x.x, F.ceil x.y, F.ceil x.z⟩

/-- `ceil` on `vec4` src/common.cpp:78-81 -/
def V4.ceil (x : V4 α) : V4 α :=
  ⟨F.ceil x.x, F.ceil x.y, F.ceil x.z, F.ceil x.w⟩

/-- `max(float, float)` src/common.cpp:203-206 -/
def F.max (x y : α) : α := if x < y then y else x

/-- `max` on `vec2` src/common.cpp:208-211 -/
def V2.max (x y : V2 α) : V2 α :=
  ⟨F.max x.x y.x, F.max x.y y.y⟩

/-- `max` on `vec3` src/common.cpp:213-216 -/
def V3.max (x y : V3 α) : V3 α :=
  ⟨F.max x.x y.x, F.max x.y y.y, F.max x.z y.z⟩

/-- `max` on `vec4` src/common.cpp:218-221 -/
def V4.max (x y : V4 α) : V4 α :=
  ⟨F.max x.x y.x, F.max x.y y.y, F.max x.z y.z, F.max x.w y.w⟩

/-- `max(int, int)` src/common.cpp:223-226 -/
def I.max (x y : I32) : I32 := if x < y then y else x

/-- `max` on `ivec2` src/common.cpp:228-231 -/
def IV2.max (x y : V2 I32) : V2 I32 :=
  ⟨I.max x.x y.x, I.max x.y y.y⟩

/-- `max` on `ivec3` src/common.cpp:233-236 -/
def IV3.max (x y : V3 I32) : V3 I32 :=
  ⟨I.max x.x y.x, I.max x.y y.y, I.max x.z y.z⟩

/-- `max` on `ivec4` src/common.cpp:238-241 -/
def IV4.max (x y : V4 I32) : V4 I32 :=
  ⟨I.max x.x y.x, I.max x.y y.y, I.max x.z y.z, I.max x.w y.w⟩

/-- `min(float, float)` src/common.cpp:247-250 -/
def F.min (x y : α) : α := if y < x then y else x

/-- `min` on `vec2` src/common.cpp:252-255 -/
def V2.min (x y : V2 α) : V2 α :=
  ⟨F.min x.x y.x, F.min x.y y.y⟩

/-- `min` on `vec3` src/common.cpp:257-260 -/
def V3.min (x y : V3 α) : V3 α :=
  ⟨F.min x.x y.x, F.min x.y y.y, F.min x.z y.z⟩

/-- `min` on `vec4` src/common.cpp:262-265 -/
def V4.min (x y : V4 α) : V4 α :=
  ⟨F.min x.x y.x, F.min x.y y.y, F.min x.z y.z, F.min x.w y.w⟩

/-- `min(int, int)` src/common.cpp:267-270 -/
def I.min (x y : I32) : I32 := if y < x then y else x

/-- `min` on `ivec2` src/common.cpp:272-275 -/
def IV2.min (x y : V2 I32) : V2 I32 :=
  ⟨I.min x.x y.x, I.min x.y y.y⟩

/-- `min` on `ivec3` src/common.cpp:277-280 -/
def IV3.min (x y : V3 I32) : V3 I32 :=
  ⟨I.min x.x y.x, I.min x.y y.y, I.min x.z y.z⟩

/-- `min` on `ivec4` src/common.cpp:282-285 -/
def IV4.min (x y : V4 I32) : V4 I32 :=
  ⟨I.min x.x y.x, I.min x.y y.y, I.min x.z y.z, I.min x.w y.w⟩

/-- `clamp(float, float, float)` src/common.cpp:87-90 -/
def F.clamp (x minVal maxVal : α) : α := F.min (F.max x minVal) maxVal

/-- `clamp` on `vec2` src/common.cpp:92-95 -/
def V2.clamp (x minVal maxVal : V2 α) : V2 α := V2.min (V2.max x minVal) maxVal

/-- `clamp` on `vec3` src/common.cpp:97-100 -/
def V3.clamp (x minVal maxVal : V3 α) : V3 α := V3.min (V3.max x minVal) maxVal

/-- `clamp` on `vec4` src/common.cpp:102-105 -/
def V4.clamp (x minVal maxVal : V4 α) : V4 α := V4.min (V4.max x minVal) maxVal

/-- `clamp(int, int, int)` src/common.cpp:107-110 -/
def I.clamp (x minVal maxVal : I32) : I32 := I.min (I.max x minVal) maxVal

/-- `clamp` on `ivec2` src/common.cpp:112-115 -/
def IV2.clamp (x minVal maxVal : V2 I32) : V2 I32 := IV2.min (IV2.max x minVal) maxVal

/-- `clamp` on `ivec3` src/common.cpp:117-120 -/
def IV3.clamp (x minVal maxVal : V3 I32) : V3 I32 := IV3.min (IV3.max x minVal) maxVal

/-- `clamp` on `ivec4` src/common.cpp:122-125 -/
def IV4.clamp (x minVal maxVal : V4 I32) : V4 I32 := IV4.min (IV4.max x minVal) maxVal

/-- `floor(float)` src/common.cpp:131-134 -/
def F.floor (x : α) : α := FloatOps.floor x

/-- `floor` on `vec2` src/common.cpp:136-139 -/
def V2.floor (x : V2 α) : V2 α :=
  ⟨F.floor x.x, F.floor x.y⟩

/-- `floor` on `vec3` src/common.cpp:141-144 -/
def V3.floor (x : V3 α) : V3 α :=
  ⟨F.floor x.x, F.floor x.y, F.floor x.z⟩

/-- `floor` on `vec4` src/common.cpp:146-149 -/
def V4.floor (x : V4 α) : V4 α :=
  ⟨F.floor x.x, F.floor x.y, F.floor x.z, F.floor x.w⟩

/-- `fma(float, float, float)` src/common.cpp:155-158 -/
def F.fma (a b c : α) : α := FloatOps.fma a b c

/-- `fma` on `vec2` src/common.cpp:160-163 -/
def V2.fma (a b c : V2 α) : V2 α :=
  ⟨F.fma a.x b.x c.x, F.fma a.y b.y c.y⟩

/-- `fma` on `vec3` src/common.cpp:165-168 -/
def V3.fma (a b c : V3 α) : V3 α :=
  ⟨F.fma a.x b.x c.x, F.fma a.y b.y c.y, F.fma a.z b.z c.z⟩

/-- `fma` on `vec4` src/common.cpp:170-173 -/
def V4.fma (a b c : V4 α) : V4 α :=
  ⟨F.fma a.x b.x c.x, F.fma a.y b.y c.y, F.fma a.z b.z c.z, F.fma a.w b.w c.w⟩

/-- `fract(float)` src/common.cpp:179-182 -/
def F.fract (x : α) : α := x - F.floor x

/-- `fract` on `vec2` src/common.cpp:184-187 -/
def V2.fract (x : V2 α) : V2 α := x - V2.floor x

/-- `fract` on `vec3` src/common.cpp:189-192 -/
def V3.fract (x : V3 α) : V3 α := x - V3.floor x

/-- `fract` on `vec4` src/common.cpp:194-197 -/
def V4.fract (x : V4 α) : V4 α := x - V4.floor x

/-- `mod(float, float)` src/common.cpp:291-294 -/
def F.mod (x y : α) : α := x - y * F.floor (x / y)

/-- `mod` on `vec2` src/common.cpp:296-299 -/
def V2.mod (x y : V2 α) : V2 α :=
  ⟨F.mod x.x y.x, F.mod x.y y.y⟩

/-- `mod` on `vec3` src/common.cpp:301-304 -/
def V3.mod (x y : V3 α) : V3 α :=
  ⟨F.mod x.x y.x, F.mod x.y y.y, F.mod x.z y.z⟩

/-- `mod` on `vec4` src/common.cpp:306-309 -/
def V4.mod (x y : V4 α) : V4 α :=
  ⟨F.mod x.x y.x, F.mod x.y y.y, F.mod x.z y.z, F.mod x.w y.w⟩

/-- `modS` on `vec2` src/common.cpp:311-314 (overload `mod(vec, float)`) -/
def V2.modS (x : V2 α) (y : α) : V2 α :=
  ⟨F.mod x.x y, F.mod x.y y⟩

/-- `modS` on `vec3` src/common.cpp:316-319 (overload `mod(vec, float)`) -/
def V3.modS (x : V3 α) (y : α) : V3 α :=
  ⟨F.mod x.x y, F.mod x.y y, F.mod x.z y⟩

/-- `modS` on `vec4` src/common.cpp:321-324 (overload `mod(vec, float)`) -/
def V4.modS (x : V4 α) (y : α) : V4 α :=
  ⟨F.mod x.x y, F.mod x.y y, F.mod x.z y, F.mod x.w y⟩

/-- `round(float)` src/common.cpp:330-333 -/
def F.round (x : α) : α := FloatOps.round x

/-- `round` on `vec2` src/common.cpp:335-338 -/
def V2.round (x : V2 α) : V2 α :=
  ⟨F.round x.x, F.round x.y⟩

/-- `round` on `vec3` src/common.cpp:340-343 -/
def V3.round (x : V3 α) : V3 α :=
  ⟨F.round x.x, F.round x.y, F.round x.z⟩

/-- `round` on `vec4` src/common.cpp:345-348 -/
def V4.round (x : V4 α) : V4 α :=
  ⟨F.round x.x, F.round x.y, F.round x.z, F.round x.w⟩

/-- `roundEven(float)` src/common.cpp:354-357 -/
def F.roundEven (x : α) : α := FloatOps.nearbyint (x * lit 0.5) * lit 2

/-- `roundEven` on `vec2` src/common.cpp:359-362 -/
def V2.roundEven (x : V2 α) : V2 α :=
  ⟨F.roundEven x.x, F.roundEven x.y⟩

/-- `roundEven` on `vec3` src/common.cpp:364-367 -/
def V3.roundEven (x : V3 α) : V3 α :=
  ⟨F.roundEven x.x, F.roundEven x.y, F.roundEven x.z⟩

/-- `roundEven` on `vec4` src/common.cpp:369-372 -/
def V4.roundEven (x : V4 α) : V4 α :=
  ⟨F.roundEven x.x, F.roundEven x.y, F.roundEven x.z, F.roundEven x.w⟩

/-- `sign(float)` src/common.cpp:378-387 -/
def F.sign (x : α) : α := if x == lit 0 then lit 0 else if x > lit 0 then lit 1 else -(lit 1)

/-- `sign` on `vec2` src/common.cpp:389-392 -/
def V2.sign (x : V2 α) : V2 α :=
  ⟨F.sign x.x, F.sign x.y⟩

/-- `sign` on `vec3` src/common.cpp:394-397 -/
def V3.sign (x : V3 α) : V3 α :=
  ⟨F.sign x.x, F.sign x.y, F.sign x.z⟩

/-- `sign` on `vec4` src/common.cpp:399-402 -/
def V4.sign (x : V4 α) : V4 α :=
  ⟨F.sign x.x, F.sign x.y, F.sign x.z, F.sign x.w⟩

/-- `sign(int)` src/common.cpp:404-413 -/
def I.sign (x : I32) : I32 :=
  if x == I32.lit 0 then I32.lit 0 else if x > I32.lit 0 then I32.lit 1 else I32.lit (-1)

/-- `sign` on `ivec2` src/common.cpp:415-418 -/
def IV2.sign (x : V2 I32) : V2 I32 :=
  ⟨I.sign x.x, I.sign x.y⟩

/-- `sign` on `ivec3` src/common.cpp:420-423 -/
def IV3.sign (x : V3 I32) : V3 I32 :=
  ⟨I.sign x.x, I.sign x.y, I.sign x.z⟩

/-- `sign` on `ivec4` src/common.cpp:425-428 -/
def IV4.sign (x : V4 I32) : V4 I32 :=
  ⟨I.sign x.x, I.sign x.y, I.sign x.z, I.sign x.w⟩

/-- `signNotZero(float)` src/common.cpp:430-433 -/
def F.signNotZero (x : α) : α := if x ≥ lit 0 then lit 1 else -(lit 1)

/-- `signNotZero` on `vec2` src/common.cpp:435-438 -/
def V2.signNotZero (x : V2 α) : V2 α :=
  ⟨F.signNotZero x.x, F.signNotZero x.y⟩

/-- `signNotZero` on `vec3` src/common.cpp:440-443 -/
def V3.signNotZero (x : V3 α) : V3 α :=
  ⟨F.signNotZero x.x, F.signNotZero x.y, F.signNotZero x.z⟩

/-- `signNotZero` on `vec4` src/common.cpp:445-448 -/
def V4.signNotZero (x : V4 α) : V4 α :=
  ⟨F.signNotZero x.x, F.signNotZero x.y, F.signNotZero x.z, F.signNotZero x.w⟩

/-- `signNotZero(int)` src/common.cpp:450-453 -/
def I.signNotZero (x : I32) : I32 := if x ≥ I32.lit 0 then I32.lit 1 else I32.lit (-1)

/-- `signNotZero` on `ivec2` src/common.cpp:455-458 -/
def IV2.signNotZero (x : V2 I32) : V2 I32 :=
  ⟨I.signNotZero x.x, I.signNotZero x.y⟩

/-- `signNotZero` on `ivec3` src/common.cpp:460-463 -/
def IV3.signNotZero (x : V3 I32) : V3 I32 :=
  ⟨I.signNotZero x.x, I.signNotZero x.y, I.signNotZero x.z⟩

/-- `signNotZero` on `ivec4` src/common.cpp:465-468 -/
def IV4.signNotZero (x : V4 I32) : V4 I32 :=
  ⟨I.signNotZero x.x, I.signNotZero x.y, I.signNotZero x.z, I.signNotZero x.w⟩

/-- `trunc(float)` src/common.cpp:475-478 -/
def F.trunc (x : α) : α := FloatOps.trunc x

/-- `trunc` on `vec2` src/common.cpp:480-483 -/
def V2.trunc (x : V2 α) : V2 α :=
  ⟨F.trunc x.x, F.trunc x.y⟩

/-- `trunc` on `vec3` src/common.cpp:485-488 -/
def V3.trunc (x : V3 α) : V3 α :=
  ⟨F.trunc x.x, F.trunc x.y, F.trunc x.z⟩

/-- `trunc` on `vec4` src/common.cpp:490-493 -/
def V4.trunc (x : V4 α) : V4 α :=
  ⟨F.trunc x.x, F.trunc x.y, F.trunc x.z, F.trunc x.w⟩

/-- `smoothstep(float, float, float)` src/common.cpp:499-503 -/
def F.smoothstep (edge0 edge1 x : α) : α :=
  let tmp := F.clamp ((x - edge0) / (edge1 - edge0)) (lit 0) (lit 1)
  tmp * tmp * (lit 3 - lit 2 * tmp)

/-- `smoothstep` on `vec2` src/common.cpp:505-509; the bounds `0.0f`, `1.0f` convert through `vec2(float)` -/
def V2.smoothstep (edge0 edge1 x : V2 α) : V2 α :=
  let tmp := V2.clamp ((x - edge0) / (edge1 - edge0)) (V2.splat (lit 0)) (V2.splat (lit 1))
  tmp * tmp * ((lit 3 : α) - (lit 2 : α) * tmp)

/-- `smoothstep` on `vec3` src/common.cpp:511-515; the bounds `0.0f`, `1.0f` convert through `vec3(float)` -/
def V3.smoothstep (edge0 edge1 x : V3 α) : V3 α :=
  let tmp := V3.clamp ((x - edge0) / (edge1 - edge0)) (V3.splat (lit 0)) (V3.splat (lit 1))
  tmp * tmp * ((lit 3 : α) - (lit 2 : α) * tmp)

/-- `smoothstep` on `vec4` src/common.cpp:518-522; the bounds `0.0f`, `1.0f` convert through `vec4(float)` -/
def V4.smoothstep (edge0 edge1 x : V4 α) : V4 α :=
  let tmp := V4.clamp ((x - edge0) / (edge1 - edge0)) (V4.splat (lit 0)) (V4.splat (lit 1))
  tmp * tmp * ((lit 3 : α) - (lit 2 : α) * tmp)

/-- `step(float, float)` src/common.cpp:528-531 -/
def F.step (edge x : α) : α := if x < edge then lit 0 else lit 1

/-- `step` on `vec2` src/common.cpp:533-536 -/
def V2.step (edge x : V2 α) : V2 α :=
  ⟨F.step edge.x x.x, F.step edge.y x.y⟩

/-- `step` on `vec3` src/common.cpp:538-541 -/
def V3.step (edge x : V3 α) : V3 α :=
  ⟨F.step edge.x x.x, F.step edge.y x.y, F.step edge.z x.z⟩

/-- `step` on `vec4` src/common.cpp:543-546 -/
def V4.step (edge x : V4 α) : V4 α :=
  ⟨F.step edge.x x.x, F.step edge.y x.y, F.step edge.z x.z, F.step edge.w x.w⟩

/-- `mix(float, float, float)` src/common.cpp:552-555 -/
def F.mix (x y t : α) : α := x + t * (y - x)

/-- `mix` on `vec2` src/common.cpp:557-561 -/
def V2.mix (x y t : V2 α) : V2 α :=
  ⟨F.mix x.x y.x t.x, F.mix x.y y.y t.y⟩

/-- `mix` on `vec3` src/common.cpp:563-568 -/
def V3.mix (x y t : V3 α) : V3 α :=
  ⟨F.mix x.x y.x t.x, F.mix x.y y.y t.y, F.mix x.z y.z t.z⟩

/-- `mix` on `vec4` src/common.cpp:570-576 -/
def V4.mix (x y t : V4 α) : V4 α :=
  ⟨F.mix x.x y.x t.x, F.mix x.y y.y t.y, F.mix x.z y.z t.z, F.mix x.w y.w t.w⟩

/-- `mixS` on `vec2` src/common.cpp:579-583 (overload `mix(vec, vec, float)`) -/
def V2.mixS (x y : V2 α) (t : α) : V2 α :=
  ⟨F.mix x.x y.x t, F.mix x.y y.y t⟩

/-- `mixS` on `vec3` src/common.cpp:585-590 (overload `mix(vec, vec, float)`) -/
def V3.mixS (x y : V3 α) (t : α) : V3 α :=
  ⟨F.mix x.x y.x t, F.mix x.y y.y t, F.mix x.z y.z t⟩

/-- `mixS` on `vec4` src/common.cpp:592-598 (overload `mix(vec, vec, float)`) -/
def V4.mixS (x y : V4 α) (t : α) : V4 α :=
  ⟨F.mix x.x y.x t, F.mix x.y y.y t, F.mix x.z y.z t, F.mix x.w y.w t⟩

/-- `mix(float, float, bool)` src/common.cpp:603-606 -/
def F.mixB (x y : α) (t : Bool) : α := if t then y else x

/-- `mixB` on `vec2` src/common.cpp:608-612 (overload with `bvec` selector) -/
def V2.mixB (x y : V2 α) (t : V2 Bool) : V2 α :=
  ⟨F.mixB x.x y.x t.x, F.mixB x.y y.y t.y⟩

/-- `mixB` on `vec3` src/common.cpp:614-619 (overload with `bvec` selector) -/
def V3.mixB (x y : V3 α) (t : V3 Bool) : V3 α :=
  ⟨F.mixB x.x y.x t.x, F.mixB x.y y.y t.y, F.mixB x.z y.z t.z⟩

/-- `mixB` on `vec4` src/common.cpp:621-627 (overload with `bvec` selector) -/
def V4.mixB (x y : V4 α) (t : V4 Bool) : V4 α :=
  ⟨F.mixB x.x y.x t.x, F.mixB x.y y.y t.y, F.mixB x.z y.z t.z, F.mixB x.w y.w t.w⟩

/-- `isinf(float)` src/common.cpp:633-636 -/
def F.isinf (x : α) : Bool := FloatOps.isinf x

/-- `isinf` on `vec2` src/common.cpp:638-641 -/
def V2.isinf (x : V2 α) : V2 Bool :=
  ⟨F.isinf x.x, F.isinf x.y⟩

/-- `isinf` on `vec3` src/common.cpp:643-646 -/
def V3.isinf (x : V3 α) : V3 Bool :=
  ⟨F.isinf x.x, F.isinf x.y, F.isinf x.z⟩

/-- `isinf` on `vec4` src/common.cpp:648-651 -/
def V4.isinf (x : V4 α) : V4 Bool :=
  ⟨F.isinf x.x, F.isinf x.y, F.isinf x.z, F.isinf x.w⟩

/-- `isinf(quat)` src/common.cpp:653-656 -/
def Quat.isinf (x : Quat α) : V4 Bool := ⟨F.isinf x.x, F.isinf x.y, F.isinf x.z, F.isinf x.w⟩

/-- `isnan(float)` src/common.cpp:662-665 -/
def F.isnan (x : α) : Bool := FloatOps.isnan x

/-- `isnan` on `vec2` src/common.cpp:667-670 -/
def V2.isnan (x : V2 α) : V2 Bool :=
  ⟨F.isnan x.x, F.isnan x.y⟩

/-- `isnan` on `vec3` src/common.cpp:672-675 -/
def V3.isnan (x : V3 α) : V3 Bool :=
  ⟨F.isnan x.x, F.isnan x.y, F.isnan x.z⟩

/-- `isnan` on `vec4` src/common.cpp:677-680 -/
def V4.isnan (x : V4 α) : V4 Bool :=
  ⟨F.isnan x.x, F.isnan x.y, F.isnan x.z, F.isnan x.w⟩

/-- `isnan(quat)` src/common.cpp:682-685 -/
def Quat.isnan (x : Quat α) : V4 Bool := ⟨F.isnan x.x, F.isnan x.y, F.isnan x.z, F.isnan x.w⟩

/-- `lessThan` on `vec2` src/common.cpp:691-694 -/
def V2.lessThan (x y : V2 α) : V2 Bool :=
  ⟨decide (x.x < y.x), decide (x.y < y.y)⟩

/-- `lessThan` on `vec3` src/common.cpp:696-699 -/
def V3.lessThan (x y : V3 α) : V3 Bool :=
  ⟨decide (x.x < y.x), decide (x.y < y.y), decide (x.z < y.z)⟩

/-- `lessThan` on `vec4` src/common.cpp:701-704 -/
def V4.lessThan (x y : V4 α) : V4 Bool :=
  ⟨decide (x.x < y.x), decide (x.y < y.y), decide (x.z < y.z), decide (x.w < y.w)⟩

/-- `lessThanEqual` on `vec2` src/common.cpp:710-713 -/
def V2.lessThanEqual (x y : V2 α) : V2 Bool :=
  ⟨decide (x.x ≤ y.x), decide (x.y ≤ y.y)⟩

/-- `lessThanEqual` on `vec3` src/common.cpp:715-718 -/
def V3.lessThanEqual (x y : V3 α) : V3 Bool :=
  ⟨decide (x.x ≤ y.x), decide (x.y ≤ y.y), decide (x.z ≤ y.z)⟩

/-- `lessThanEqual` on `vec4` src/common.cpp:720-723 -/
def V4.lessThanEqual (x y : V4 α) : V4 Bool :=
  ⟨decide (x.x ≤ y.x), decide (x.y ≤ y.y), decide (x.z ≤ y.z), decide (x.w ≤ y.w)⟩

/-- `greaterThan` on `vec2` src/common.cpp:729-732 -/
def V2.greaterThan (x y : V2 α) : V2 Bool :=
  ⟨decide (x.x > y.x), decide (x.y > y.y)⟩

/-- `greaterThan` on `vec3` src/common.cpp:734-737 -/
def V3.greaterThan (x y : V3 α) : V3 Bool :=
  ⟨decide (x.x > y.x), decide (x.y > y.y), decide (x.z > y.z)⟩

/-- `greaterThan` on `vec4` src/common.cpp:739-742 -/
def V4.greaterThan (x y : V4 α) : V4 Bool :=
  ⟨decide (x.x > y.x), decide (x.y > y.y), decide (x.z > y.z), decide (x.w > y.w)⟩

/-- `greaterThanEqual` on `vec2` src/common.cpp:748-751 -/
def V2.greaterThanEqual (x y : V2 α) : V2 Bool :=
  ⟨decide (x.x ≥ y.x), decide (x.y ≥ y.y)⟩

/-- `greaterThanEqual` on `vec3` src/common.cpp:753-756 -/
def V3.greaterThanEqual (x y : V3 α) : V3 Bool :=
  ⟨decide (x.x ≥ y.x), decide (x.y ≥ y.y), decide (x.z ≥ y.z)⟩

/-- `greaterThanEqual` on `vec4` src/common.cpp:758-761 -/
def V4.greaterThanEqual (x y : V4 α) : V4 Bool :=
  ⟨decide (x.x ≥ y.x), decide (x.y ≥ y.y), decide (x.z ≥ y.z), decide (x.w ≥ y.w)⟩

/-- `equal` on `vec2` src/common.cpp:767-770 -/
def V2.equal (x y : V2 α) : V2 Bool :=
  ⟨x.x == y.x, x.y == y.y⟩

/-- `equal` on `vec3` src/common.cpp:772-775 -/
def V3.equal (x y : V3 α) : V3 Bool :=
  ⟨x.x == y.x, x.y == y.y, x.z == y.z⟩

/-- `equal` on `vec4` src/common.cpp:777-780 -/
def V4.equal (x y : V4 α) : V4 Bool :=
  ⟨x.x == y.x, x.y == y.y, x.z == y.z, x.w == y.w⟩

/-- `equal(quat, quat)` src/common.cpp:782-785 -/
def Quat.equal (x y : Quat α) : V4 Bool := ⟨x.x == y.x, x.y == y.y, x.z == y.z, x.w == y.w⟩

/-- `equal` on `bvec2` src/common.cpp:791-794 -/
def BV2.equal (x y : V2 Bool) : V2 Bool :=
  ⟨x.x == y.x, x.y == y.y⟩

/-- `equal` on `bvec3` src/common.cpp:796-799 -/
def BV3.equal (x y : V3 Bool) : V3 Bool :=
  ⟨x.x == y.x, x.y == y.y, x.z == y.z⟩

/-- `equal` on `bvec4` src/common.cpp:801-804 -/
def BV4.equal (x y : V4 Bool) : V4 Bool :=
  ⟨x.x == y.x, x.y == y.y, x.z == y.z, x.w == y.w⟩

/-- `notEqual` on `vec2` src/common.cpp:810-813 -/
def V2.notEqual (x y : V2 α) : V2 Bool :=
  ⟨x.x != y.x, x.y != y.y⟩

/-- `notEqual` on `vec3` src/common.cpp:815-818 -/
def V3.notEqual (x y : V3 α) : V3 Bool :=
  ⟨x.x != y.x, x.y != y.y, x.z != y.z⟩

/-- `notEqual` on `vec4` src/common.cpp:820-823 -/
def V4.notEqual (x y : V4 α) : V4 Bool :=
  ⟨x.x != y.x, x.y != y.y, x.z != y.z, x.w != y.w⟩

/-- `notEqual(quat, quat)` src/common.cpp:825-828 -/
def Quat.notEqual (x y : Quat α) : V4 Bool := ⟨x.x != y.x, x.y != y.y, x.z != y.z, x.w != y.w⟩

/-- `notEqual` on `bvec2` src/common.cpp:834-837 -/
def BV2.notEqual (x y : V2 Bool) : V2 Bool :=
  ⟨x.x != y.x, x.y != y.y⟩

/-- `notEqual` on `bvec3` src/common.cpp:839-842 -/
def BV3.notEqual (x y : V3 Bool) : V3 Bool :=
  ⟨x.x != y.x, x.y != y.y, x.z != y.z⟩

/-- `notEqual` on `bvec4` src/common.cpp:844-847 -/
def BV4.notEqual (x y : V4 Bool) : V4 Bool :=
  ⟨x.x != y.x, x.y != y.y, x.z != y.z, x.w != y.w⟩

/-- `all(bvec2)` src/common.cpp:852-855 -/
def BV2.all (x : V2 Bool) : Bool := x.x && x.y

/-- `all(bvec3)` src/common.cpp:857-860 -/
def BV3.all (x : V3 Bool) : Bool := x.x && x.y && x.z

/-- `all(bvec4)` src/common.cpp:862-865 -/
def BV4.all (x : V4 Bool) : Bool := x.x && x.y && x.z && x.w

/-- `any(bvec2)` src/common.cpp:871-874 -/
def BV2.any (x : V2 Bool) : Bool := x.x || x.y

/-- `any(bvec3)` src/common.cpp:876-879 -/
def BV3.any (x : V3 Bool) : Bool := x.x || x.y || x.z

/-- `any(bvec4)` src/common.cpp:881-884 -/
def BV4.any (x : V4 Bool) : Bool := x.x || x.y || x.z || x.w

end Zcm
