import Verif.Model.Exponential

/-!
# Colour space conversion

Model of src/color_space.cpp.
-/

namespace Zcm

variable {α : Type} [Add α] [Sub α] [Mul α] [Div α] [Neg α] [FloatOps α] [Libm α]
  [LT α] [DecidableLT α] [LE α] [DecidableLE α] [BEq α]

/-- `convertLinearToSRGB(vec3, float)` src/color_space.cpp:13-19 -/
def V3.convertLinearToSRGBG (colorLinear : V3 α) (Gamma : α) : V3 α :=
  let ClampedColor : V3 α := V3.clamp colorLinear (V3.ofInt 0) (V3.ofInt 1)
  V3.mixB (V3.pow ClampedColor (V3.splat Gamma) * (lit 1.055 : α) - (lit 0.055 : α))
    (ClampedColor * (lit 12.92 : α))
    (V3.lessThan ClampedColor (V3.splat (lit 0.0031308)))

/-- `convertLinearToSRGB(vec4, float)` src/color_space.cpp:8-11; `.rgb` is components 0,1,2 and `.a` component 3 -/
def V4.convertLinearToSRGBG (ColorLinear : V4 α) (Gamma : α) : V4 α :=
  V4.ofXYZ_W (V3.convertLinearToSRGBG ⟨ColorLinear.x, ColorLinear.y, ColorLinear.z⟩ Gamma) ColorLinear.w

/-- `convertLinearToSRGB(vec3)` src/color_space.cpp:21-28 -/
def V3.convertLinearToSRGB (colorLinear : V3 α) : V3 α :=
  let S1 : V3 α := V3.sqrt colorLinear
  let S2 : V3 α := V3.sqrt S1
  let S3 : V3 α := V3.sqrt S2
  (lit 0.662002687 : α) * S1 + (lit 0.684122060 : α) * S2 - (lit 0.323583601 : α) * S3
    - (lit 0.0225411470 : α) * colorLinear

/-- `convertLinearToSRGB(vec4)` src/color_space.cpp:30-33 -/
def V4.convertLinearToSRGB (colorLinear : V4 α) : V4 α :=
  V4.ofXYZ_W (V3.convertLinearToSRGB ⟨colorLinear.x, colorLinear.y, colorLinear.z⟩) colorLinear.w

/-- `convertSRGBToLinear(vec3, float)` src/color_space.cpp:36-41 -/
def V3.convertSRGBToLinearG (ColorSRGB : V3 α) (Gamma : α) : V3 α :=
  V3.mixB
    (V3.pow ((ColorSRGB + (lit 0.055 : α)) * (lit 0.94786729857819905213270142180095 : α))
      (V3.splat Gamma))
    (ColorSRGB * (lit 0.07739938080495356037151702786378 : α))
    (V3.lessThanEqual ColorSRGB (V3.splat (lit 0.04045)))

/-- `convertSRGBToLinear(vec4, float)` src/color_space.cpp:43-46 -/
def V4.convertSRGBToLinearG (ColorSRGB : V4 α) (Gamma : α) : V4 α :=
  V4.ofXYZ_W (V3.convertSRGBToLinearG ⟨ColorSRGB.x, ColorSRGB.y, ColorSRGB.z⟩ Gamma) ColorSRGB.w

/-- `convertSRGBToLinear(vec3)` src/color_space.cpp:48-51 -/
def V3.convertSRGBToLinear (ColorSRGB : V3 α) : V3 α := V3.convertSRGBToLinearG ColorSRGB (lit 2.4)

/-- `convertSRGBToLinear(vec4)` src/color_space.cpp:53-56 -/
def V4.convertSRGBToLinear (ColorSRGB : V4 α) : V4 α :=
  V4.ofXYZ_W (V3.convertSRGBToLinearG ⟨ColorSRGB.x, ColorSRGB.y, ColorSRGB.z⟩ (lit 2.4)) ColorSRGB.w

end Zcm
