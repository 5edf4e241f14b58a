import Verif.Model.F32
import Verif.Model.Common

/-!
# Specification: coordinates from 0 to 1, pixels and quantised values, as a caller writes them

Not a file of /repo.
-/

namespace Zcm

/-- The pixel at the texture coordinates `uv` of an image of `size` pixels: `floor(uv * size)`. -/
def pixel2 (size uv : V2 F32) : V2 F32 := V2.floor (uv * size)
/-- The same for volume textures. -/
def pixel3 (size uv : V3 F32) : V3 F32 := V3.floor (uv * size)
/-- The same with four coordinates. -/
def pixel4 (size uv : V4 F32) : V4 F32 := V4.floor (uv * size)

/-- The texture coordinates of the centre of the pixel `i`: `(i + 0.5f) / size`. -/
def center2 (size i : V2 F32) : V2 F32 := (i + (lit (1 / 2) : F32)) / size
/-- The same for volume textures. -/
def center3 (size i : V3 F32) : V3 F32 := (i + (lit (1 / 2) : F32)) / size
/-- The same with four coordinates. -/
def center4 (size i : V4 F32) : V4 F32 := (i + (lit (1 / 2) : F32)) / size

/-- `round(clamp(c, vec2(0.0f), vec2(1.0f)) * n)`, for example with `n = 255.0f`. -/
def quantise2 (n : F32) (c : V2 F32) : V2 F32 := V2.round (V2.clamp c (V2.splat (lit 0)) (V2.splat (lit 1)) * n)
/-- The same for `vec3`. -/
def quantise3 (n : F32) (c : V3 F32) : V3 F32 := V3.round (V3.clamp c (V3.splat (lit 0)) (V3.splat (lit 1)) * n)
/-- The same for `vec4`. -/
def quantise4 (n : F32) (c : V4 F32) : V4 F32 := V4.round (V4.clamp c (V4.splat (lit 0)) (V4.splat (lit 1)) * n)

end Zcm
