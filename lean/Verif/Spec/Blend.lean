import Verif.Model.F32
import Verif.Model.Vec

/-!
# Specification: laying colours over each other, as a caller writes it

Not a file of /repo.
-/

namespace Zcm

/-- `s * a + d * (1.0f - a)`: the colour `s` with opacity `a` over the colour `d`. -/
def blend3 (s : V3 F32) (a : F32) (d : V3 F32) : V3 F32 := s * a + d * (lit 1 - a)

/-- The same for `vec4`. -/
def blend4 (s : V4 F32) (a : F32) (d : V4 F32) : V4 F32 := s * a + d * (lit 1 - a)

/-- A list of colours with opacities, each laid over what the ones before it gave. -/
def layers3 (d : V3 F32) (l : List (V3 F32 × F32)) : V3 F32 := l.foldl (fun d p => blend3 p.1 p.2 d) d

/-- The same for `vec4`. -/
def layers4 (d : V4 F32) (l : List (V4 F32 × F32)) : V4 F32 := l.foldl (fun d p => blend4 p.1 p.2 d) d

/-- `s + d * (1.0f - s.w)`: colours whose first three components are already multiplied by the opacity `w`. -/
def over (s d : V4 F32) : V4 F32 := s + d * (lit 1 - s.w)

/-- A list of such colours, each laid over what the ones before it gave. -/
def overAll (d : V4 F32) (l : List (V4 F32)) : V4 F32 := l.foldl (fun d s => over s d) d

/-- `1.0f - (1.0f - s) * (1.0f - d)`. -/
def screen3 (s d : V3 F32) : V3 F32 := (lit 1 : F32) - ((lit 1 : F32) - s) * ((lit 1 : F32) - d)

/-- The same for `vec4`. -/
def screen4 (s d : V4 F32) : V4 F32 := (lit 1 : F32) - ((lit 1 : F32) - s) * ((lit 1 : F32) - d)

/-- The layers without rounding, one component. -/
def layersExact (d : ℚ) (l : List (ℚ × ℚ)) : ℚ := l.foldl (fun d p => p.1 * p.2 + d * (1 - p.2)) d

end Zcm
