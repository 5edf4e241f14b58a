import Verif.Model.F32
import Verif.Model.Common

/-!
# Specification: sorting points into the cells of a grid, as a caller writes it

Not a file of /repo.
-/

namespace Zcm

/-- The cell of a `vec2` in a grid of cells of size `s`: `floor(p / s)`. -/
def cell2 (s : F32) (p : V2 F32) : V2 F32 := V2.floor (p / s)

/-- The cell of a `vec3`. -/
def cell3 (s : F32) (p : V3 F32) : V3 F32 := V3.floor (p / s)

/-- The cell of a `vec4`. -/
def cell4 (s : F32) (p : V4 F32) : V4 F32 := V4.floor (p / s)

/-- `all(lessThanEqual(lo, p)) && all(lessThanEqual(p, hi))` for `vec2`. -/
def within2 (lo hi p : V2 F32) : Bool := BV2.all (V2.lessThanEqual lo p) && BV2.all (V2.lessThanEqual p hi)

/-- The same for `vec3`. -/
def within3 (lo hi p : V3 F32) : Bool := BV3.all (V3.lessThanEqual lo p) && BV3.all (V3.lessThanEqual p hi)

/-- The same for `vec4`. -/
def within4 (lo hi p : V4 F32) : Bool := BV4.all (V4.lessThanEqual lo p) && BV4.all (V4.lessThanEqual p hi)

end Zcm
