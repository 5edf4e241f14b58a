import Verif.Model.F32
import Verif.Spec.Coord
import Mathlib.Data.Real.Basic

/-!
# Specification: the standard octahedral map

The surface |x|+|y|+|z| = 1 is unfolded onto the square [-1,1]²: the upper half is projected along z,
and the four lower faces are flipped outwards over the diagonals.  `octSurface` is the inverse: the point of the
octahedron that lies at position `e` of the square (Cigolle et al. 2014, `octDecode` without the final normalisation).
-/

namespace Zcm

/-- -1 for negative numbers, 1 for the others -/
noncomputable def octSign (t : ℝ) : ℝ := if 0 ≤ t then 1 else -1

/-- The point of the octahedron at position `e` of the unfolded square. -/
noncomputable def octSurface (e : V2 ℝ) : V3 ℝ :=
  if |e.x| + |e.y| ≤ 1 then ⟨e.x, e.y, 1 - |e.x| - |e.y|⟩
  else ⟨(1 - |e.y|) * octSign e.x, (1 - |e.x|) * octSign e.y, 1 - |e.x| - |e.y|⟩

/-- The exact sum |x| + |y| + |z| of a float vector. -/
def taxicab (v : V3 F32) : ℚ := |v.x.val| + |v.y.val| + |v.z.val|

/-- The exact pair a float pair stands for. -/
noncomputable def exactPair (e : V2 F32) : V2 ℝ := ⟨e.x.val, e.y.val⟩

end Zcm
