import Verif.Model.Vec

/-!
# Specification: homogeneous coordinates
-/

namespace Zcm

/-- the point (`w = 1`) or direction (`w = 0`) `p` in homogeneous coordinates -/
def hom {β : Type} (p : V3 β) (w : β) : V4 β := ⟨p.x, p.y, p.z, w⟩

end Zcm
