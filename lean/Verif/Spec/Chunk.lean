import Verif.Model.IVec
import Verif.Spec.Int

/-!
# Specification: cutting a grid of cells into blocks of 2^k cells, as a caller writes it

Not a file of /repo. (`>>` and `<<` do not exist for `ivec4`: declared, but defined nowhere.)
-/

namespace Zcm

/-- The block of the cell `p`: `p >> k`, `ivec2`. -/
def block2 (k : I32) (p : V2 I32) : Res (V2 I32) := IV2.shrS p k
/-- The same for `ivec3`. -/
def block3 (k : I32) (p : V3 I32) : Res (V3 I32) := IV3.shrS p k

/-- The place of the cell `p` in its block: `p & mask`, `ivec2`. -/
def place2 (mask : I32) (p : V2 I32) : Res (V2 I32) := IV2.andS p mask
/-- The same for `ivec3`. -/
def place3 (mask : I32) (p : V3 I32) : Res (V3 I32) := IV3.andS p mask

/-- The cell at the place `l` of the block `c`: `c * size + l`, `ivec2`. -/
def cellAt2 (size : I32) (c l : V2 I32) : Res (V2 I32) := do IV2.add (← IV2.mulS c size) l
/-- The same for `ivec3`. -/
def cellAt3 (size : I32) (c l : V3 I32) : Res (V3 I32) := do IV3.add (← IV3.mulS c size) l

/-- The same with `(c << k) | l`, `ivec2`. -/
def cellShl2 (k : I32) (c l : V2 I32) : Res (V2 I32) := do IV2.or (← IV2.shlS c k) l
/-- The same for `ivec3`. -/
def cellShl3 (k : I32) (c l : V3 I32) : Res (V3 I32) := do IV3.or (← IV3.shlS c k) l

/-- `k`, `size` and `mask` are `j`, `2^j` and `2^j - 1`. -/
structure BlockSize (k size mask : I32) (j : ℕ) : Prop where
  le : j ≤ 30
  k_eq : k.toInt = j
  size_eq : size.toInt = 2 ^ j
  mask_eq : mask.toInt = 2 ^ j - 1

end Zcm
