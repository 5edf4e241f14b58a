import Verif.Model.IVec

/-!
# Specification: one number for a cell of a grid, by interleaving bits, as a caller writes it

Not a file of /repo. The steps are those of the well-known Morton code, done on all coordinates at once with the operators of `ivec2` and
`ivec3`.
-/

namespace Zcm

/-- Bit `n` of an `int32_t`. -/
def bitOf (a : I32) (n : ℕ) : Bool := a.bits.getLsbD n

/-- `p = (p | p << k) & mask`, `ivec2`. -/
def spreadStep2 (k mask : ℤ) (p : V2 I32) : Res (V2 I32) := do
  IV2.andS (← IV2.or p (← IV2.shlS p (I32.lit k))) (I32.lit mask)

/-- `p = (p | p >> k) & mask`, `ivec2`. -/
def gatherStep2 (k mask : ℤ) (p : V2 I32) : Res (V2 I32) := do
  IV2.andS (← IV2.or p (← IV2.shrS p (I32.lit k))) (I32.lit mask)

/-- The number of the cell `p`: `p.x | p.y << 1` after the spreading steps. -/
def morton2 (p : V2 I32) : Res I32 := do
  let p ← spreadStep2 8 0x00FF00FF p
  let p ← spreadStep2 4 0x0F0F0F0F p
  let p ← spreadStep2 2 0x33333333 p
  let p ← spreadStep2 1 0x55555555 p
  I32.or p.x (← I32.shl p.y (I32.lit 1))

/-- The cell with the number `c`: `ivec2(c, c >> 1) & 0x55555555`, then the gathering steps. -/
def unmorton2 (c : I32) : Res (V2 I32) := do
  let p ← IV2.andS ⟨c, ← I32.shr c (I32.lit 1)⟩ (I32.lit 0x55555555)
  let p ← gatherStep2 1 0x33333333 p
  let p ← gatherStep2 2 0x0F0F0F0F p
  let p ← gatherStep2 4 0x00FF00FF p
  gatherStep2 8 0x0000FFFF p

/-- `p = (p | p << k) & mask`, `ivec3`. -/
def spreadStep3 (k mask : ℤ) (p : V3 I32) : Res (V3 I32) := do
  IV3.andS (← IV3.or p (← IV3.shlS p (I32.lit k))) (I32.lit mask)

/-- `p = (p | (p & low) << k) & mask`, `ivec3`. -/
def spreadLow3 (low k mask : ℤ) (p : V3 I32) : Res (V3 I32) := do
  IV3.andS (← IV3.or p (← IV3.shlS (← IV3.andS p (I32.lit low)) (I32.lit k))) (I32.lit mask)

/-- `p = (p | p >> k) & mask`, `ivec3`. -/
def gatherStep3 (k mask : ℤ) (p : V3 I32) : Res (V3 I32) := do
  IV3.andS (← IV3.or p (← IV3.shrS p (I32.lit k))) (I32.lit mask)

/-- The number of the cell `p`: `p.x | p.y << 1 | p.z << 2` after the spreading steps. The second step clears the bits that would be
shifted out. -/
def morton3 (p : V3 I32) : Res I32 := do
  let p ← spreadStep3 16 0x030000FF p
  let p ← spreadLow3 0xFF 8 0x0300F00F p
  let p ← spreadStep3 4 0x030C30C3 p
  let p ← spreadStep3 2 0x09249249 p
  I32.or (← I32.or p.x (← I32.shl p.y (I32.lit 1))) (← I32.shl p.z (I32.lit 2))

/-- The same as often printed, for unsigned numbers: the second step shifts bits out at the top. -/
def mortonPrinted3 (p : V3 I32) : Res I32 := do
  let p ← spreadStep3 16 0x030000FF p
  let p ← spreadStep3 8 0x0300F00F p
  let p ← spreadStep3 4 0x030C30C3 p
  let p ← spreadStep3 2 0x09249249 p
  I32.or (← I32.or p.x (← I32.shl p.y (I32.lit 1))) (← I32.shl p.z (I32.lit 2))

/-- The cell with the number `c`: `ivec3(c, c >> 1, c >> 2) & 0x09249249`, then the gathering steps. -/
def unmorton3 (c : I32) : Res (V3 I32) := do
  let p ← IV3.andS ⟨c, ← I32.shr c (I32.lit 1), ← I32.shr c (I32.lit 2)⟩ (I32.lit 0x09249249)
  let p ← gatherStep3 2 0x030C30C3 p
  let p ← gatherStep3 4 0x0300F00F p
  let p ← gatherStep3 8 0x030000FF p
  gatherStep3 16 0x000003FF p

end Zcm
