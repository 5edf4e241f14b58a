import Verif.Lemmas.Chunk

/-!
# C159: blocks of cells

The caller's code is in Spec/Chunk.lean; `icoord p i` is the integer that coordinate `i` of `p` holds (Spec/Int.lean).
-/

namespace Zcm

open I32

/-- C159, `ivec2`: for every cell `p`, also with negative coordinates, `c = p >> k` and `l = p & (2^k - 1)` are defined, and they are the
block and the place in it: the coordinates of `l` are from 0 to below `2^k`, and `p = 2^k c + l`.  `c * 2^k + l` never overflows and is
`p` again; `(c << k) | l` is `p` if no coordinate of `p` is negative and undefined behaviour otherwise. -/
theorem C159_ivec2 (k size mask : I32) (j : ℕ) (g : BlockSize k size mask j) (p : V2 I32) :
    ∃ c l, block2 k p = .ok c ∧ place2 mask p = .ok l ∧
      (∀ i, 0 ≤ icoord l i ∧ icoord l i < 2 ^ j ∧ icoord p i = 2 ^ j * icoord c i + icoord l i) ∧
      cellAt2 size c l = .ok p ∧
      ((∀ i, 0 ≤ icoord p i) → cellShl2 k c l = .ok p) ∧ ((∃ i, icoord p i < 0) → cellShl2 k c l = .ub) := by
  obtain ⟨cx, lx, sx, e1_x, e2_x, h0_x, h1_x, h2_x, e3_x, e4_x, e5_x, e6_x⟩ := block_coord g p.x
  obtain ⟨cy, ly, sy, e1_y, e2_y, h0_y, h1_y, h2_y, e3_y, e4_y, e5_y, e6_y⟩ := block_coord g p.y
  refine ⟨⟨cx, cy⟩, ⟨lx, ly⟩, ?_, ?_, fun i => ?_, ?_, fun h => ?_, fun h => ?_⟩
  · unfold block2 IV2.shrS V2.macroVS
    rw [e1_x, e1_y]; rfl
  · unfold place2 IV2.andS V2.macroVS
    rw [e2_x, e2_y]; rfl
  · fin_cases i
    · exact ⟨h0_x, h1_x, h2_x⟩
    · exact ⟨h0_y, h1_y, h2_y⟩
  · have m : IV2.mulS ⟨cx, cy⟩ size = .ok ⟨sx, sy⟩ := by
      unfold IV2.mulS V2.macroVS
      rw [e3_x, e3_y]; rfl
    unfold cellAt2
    rw [m]
    change IV2.add ⟨sx, sy⟩ ⟨lx, ly⟩ = _
    unfold IV2.add V2.macroVV
    rw [e4_x, e4_y]; rfl
  · obtain ⟨fx, gx⟩ := e5_x (h 0)
    obtain ⟨fy, gy⟩ := e5_y (h 1)
    have m : IV2.shlS ⟨cx, cy⟩ k = .ok ⟨sx, sy⟩ := by
      unfold IV2.shlS V2.macroVS
      rw [fx, fy]; rfl
    unfold cellShl2
    rw [m]
    change IV2.or ⟨sx, sy⟩ ⟨lx, ly⟩ = _
    unfold IV2.or V2.macroVV
    rw [gx, gy]; rfl
  · have m : IV2.shlS ⟨cx, cy⟩ k = .ub := by
      unfold IV2.shlS V2.macroVS
      obtain ⟨i, hi⟩ := h
      by_cases hx : p.x.toInt < 0
      · rw [e6_x hx]; rfl
      rw [(e5_x (not_lt.1 hx)).1]
      change (do let b ← I32.shl cy k; _) = _
      have hy : p.y.toInt < 0 := by fin_cases i; exacts [absurd hi hx, hi]
      rw [e6_y hy]; rfl
    unfold cellShl2
    rw [m]; rfl

/-- C159, `ivec2`, the way back: every block `c` and place `l` in it whose cell has coordinates that fit an `int` give a cell, computed
without overflow, and this cell is at the place `l` of the block `c`. -/
theorem C159_ivec2_back (k size mask : I32) (j : ℕ) (g : BlockSize k size mask j) (c l : V2 I32)
    (hl : ∀ i, 0 ≤ icoord l i ∧ icoord l i < 2 ^ j) (hf : ∀ i, FitsInt32 (2 ^ j * icoord c i + icoord l i)) :
    ∃ p, cellAt2 size c l = .ok p ∧ (∀ i, icoord p i = 2 ^ j * icoord c i + icoord l i) ∧
      block2 k p = .ok c ∧ place2 mask p = .ok l := by
  obtain ⟨sx, px, e1_x, e2_x, e3_x, e4_x, e5_x⟩ := cell_coord g c.x l.x (hl 0).1 (hl 0).2 (hf 0)
  obtain ⟨sy, py, e1_y, e2_y, e3_y, e4_y, e5_y⟩ := cell_coord g c.y l.y (hl 1).1 (hl 1).2 (hf 1)
  refine ⟨⟨px, py⟩, ?_, fun i => ?_, ?_, ?_⟩
  · have m : IV2.mulS c size = .ok ⟨sx, sy⟩ := by
      unfold IV2.mulS V2.macroVS
      rw [e1_x, e1_y]; rfl
    unfold cellAt2
    rw [m]
    change IV2.add ⟨sx, sy⟩ l = _
    unfold IV2.add V2.macroVV
    rw [e2_x, e2_y]; rfl
  · fin_cases i
    · exact e3_x
    · exact e3_y
  · unfold block2 IV2.shrS V2.macroVS
    rw [e4_x, e4_y]; rfl
  · unfold place2 IV2.andS V2.macroVS
    rw [e5_x, e5_y]; rfl

/-- C159, `ivec2`, why not `/` and `%`: `p / 2^k` is the block and `p % 2^k` the place only in the coordinates that are not negative or
divisible by `2^k`; otherwise the quotient is one more than the block and the remainder is negative. -/
theorem C159_ivec2_div (k size mask : I32) (j : ℕ) (g : BlockSize k size mask j) (p : V2 I32) :
    ∃ q r c, IV2.divS p size = .ok q ∧ IV2.modS p size = .ok r ∧ block2 k p = .ok c ∧
      ∀ i, (0 ≤ icoord p i ∨ icoord r i = 0 → icoord q i = icoord c i) ∧
        (icoord p i < 0 → icoord r i ≠ 0 → icoord q i = icoord c i + 1 ∧ icoord r i < 0) := by
  obtain ⟨qx, rx, cx, e1_x, e2_x, e3_x, h1_x, h2_x⟩ := div_coord g p.x
  obtain ⟨qy, ry, cy, e1_y, e2_y, e3_y, h1_y, h2_y⟩ := div_coord g p.y
  refine ⟨⟨qx, qy⟩, ⟨rx, ry⟩, ⟨cx, cy⟩, ?_, ?_, ?_, fun i => ?_⟩
  · unfold IV2.divS V2.macroVS
    rw [e1_x, e1_y]; rfl
  · unfold IV2.modS V2.macroVS
    rw [e2_x, e2_y]; rfl
  · unfold block2 IV2.shrS V2.macroVS
    rw [e3_x, e3_y]; rfl
  · fin_cases i
    · exact ⟨fun h => congrArg I32.toInt (h1_x h), h2_x⟩
    · exact ⟨fun h => congrArg I32.toInt (h1_y h), h2_y⟩

/-- C159, `ivec3`: for every cell `p`, also with negative coordinates, `c = p >> k` and `l = p & (2^k - 1)` are defined, and they are the
block and the place in it: the coordinates of `l` are from 0 to below `2^k`, and `p = 2^k c + l`.  `c * 2^k + l` never overflows and is
`p` again; `(c << k) | l` is `p` if no coordinate of `p` is negative and undefined behaviour otherwise. -/
theorem C159_ivec3 (k size mask : I32) (j : ℕ) (g : BlockSize k size mask j) (p : V3 I32) :
    ∃ c l, block3 k p = .ok c ∧ place3 mask p = .ok l ∧
      (∀ i, 0 ≤ icoord l i ∧ icoord l i < 2 ^ j ∧ icoord p i = 2 ^ j * icoord c i + icoord l i) ∧
      cellAt3 size c l = .ok p ∧
      ((∀ i, 0 ≤ icoord p i) → cellShl3 k c l = .ok p) ∧ ((∃ i, icoord p i < 0) → cellShl3 k c l = .ub) := by
  obtain ⟨cx, lx, sx, e1_x, e2_x, h0_x, h1_x, h2_x, e3_x, e4_x, e5_x, e6_x⟩ := block_coord g p.x
  obtain ⟨cy, ly, sy, e1_y, e2_y, h0_y, h1_y, h2_y, e3_y, e4_y, e5_y, e6_y⟩ := block_coord g p.y
  obtain ⟨cz, lz, sz, e1_z, e2_z, h0_z, h1_z, h2_z, e3_z, e4_z, e5_z, e6_z⟩ := block_coord g p.z
  refine ⟨⟨cx, cy, cz⟩, ⟨lx, ly, lz⟩, ?_, ?_, fun i => ?_, ?_, fun h => ?_, fun h => ?_⟩
  · unfold block3 IV3.shrS V3.macroVS
    rw [e1_x, e1_y, e1_z]; rfl
  · unfold place3 IV3.andS V3.macroVS
    rw [e2_x, e2_y, e2_z]; rfl
  · fin_cases i
    · exact ⟨h0_x, h1_x, h2_x⟩
    · exact ⟨h0_y, h1_y, h2_y⟩
    · exact ⟨h0_z, h1_z, h2_z⟩
  · have m : IV3.mulS ⟨cx, cy, cz⟩ size = .ok ⟨sx, sy, sz⟩ := by
      unfold IV3.mulS V3.macroVS
      rw [e3_x, e3_y, e3_z]; rfl
    unfold cellAt3
    rw [m]
    change IV3.add ⟨sx, sy, sz⟩ ⟨lx, ly, lz⟩ = _
    unfold IV3.add V3.macroVV
    rw [e4_x, e4_y, e4_z]; rfl
  · obtain ⟨fx, gx⟩ := e5_x (h 0)
    obtain ⟨fy, gy⟩ := e5_y (h 1)
    obtain ⟨fz, gz⟩ := e5_z (h 2)
    have m : IV3.shlS ⟨cx, cy, cz⟩ k = .ok ⟨sx, sy, sz⟩ := by
      unfold IV3.shlS V3.macroVS
      rw [fx, fy, fz]; rfl
    unfold cellShl3
    rw [m]
    change IV3.or ⟨sx, sy, sz⟩ ⟨lx, ly, lz⟩ = _
    unfold IV3.or V3.macroVV
    rw [gx, gy, gz]; rfl
  · have m : IV3.shlS ⟨cx, cy, cz⟩ k = .ub := by
      unfold IV3.shlS V3.macroVS
      obtain ⟨i, hi⟩ := h
      by_cases hx : p.x.toInt < 0
      · rw [e6_x hx]; rfl
      rw [(e5_x (not_lt.1 hx)).1]
      change (do let b ← I32.shl cy k; _) = _
      by_cases hy : p.y.toInt < 0
      · rw [e6_y hy]; rfl
      rw [(e5_y (not_lt.1 hy)).1]
      change (do let c ← I32.shl cz k; _) = _
      have hz : p.z.toInt < 0 := by fin_cases i; exacts [absurd hi hx, absurd hi hy, hi]
      rw [e6_z hz]; rfl
    unfold cellShl3
    rw [m]; rfl

/-- C159, `ivec3`, the way back: every block `c` and place `l` in it whose cell has coordinates that fit an `int` give a cell, computed
without overflow, and this cell is at the place `l` of the block `c`. -/
theorem C159_ivec3_back (k size mask : I32) (j : ℕ) (g : BlockSize k size mask j) (c l : V3 I32)
    (hl : ∀ i, 0 ≤ icoord l i ∧ icoord l i < 2 ^ j) (hf : ∀ i, FitsInt32 (2 ^ j * icoord c i + icoord l i)) :
    ∃ p, cellAt3 size c l = .ok p ∧ (∀ i, icoord p i = 2 ^ j * icoord c i + icoord l i) ∧
      block3 k p = .ok c ∧ place3 mask p = .ok l := by
  obtain ⟨sx, px, e1_x, e2_x, e3_x, e4_x, e5_x⟩ := cell_coord g c.x l.x (hl 0).1 (hl 0).2 (hf 0)
  obtain ⟨sy, py, e1_y, e2_y, e3_y, e4_y, e5_y⟩ := cell_coord g c.y l.y (hl 1).1 (hl 1).2 (hf 1)
  obtain ⟨sz, pz, e1_z, e2_z, e3_z, e4_z, e5_z⟩ := cell_coord g c.z l.z (hl 2).1 (hl 2).2 (hf 2)
  refine ⟨⟨px, py, pz⟩, ?_, fun i => ?_, ?_, ?_⟩
  · have m : IV3.mulS c size = .ok ⟨sx, sy, sz⟩ := by
      unfold IV3.mulS V3.macroVS
      rw [e1_x, e1_y, e1_z]; rfl
    unfold cellAt3
    rw [m]
    change IV3.add ⟨sx, sy, sz⟩ l = _
    unfold IV3.add V3.macroVV
    rw [e2_x, e2_y, e2_z]; rfl
  · fin_cases i
    · exact e3_x
    · exact e3_y
    · exact e3_z
  · unfold block3 IV3.shrS V3.macroVS
    rw [e4_x, e4_y, e4_z]; rfl
  · unfold place3 IV3.andS V3.macroVS
    rw [e5_x, e5_y, e5_z]; rfl

/-- C159, `ivec3`, why not `/` and `%`: `p / 2^k` is the block and `p % 2^k` the place only in the coordinates that are not negative or
divisible by `2^k`; otherwise the quotient is one more than the block and the remainder is negative. -/
theorem C159_ivec3_div (k size mask : I32) (j : ℕ) (g : BlockSize k size mask j) (p : V3 I32) :
    ∃ q r c, IV3.divS p size = .ok q ∧ IV3.modS p size = .ok r ∧ block3 k p = .ok c ∧
      ∀ i, (0 ≤ icoord p i ∨ icoord r i = 0 → icoord q i = icoord c i) ∧
        (icoord p i < 0 → icoord r i ≠ 0 → icoord q i = icoord c i + 1 ∧ icoord r i < 0) := by
  obtain ⟨qx, rx, cx, e1_x, e2_x, e3_x, h1_x, h2_x⟩ := div_coord g p.x
  obtain ⟨qy, ry, cy, e1_y, e2_y, e3_y, h1_y, h2_y⟩ := div_coord g p.y
  obtain ⟨qz, rz, cz, e1_z, e2_z, e3_z, h1_z, h2_z⟩ := div_coord g p.z
  refine ⟨⟨qx, qy, qz⟩, ⟨rx, ry, rz⟩, ⟨cx, cy, cz⟩, ?_, ?_, ?_, fun i => ?_⟩
  · unfold IV3.divS V3.macroVS
    rw [e1_x, e1_y, e1_z]; rfl
  · unfold IV3.modS V3.macroVS
    rw [e2_x, e2_y, e2_z]; rfl
  · unfold block3 IV3.shrS V3.macroVS
    rw [e3_x, e3_y, e3_z]; rfl
  · fin_cases i
    · exact ⟨fun h => congrArg I32.toInt (h1_x h), h2_x⟩
    · exact ⟨fun h => congrArg I32.toInt (h1_y h), h2_y⟩
    · exact ⟨fun h => congrArg I32.toInt (h1_z h), h2_z⟩

/-- The hypotheses are met by blocks of 16, and a cell with a negative coordinate is not a trivial case. -/
example : BlockSize (I32.lit 4) (I32.lit 16) (I32.lit 15) 4 ∧
    block2 (I32.lit 4) ⟨I32.lit (-1), I32.lit 37⟩ = .ok ⟨I32.lit (-1), I32.lit 2⟩ ∧
    place2 (I32.lit 15) ⟨I32.lit (-1), I32.lit 37⟩ = .ok ⟨I32.lit 15, I32.lit 5⟩ ∧
    cellAt2 (I32.lit 16) ⟨I32.lit (-1), I32.lit 2⟩ ⟨I32.lit 15, I32.lit 5⟩ = .ok ⟨I32.lit (-1), I32.lit 37⟩ ∧
    cellShl2 (I32.lit 4) ⟨I32.lit (-1), I32.lit 2⟩ ⟨I32.lit 15, I32.lit 5⟩ = .ub ∧
    IV2.divS ⟨I32.lit (-1), I32.lit 37⟩ (I32.lit 16) = .ok ⟨I32.lit 0, I32.lit 2⟩ ∧
    FitsInt32 (2 ^ 4 * (I32.lit (-1)).toInt + (I32.lit 15).toInt) :=
  ⟨⟨by decide, by decide, by decide, by decide⟩, by decide, by decide, by decide, by decide, by decide, by decide⟩

end Zcm
