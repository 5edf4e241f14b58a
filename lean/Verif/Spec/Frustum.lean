import Verif.Spec.Cull
import Verif.Spec.Coord

/-!
# Specification: the volume seen through a matrix
-/

namespace Zcm

/-- The exact clip coordinates (`x` is 0, `y` 1, `z` 2, `w` 3) of the exact point `x` under the matrix `M`. -/
noncomputable def clipCoord (M : M4 F32) (x : Fin 3 → ℝ) (r : Fin 4) : ℝ :=
  ∑ c : Fin 3, ((entry M c.castSucc r).val : ℝ) * x c + (entry M 3 r).val

/-- The exact point is in the volume seen, by a margin of `e i` in direction `i`: its clip coordinates `x`, `y` and `z` are between `-w` and
`w`, and not within the margin of the sides. -/
def SeenBy (M : M4 F32) (e : Fin 3 → ℝ) (x : Fin 3 → ℝ) : Prop := ∀ i : Fin 3, |clipCoord M x i.castSucc| + e i ≤ clipCoord M x 3

/-- The exact point is in the box. -/
def InExactBox (lo hi : V3 F32) (x : Fin 3 → ℝ) : Prop := ∀ i, ((coord lo i).val : ℝ) ≤ x i ∧ x i ≤ (coord hi i).val

/-- The size of the numbers in a test of the box against the sides of the volume across direction `i`. -/
noncomputable def clipScale (M : M4 F32) (lo hi : V3 F32) (i : Fin 3) : ℝ :=
  ∑ c : Fin 3, (|((entry M c.castSucc i.castSucc).val : ℝ)| + |((entry M c.castSucc 3).val : ℝ)|) * max |((coord lo c).val : ℝ)| |((coord hi c).val : ℝ)| +
    (|((entry M 3 i.castSucc).val : ℝ)| + |((entry M 3 3).val : ℝ)|)

/-- A box and a matrix of ordinary size: numbers are finite, up to `2^58`. -/
structure OrdinaryView (M : M4 F32) (lo hi : V3 F32) : Prop where
  mat : ∀ c r, (entry M c r).IsFin = true ∧ |(entry M c r).val| ≤ 2 ^ 58
  box : ∀ i, (coord lo i).IsFin = true ∧ (coord hi i).IsFin = true ∧ |(coord lo i).val| ≤ 2 ^ 58 ∧ |(coord hi i).val| ≤ 2 ^ 58
  ordered : ∀ i, coord lo i ≤ coord hi i

end Zcm
