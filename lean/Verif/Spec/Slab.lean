import Verif.Model.F32
import Mathlib.Data.Real.Basic

/-!
# Specification: lines and boxes
-/

namespace Zcm

/-- The exact point of the line through `o` in direction `d` at parameter `s` is in the box from `lo` to `hi`, enlarged in coordinate `i` by
`e i` on both sides. -/
def InBox {n : ℕ} (lo hi o d : Fin n → F32) (s : ℝ) (e : Fin n → ℝ) : Prop :=
  ∀ i, ((lo i).val : ℝ) - e i ≤ (o i).val + s * (d i).val ∧ (o i).val + s * (d i).val ≤ (hi i).val + e i

/-- A box and a line of ordinary size that is not parallel to a side; the line crosses the planes of the sides at parameters up to `T`. -/
structure GoodBox {n : ℕ} (lo hi o d : Fin n → F32) (T : ℝ) : Prop where
  fin : ∀ i, (lo i).IsFin = true ∧ (hi i).IsFin = true ∧ (o i).IsFin = true ∧ (d i).IsFin = true
  ordered : ∀ i, lo i ≤ hi i
  d_ge : ∀ i, 1 / 2 ^ 20 ≤ |((d i).val : ℝ)|
  d_le : ∀ i, |((d i).val : ℝ)| ≤ 2 ^ 20
  lo_le : ∀ i, |((lo i).val : ℝ) - (o i).val| ≤ 2 ^ 60 ∧ |((lo i).val : ℝ) - (o i).val| ≤ T * |((d i).val : ℝ)|
  hi_le : ∀ i, |((hi i).val : ℝ) - (o i).val| ≤ 2 ^ 60 ∧ |((hi i).val : ℝ) - (o i).val| ≤ T * |((d i).val : ℝ)|

/-- No coordinate of the computation asks for `0 * ∞`: the direction is finite, and where `1 / d` is infinite (the line is parallel to a side)
the line is not in the plane of that side. -/
def Crosses {n : ℕ} (lo hi o d : Fin n → F32) : Prop :=
  ∀ i, (d i).IsFin = true ∧ ((lit 1 / d i).IsFin = true ∨ ((lo i).val ≠ (o i).val ∧ (hi i).val ≠ (o i).val))

end Zcm
