import Verif.Model.F32
import Mathlib.Data.Real.Basic
import Mathlib.Algebra.BigOperators.Fin

/-!
# Specification: boxes and planes
-/

namespace Zcm

/-- `x` is in the box from `lo` to `hi`, as compared in float arithmetic. -/
def InsideBox {n : ℕ} (lo hi x : Fin n → F32) : Prop := ∀ i, (x i).IsFin = true ∧ lo i ≤ x i ∧ x i ≤ hi i

/-- A box and a plane of ordinary size: the numbers are finite, those of the box and of the normal up to `2^60`, the offset up to `2^120`. -/
structure OrdinaryCull {n : ℕ} (lo hi nor : Fin n → F32) (d : F32) : Prop where
  fin : ∀ i, (lo i).IsFin = true ∧ (hi i).IsFin = true ∧ (nor i).IsFin = true
  ordered : ∀ i, lo i ≤ hi i
  lo_le : ∀ i, |(lo i).val| ≤ 2 ^ 60
  hi_le : ∀ i, |(hi i).val| ≤ 2 ^ 60
  nor_le : ∀ i, |(nor i).val| ≤ 2 ^ 60
  d_fin : d.IsFin = true
  d_le : |d.val| ≤ 2 ^ 120

/-- The size of the numbers in a test of the box against the plane. -/
noncomputable def planeScale {n : ℕ} (lo hi nor : Fin n → F32) (d : F32) : ℝ :=
  ∑ i, |((nor i).val : ℝ)| * max |((lo i).val : ℝ)| |((hi i).val : ℝ)| + |(d.val : ℝ)|

/-- The exact signed distance, times the length of the normal, of the exact point `x` from the plane. -/
noncomputable def exactSide {n : ℕ} (nor : Fin n → F32) (d : F32) (x : Fin n → ℝ) : ℝ := ∑ i, ((nor i).val : ℝ) * x i + d.val

end Zcm
