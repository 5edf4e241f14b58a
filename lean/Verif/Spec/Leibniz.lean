import Verif.Model.F32
import Verif.Spec.Linear
import Mathlib.LinearAlgebra.Matrix.NonsingularInverse

/-!
# Specification: the exact matrix a float matrix stands for, and the size of its Leibniz terms
-/

namespace Zcm

/-- The matrix of rational numbers that a matrix of finite floats stands for (first index: row). -/
def exactMat {M : Type → Type} {n : ℕ} [Entries M n] (m : M F32) : Matrix (Fin n) (Fin n) ℚ :=
  Matrix.of fun r c => (entry m c r).val

/-- All entries of `m` are finite and at most `B` in magnitude. -/
def BoundedBy {M : Type → Type} {n : ℕ} [Entries M n] (m : M F32) (B : ℚ) : Prop :=
  ∀ c r, (entry m c r).IsFin = true ∧ |(entry m c r).val| ≤ B

/-- The sum of the magnitudes of the terms of Leibniz' formula for the determinant of `A`.  It is at least `|det A|`; the
quotient `termSize A / |det A|` measures how much cancels in the determinant. -/
def termSize {n : ℕ} (A : Matrix (Fin n) (Fin n) ℚ) : ℚ := ∑ σ : Equiv.Perm (Fin n), ∏ i, |A (σ i) i|

/-- The same for the minor whose determinant is, up to sign, the adjugate entry in row `i`, column `j`: delete row `j` and
column `i`. -/
def minorSize {n : ℕ} (A : Matrix (Fin (n + 1)) (Fin (n + 1)) ℚ) (i j : Fin (n + 1)) : ℚ :=
  termSize (A.submatrix j.succAbove i.succAbove)

/-- `A` is far enough from singular for its inverse to be computed in binary32: less than 18 bits cancel in the determinant, and
the determinant is not tiny compared to the entries (at most `B`), so that nothing overflows and underflow is negligible. -/
def Invertible32 {n : ℕ} (A : Matrix (Fin (n + 1)) (Fin (n + 1)) ℚ) (B : ℚ) : Prop :=
  termSize A ≤ 2 ^ 18 * |A.det| ∧ B ^ n ≤ 2 ^ 110 * |A.det|

/-- The float `x` approximates the entry of `A⁻¹` in row `i`, column `j`.  The first part of the bound is the size the entry
would have without cancellation in the minor, times `2^-19`, times the factor by which the determinant cancels; the rest is
for underflow. -/
def InverseEntry {n : ℕ} (A : Matrix (Fin (n + 1)) (Fin (n + 1)) ℚ) (B : ℚ) (i j : Fin (n + 1)) (x : F32) : Prop :=
  x.IsFin = true ∧
  |x.val - A⁻¹ i j| ≤
    termSize A / |A.det| * (minorSize A i j / |A.det|) / 2 ^ 19 + B / |A.det| / 2 ^ 145 + 1 / 2 ^ 150

end Zcm
