import Verif.Spec.Leibniz

/-!
# Specification: the error of dividing by a matrix
-/

namespace Zcm

/-- The sum of the magnitudes of the terms `v k * A⁻¹ (p k) (q k)`, each entry of the inverse taken without the cancellation in its
minor: what Cramer's rule adds up. -/
def cramerSize {n : ℕ} (A : Matrix (Fin (n + 1)) (Fin (n + 1)) ℚ) (v : Fin (n + 1) → ℚ) (p q : Fin (n + 1) → Fin (n + 1)) : ℚ :=
  ∑ k, |v k| * (minorSize A (p k) (q k) / |A.det|)

/-- The error allowed when dividing `v` by `A`: the size of the terms, times `2^-18`, times the factor by which the determinant
cancels; the rest is for underflow. -/
def divisionError {n : ℕ} (A : Matrix (Fin (n + 1)) (Fin (n + 1)) ℚ) (B : ℚ) (v : Fin (n + 1) → ℚ)
    (p q : Fin (n + 1) → Fin (n + 1)) : ℚ :=
  termSize A / |A.det| * cramerSize A v p q / 2 ^ 18 + (B / |A.det| / 2 ^ 144 + 1 / 2 ^ 149) * (∑ k, |v k|) + 1 / 2 ^ 147

end Zcm
