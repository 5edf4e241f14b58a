import Verif.Lemmas.Affine

/-!
# Lemmas: the rotation matrix of `rotate` in exact arithmetic
-/

namespace Zcm

/-- the rotation matrix about the unit axis `n` with cosine `c` and sine `s` -/
noncomputable def rodMat (n : V3 ℝ) (c s : ℝ) : M4 ℝ :=
  ⟨⟨c + (1 - c) * n.x * n.x, (1 - c) * n.x * n.y + s * n.z, (1 - c) * n.x * n.z - s * n.y, 0⟩,
   ⟨(1 - c) * n.y * n.x - s * n.z, c + (1 - c) * n.y * n.y, (1 - c) * n.y * n.z + s * n.x, 0⟩,
   ⟨(1 - c) * n.z * n.x + s * n.y, (1 - c) * n.z * n.y - s * n.x, c + (1 - c) * n.z * n.z, 0⟩,
   ⟨0, 0, 0, 1⟩⟩

theorem M4.rotate_eq (m : M4 ℝ) (a : ℝ) (v : V3 ℝ) :
    M4.rotate m a v = m * rodMat (V3.normalize v) (Real.cos a) (Real.sin a) := by
  rw [M4.mul_eq]
  simp only [M4.rotate, rodMat, M4.mulV_cols]
  generalize V3.normalize v = n
  ext <;> simp

/-- a positive multiple of a unit vector normalizes to that unit vector -/
theorem V3.normalize_smul_unit {n : V3 ℝ} (hn : V3.length n = 1) {k : ℝ} (hk : 0 < k) :
    V3.normalize (k * n) = n := by
  rw [← V3.eu_injective, V3.eu_normalize, V3.eu_smul, norm_smul, smul_smul, Real.norm_of_nonneg hk.le,
    ← V3.length_eq_norm n, hn, mul_one, inv_mul_cancel₀ hk.ne', one_smul]

/-- a non-zero vector is its length times its unit vector -/
theorem V3.eq_length_mul {v : V3 ℝ} (h : ∃ i, coord v i ≠ 0) : v = V3.length v * V3.normalize v := by
  have h0 := V3.norm_pos h
  rw [← V3.eu_injective, V3.eu_smul, V3.eu_normalize, V3.length_eq_norm, smul_smul,
      mul_inv_cancel₀ h0.ne', one_smul]

end Zcm
