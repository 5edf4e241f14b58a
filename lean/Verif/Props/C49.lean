import Verif.Lemmas.Rotate

/-!
# C49: rotate builds a proper rotation about the axis

Exact arithmetic.  `R(a, v) = rotate(mat4(), a, v)`.
-/

namespace Zcm

/-- C49: `rotate` post-multiplies, and only the direction of the axis matters. -/
theorem C49_rotate (m : M4 ℝ) (a : ℝ) (v : V3 ℝ) :
    M4.rotate m a v = m * M4.rotate M4.default a v ∧
    (∀ k : ℝ, 0 < k → (∃ i, coord v i ≠ 0) → M4.rotate m a (k * v) = M4.rotate m a v) := by
  constructor
  · rw [M4.rotate_eq, M4.rotate_eq M4.default]
    congr 1
    rw [← M4.toMat_injective, M4.toMat_mul, M4.toMat_default, Matrix.one_mul]
  · intro k hk hv
    rw [M4.rotate_eq, M4.rotate_eq]
    congr 2
    conv_lhs => rw [V3.eq_length_mul hv]
    have h0 : 0 < V3.length v := by rw [V3.length_eq_norm]; exact V3.norm_pos hv
    have h1 := V3.length_normalize hv
    generalize V3.normalize v = n at *
    generalize V3.length v = l at *
    rw [show k * (l * n) = (k * l) * n by ext <;> simp <;> ring]
    exact V3.normalize_smul_unit h1 (mul_pos hk h0)

/-- C49: Rodrigues' formula.  The axis is `k * n` with `n` a unit vector and `k > 0`; the rotation
acts on points (`w = 1`) and directions (`w = 0`) alike. -/
theorem C49_rodrigues (a k : ℝ) (n p : V3 ℝ) (w : ℝ) (hn : V3.length n = 1) (hk : 0 < k) :
    M4.rotate M4.default a (k * n) * hom p w =
      hom (Real.cos a * p + Real.sin a * V3.cross n p + ((1 - Real.cos a) * V3.dot n p) * n) w := by
  rw [M4.rotate_eq, V3.normalize_smul_unit hn hk, ← M4.coord_injective, M4.coord_mulV, M4.toMat_mul,
    M4.toMat_default, Matrix.one_mul, ← M4.coord_mulV, M4.coord_injective]
  simp only [M4.mulV_cols, rodMat]
  ext <;> simp [V3.dot] <;> ring

/-- C49: counter-clockwise about the axis by `a`.  For `p` orthogonal to the axis the image `p'` has
the same length, makes the angle with cosine `cos a`, and `p, p'` turn positively about the axis. -/
theorem C49_angle (a k : ℝ) (n p p' : V3 ℝ) (w : ℝ) (hn : V3.length n = 1) (hk : 0 < k)
    (hp : V3.dot n p = 0) (h' : M4.rotate M4.default a (k * n) * hom p w = hom p' w) :
    V3.dot p p' = V3.dot p p * Real.cos a ∧
    V3.cross p p' = (V3.dot p p * Real.sin a) * n ∧
    V3.dot n p' = 0 ∧ V3.dot p' p' = V3.dot p p := by
  rw [C49_rodrigues a k n p w hn hk, hp] at h'
  have hx := congrArg V4.x h'
  have hy := congrArg V4.y h'
  have hz := congrArg V4.z h'
  have hn := V3.dot_self_of_length hn
  have hcs := Real.sin_sq_add_cos_sq a
  simp [V3.dot] at hx hy hz hn hp
  refine ⟨?_, ?_, ?_, ?_⟩
  · simp only [V3.dot, ← hx, ← hy, ← hz]; ring
  · ext <;> simp [V3.dot, ← hx, ← hy, ← hz] <;> grind
  · simp only [V3.dot, ← hx, ← hy, ← hz]; grind
  · simp only [V3.dot, ← hx, ← hy, ← hz]; grind

/-- C49: a proper rotation (orthogonal with determinant 1) that fixes the axis; rotations about the
same axis add their angles, and angle 0 is the identity. -/
theorem C49_group (a b : ℝ) (v : V3 ℝ) (w : ℝ) (hv : ∃ i, coord v i ≠ 0) :
    M4.transpose (M4.rotate M4.default a v) * M4.rotate M4.default a v = M4.default ∧
    M4.determinant (M4.rotate M4.default a v) = 1 ∧
    M4.rotate M4.default a v * hom v w = hom v w ∧
    M4.rotate M4.default a v * M4.rotate M4.default b v = M4.rotate M4.default (a + b) v ∧
    M4.rotate M4.default 0 v = M4.default := by
  have e : ∀ a, M4.rotate M4.default a v = rodMat (V3.normalize v) (Real.cos a) (Real.sin a) := by
    intro a
    rw [M4.rotate_eq, ← M4.toMat_injective, M4.toMat_mul, M4.toMat_default, Matrix.one_mul]
  simp only [e, Real.cos_add, Real.sin_add, Real.cos_zero, Real.sin_zero]
  have hl := V3.eq_length_mul hv
  have hn := V3.dot_self_of_length (V3.length_normalize hv)
  have hcs := Real.sin_sq_add_cos_sq a
  generalize V3.normalize v = n at *
  generalize V3.length v = l at *
  subst hl
  generalize Real.cos a = c at *
  generalize Real.sin a = s at *
  generalize Real.cos b = d at *
  generalize Real.sin b = t at *
  clear e hv
  simp only [V3.dot] at hn
  refine ⟨?_, ?_, ?_, ?_, ?_⟩
  · rw [M4.mul_eq, M4.default_real]
    simp only [M4.mulV_cols, rodMat, M4.transpose]
    ext <;> simp <;> grind
  · simp only [rodMat, M4.determinant]
    grind
  · simp only [M4.mulV_cols, rodMat]
    ext <;> simp <;> grind
  · rw [M4.mul_eq]
    simp only [M4.mulV_cols, rodMat]
    ext <;> simp <;> grind
  · rw [M4.default_real]
    simp only [rodMat]
    ext <;> simp

/-- Non-vacuity: a quarter turn about `z` takes `x` to `y`. -/
example : M4.rotate M4.default (Real.pi / 2) ((2:ℝ) * (⟨0, 0, 1⟩ : V3 ℝ)) * hom (⟨1, 0, 0⟩ : V3 ℝ) 1 =
    hom ⟨0, 1, 0⟩ 1 := by
  rw [C49_rodrigues _ _ _ _ _ (V3.length_of_dot_self (by simp [V3.dot])) (by norm_num)]
  ext <;> simp [V3.dot]

end Zcm
