import Verif.Lemmas.F32Perp

/-!
# C115  Perpendicular vectors in IEEE arithmetic

`orthogonal(v)` and `orthogonal_branchless(v)` in binary32.  `exactly v` is the exact vector a float vector stands for, in
Mathlib's Euclidean space.
-/

set_option exponentiation.threshold 300

namespace Zcm

open F32 InnerProductGeometry
open scoped RealInnerProductSpace

/-- C115: `orthogonal(v)` makes no rounding error at all: the result is exactly perpendicular to `v`, no longer than `v`, and at
least `|v| / √2` long. -/
theorem C115_orthogonal (v : V3 F32) (hv : v.Finite) :
    (V3.orthogonal v).Finite ∧ ⟪exactly (V3.orthogonal v), exactly v⟫ = 0 ∧
    ‖exactly v‖ / Real.sqrt 2 ≤ ‖exactly (V3.orthogonal v)‖ ∧ ‖exactly (V3.orthogonal v)‖ ≤ ‖exactly v‖ := by
  obtain ⟨f, o, lo, hi⟩ := orthogonal_exact hv
  refine ⟨f, o, ?_, le_of_sq_le_sq hi (norm_nonneg _)⟩
  refine le_of_sq_le_sq ?_ (norm_nonneg _)
  rwa [div_pow, Real.sq_sqrt (by norm_num)]

/-- C115: and the computed dot product of the two is 0, provided no product of two components overflows. -/
theorem C115_dot (v : V3 F32) (hv : v.Finite) (h1 : (v.x * v.y).IsFin = true) (h2 : (v.y * v.z).IsFin = true) :
    (V3.dot (V3.orthogonal v) v == lit 0) = true := orthogonal_dot hv h1 h2

/-- C115: `orthogonal_branchless(v)` is perpendicular to `v` up to rounding, for components up to `2^100`. -/
theorem C115_branchless (v : V3 F32) (hv : v.Finite) (hb : ∀ i, |((coord v i).val : ℝ)| ≤ 2 ^ 100) :
    (V3.orthogonal_branchless v).Finite ∧
    |⟪exactly (V3.orthogonal_branchless v), exactly v⟫| ≤ 2 / 2 ^ 24 * ‖exactly v‖ ^ 2 + 1 / 2 ^ 147 * ‖exactly v‖ := by
  obtain ⟨f, ex, ey, ez⟩ := branchless_near hv hb
  refine ⟨f, ?_⟩
  rw [inner_exactly, ex, normSq_exactly]
  generalize F.fract (F.abs v.x + lit 0.5) = k at *
  generalize V3.orthogonal_branchless v = w at *
  have cy : |(v.y.val : ℝ)| ≤ ‖exactly v‖ := by
    refine le_of_sq_le_sq ?_ (norm_nonneg _)
    rw [sq_abs, normSq_exactly]; nlinarith [sq_nonneg (v.x.val : ℝ), sq_nonneg (v.z.val : ℝ)]
  have cz : |(v.z.val : ℝ)| ≤ ‖exactly v‖ := by
    refine le_of_sq_le_sq ?_ (norm_nonneg _)
    rw [sq_abs, normSq_exactly]; nlinarith [sq_nonneg (v.x.val : ℝ), sq_nonneg (v.y.val : ℝ)]
  generalize ‖exactly v‖ = N at *
  generalize (v.x.val : ℝ) = x at *
  generalize (v.y.val : ℝ) = y at *
  generalize (v.z.val : ℝ) = z at *
  have e : -y * x + w.y.val * y + w.z.val * z = ((w.y.val : ℝ) - (x - k.val * z)) * y + ((w.z.val : ℝ) - k.val * y) * z := by ring
  rw [e]
  refine (abs_add_le _ _).trans ?_
  rw [abs_mul, abs_mul]
  have a1 : |(w.y.val : ℝ) - (x - k.val * z)| * |y| ≤ ((|x| + 2.1 * |z|) / 2 ^ 24 + 1 / 2 ^ 148) * |y| := by gcongr
  have a2 : |(w.z.val : ℝ) - k.val * y| * |z| ≤ (|y| / 2 ^ 24 + 1 / 2 ^ 150) * |z| := by gcongr
  have a3 : |x| * |y| + 3.1 * (|y| * |z|) ≤ 2 * (x ^ 2 + y ^ 2 + z ^ 2) := by
    rw [← sq_abs x, ← sq_abs y, ← sq_abs z]
    nlinarith [sq_nonneg (4 * |x| - |y|), sq_nonneg (1.2 * |y| - 1.3 * |z|), sq_nonneg (|y|), sq_nonneg (|z|), sq_nonneg (|x|)]
  have : (|x| * |y| + 3.1 * (|y| * |z|)) / 2 ^ 24 ≤ 2 * (x ^ 2 + y ^ 2 + z ^ 2) / 2 ^ 24 := by gcongr
  norm_num at a1 a2 this ⊢
  linarith [abs_nonneg y]

/-- C115: for `v` of length 1 up to `2^-20` it is at least a third long. -/
theorem C115_branchless_long (v : V3 F32) (hv : v.Finite) (hu : |‖exactly v‖ - 1| ≤ 1 / 2 ^ 20) :
    1 / 3 ≤ ‖exactly (V3.orthogonal_branchless v)‖ := by
  obtain ⟨u1, u2⟩ := abs_le.1 hu
  have n0 := norm_nonneg (exactly v)
  have s1 : 1 - 1 / 2 ^ 18 ≤ ‖exactly v‖ ^ 2 := by norm_num at *; nlinarith
  have s2 : ‖exactly v‖ ^ 2 ≤ 1 + 1 / 2 ^ 18 := by norm_num at *; nlinarith
  have comp : ∀ i, |((coord v i).val : ℝ)| ≤ 1.1 := by
    intro i
    refine le_trans ?_ (show ‖exactly v‖ ≤ 1.1 by norm_num at *; linarith)
    exact PiLp.norm_apply_le (exactly v) i
  obtain ⟨f, ex, ey, ez⟩ := branchless_near hv fun i => (comp i).trans (by norm_num)
  obtain ⟨-, k0, k1, kc⟩ := branchless_factor (hv 0) ((comp 0).trans (by norm_num))
  have c0 : |(v.x.val : ℝ)| ≤ 1.1 := comp 0
  have c1 : |(v.y.val : ℝ)| ≤ 1.1 := comp 1
  have c2 : |(v.z.val : ℝ)| ≤ 1.1 := comp 2
  have kc := kc (c0.trans (by norm_num))
  change (0 : ℝ) ≤ (F.fract (F.abs v.x + lit 0.5)).val at k0
  change ((F.fract (F.abs v.x + lit 0.5)).val : ℝ) ≤ 1 at k1
  rw [normSq_exactly] at s1 s2
  have hl := branchless_length (η := 1 / 2 ^ 18) (k := (F.fract (F.abs v.x + lit 0.5)).val) (by norm_num) k0 s1 s2
    (kc.imp (fun h => ⟨h.1.trans (by norm_num), h.2.trans (by norm_num)⟩)
      fun h => ⟨le_trans (by norm_num) h.1, h.2.trans (by norm_num)⟩)
  refine le_of_sq_le_sq ?_ (norm_nonneg _)
  rw [normSq_exactly, ex]
  generalize F.fract (F.abs v.x + lit 0.5) = k at *
  generalize V3.orthogonal_branchless v = w at *
  generalize hx : (v.x.val : ℝ) = x at *
  generalize hy : (v.y.val : ℝ) = y at *
  generalize hz : (v.z.val : ℝ) = z at *
  have e1 : |(w.y.val : ℝ) - (x - k.val * z)| ≤ 1 / 1000 := ey.trans (by norm_num at *; linarith)
  have e2 : |(w.z.val : ℝ) - k.val * y| ≤ 1 / 1000 := ez.trans (by norm_num at *; linarith)
  have b1 : |x - k.val * z| ≤ 2.2 := by
    refine (abs_sub _ _).trans ?_
    rw [abs_mul, abs_of_nonneg k0]
    have := mul_le_of_le_one_left (abs_nonneg z) k1
    linarith
  have b2 : |k.val * y| ≤ 1.1 := by
    rw [abs_mul, abs_of_nonneg k0]
    exact (mul_le_of_le_one_left (abs_nonneg y) k1).trans c1
  have step : ∀ p q B : ℝ, |p - q| ≤ 1 / 1000 → |q| ≤ B → q ^ 2 - 2 * B / 1000 ≤ p ^ 2 := by
    intro p q B h hq
    have : p ^ 2 = q ^ 2 + 2 * (q * (p - q)) + (p - q) ^ 2 := by ring
    have m : |q * (p - q)| ≤ B * (1 / 1000) := by
      rw [abs_mul]
      exact mul_le_mul hq h (abs_nonneg _) ((abs_nonneg _).trans hq)
    have := (abs_le.1 m).1
    nlinarith [sq_nonneg (p - q)]
  have t1 := step _ _ _ e1 b1
  have t2 := step _ _ _ e2 b2
  norm_num at t1 t2 hl ⊢
  linarith

/-! ### The hypotheses are met -/

/-- Non-vacuity: the direction (0, 0, 1), and (0.6, 0.8, 0) rounded to floats. -/
example := C115_branchless_long ⟨lit 0, lit 0, lit 1⟩ (fun i => by fin_cases i <;> decide +kernel) (by
  have : ‖exactly (⟨lit 0, lit 0, lit 1⟩ : V3 F32)‖ = 1 := by
    refine (sq_eq_sq₀ (norm_nonneg _) zero_le_one).1 ?_
    rw [normSq_exactly]
    change ((lit 0 : F32).val : ℝ) ^ 2 + ((lit 0 : F32).val : ℝ) ^ 2 + ((lit 1 : F32).val : ℝ) ^ 2 = 1 ^ 2
    rw [val_lit_zero, val_lit_one]
    norm_num
  rw [this]; norm_num)

example : let v : V3 F32 := ⟨lit 0.6, lit 0.8, lit 0⟩
    v.Finite ∧ (∀ i, |((coord v i).val : ℝ)| ≤ 2 ^ 100) ∧ (v.x * v.y).IsFin = true ∧ (v.y * v.z).IsFin = true := by
  intro v
  refine ⟨fun i => by fin_cases i <;> decide +kernel, fun i => ?_, by decide +kernel, by decide +kernel⟩
  have : ∀ i, |(coord v i).val| ≤ 2 ^ 100 := fun i => by fin_cases i <;> decide +kernel
  exact_mod_cast this i

end Zcm
