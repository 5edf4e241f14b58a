import Verif.Spec.Coord
import Verif.Lemmas.F32InvSqrt
import Mathlib.Tactic.FinCases

/-!
# C119  Reciprocal square roots and component sums and products in IEEE arithmetic

No range restriction for `inversesqrt`: subnormal arguments are included.
-/

set_option exponentiation.threshold 300

namespace Zcm

open F32

/-- C119: `inversesqrt(x)` is finite and accurate to about two roundings, for every positive finite `x`. -/
theorem C119_inversesqrt (x : F32) (hx : x.IsFin = true) (h : 0 < x.val) :
    (F.inversesqrt x).IsFin = true ∧
    |((F.inversesqrt x).val : ℝ) - 1 / Real.sqrt x.val| ≤ 2.001 / 2 ^ 24 * (1 / Real.sqrt x.val) := by
  have r := inversesqrt_rel hx h
  refine ⟨r.fin, r.err.trans (le_of_eq ?_)⟩
  rw [abs_of_nonneg (by positivity)]

-- the smallest subnormal number meets the hypotheses
example : (F32.fin false 1 (by decide)).IsFin = true ∧ 0 < (F32.fin false 1 (by decide)).val := by decide +kernel

/-- C119: `inversesqrt` never increases, infinity included. -/
theorem C119_order (x y : F32) (h0 : lit 0 < x) (h : x ≤ y) : F.inversesqrt y ≤ F.inversesqrt x :=
  inversesqrt_anti h0 h

example : (lit 0 : F32) < lit 2 ∧ (lit 2 : F32) ≤ .inf false := by decide +kernel

/-- C119: the arguments that have no positive finite reciprocal root. -/
theorem C119_special (x : F32) :
    F.inversesqrt (.inf false : F32) = lit 0 ∧ F.inversesqrt (lit 0 : F32) = .inf false ∧
    F.inversesqrt (-lit 0 : F32) = .inf true ∧ F.inversesqrt (.nan : F32) = .nan ∧
    (x < lit 0 → F.inversesqrt x = .nan) := by
  refine ⟨by decide +kernel, by decide +kernel, by decide +kernel, by decide +kernel, fun h => ?_⟩
  have e : FloatOps.sqrt x = .nan := by
    rcases x with _ | s | ⟨s, k, hk⟩
    · rfl
    · cases s
      · exact absurd h.2.2 (by rw [key_lit_zero]; decide +kernel)
      · rfl
    · have k0 : k ≠ 0 := by
        rintro rfl
        have := h.2.2
        rw [key_lit_zero] at this
        cases s <;> simp [F32.key] at this
      cases s
      · have := h.2.2
        rw [key_lit_zero] at this
        simp [F32.key] at this
        omega
      · simp [FloatOps.sqrt, F32.sqrt, k0]
  change (lit 1 : F32) / FloatOps.sqrt x = .nan
  rw [e]
  decide +kernel

example : (.inf true : F32) < lit 0 ∧ (lit (-3) : F32) < lit 0 := by decide +kernel

/-- C119: `inversesqrt(x) * sqrt(x)` is 1 up to four roundings. -/
theorem C119_product (x : F32) (hx : x.IsFin = true) (h : 0 < x.val) :
    (F.inversesqrt x * F.sqrt x).IsFin = true ∧ |((F.inversesqrt x * F.sqrt x).val : ℝ) - 1| ≤ 4.01 / 2 ^ 24 := by
  have s0 : 0 < Real.sqrt (x.val : ℝ) := Real.sqrt_pos.2 (by exact_mod_cast h)
  have e : 1 / Real.sqrt (x.val : ℝ) * Real.sqrt x.val = 1 := one_div_mul_cancel s0.ne'
  have r := (inversesqrt_rel hx h).mul (g := 4.01 / 2 ^ 24) (sqrt_rel_range hx h) (by norm_num) (by norm_num)
    (by rw [e]; norm_num) (by rw [e]; norm_num)
  refine ⟨r.fin, ?_⟩
  have := r.err
  rwa [e, abs_one, mul_one] at this

/-- C119: `sqrt(x) * sqrt(x)` is `x` up to three roundings. -/
theorem C119_square (x : F32) (hx : x.IsFin = true) (h : 0 ≤ x.val) (hu : x.val ≤ 2 ^ 126) :
    (F.sqrt x * F.sqrt x).IsFin = true ∧
    |((F.sqrt x * F.sqrt x).val : ℝ) - x.val| ≤ 3.01 / 2 ^ 24 * x.val + 1 / 2 ^ 150 := by
  rcases h.eq_or_lt with h | h
  · have e : F.sqrt x = x := sqrt_zero_val hx h.symm
    rw [e, ← h]
    have m := mul_fin hx hx
    rw [← h, mul_zero] at m
    rw [m]
    refine ⟨isFin_round (by norm_num), ?_⟩
    have := round_error_real (s := x.sgn ^^ x.sgn) (q := 0) (isFin_round (by norm_num))
    refine this.trans (by norm_num)
  · have e : Real.sqrt (x.val : ℝ) * Real.sqrt x.val = x.val := Real.mul_self_sqrt (by exact_mod_cast h.le)
    have x0 : (0:ℝ) < x.val := by exact_mod_cast h
    have xu : (x.val : ℝ) ≤ 2 ^ 126 := by exact_mod_cast hu
    have r := (sqrt_rel_range hx h).mul' (g := 3.01 / 2 ^ 24) (sqrt_rel_range hx h) (by norm_num) (by norm_num)
      (by rw [e, abs_of_pos x0]; exact xu)
    rw [e, abs_of_pos x0] at r
    exact r

-- a case with a result that is not exact
example : (lit 2 : F32).IsFin = true ∧ 0 ≤ (lit 2 : F32).val ∧ (lit 2 : F32).val ≤ 2 ^ 126 := by decide +kernel

/-- C119: `inversesqrt` of a `vec2`, component by component. -/
theorem C119_vec2 (v : V2 F32) (i : Fin 2) (hf : (coord v i).IsFin = true) (h : 0 < (coord v i).val) :
    (coord (V2.inversesqrt v) i).IsFin = true ∧
    |((coord (V2.inversesqrt v) i).val : ℝ) - 1 / Real.sqrt (coord v i).val| ≤
      2.001 / 2 ^ 24 * (1 / Real.sqrt (coord v i).val) := by
  have e : coord (V2.inversesqrt v) i = F.inversesqrt (coord v i) := by fin_cases i <;> rfl
  rw [e]
  exact C119_inversesqrt _ hf h

/-- C119: `inversesqrt` of a `vec3`, component by component. -/
theorem C119_vec3 (v : V3 F32) (i : Fin 3) (hf : (coord v i).IsFin = true) (h : 0 < (coord v i).val) :
    (coord (V3.inversesqrt v) i).IsFin = true ∧
    |((coord (V3.inversesqrt v) i).val : ℝ) - 1 / Real.sqrt (coord v i).val| ≤
      2.001 / 2 ^ 24 * (1 / Real.sqrt (coord v i).val) := by
  have e : coord (V3.inversesqrt v) i = F.inversesqrt (coord v i) := by fin_cases i <;> rfl
  rw [e]
  exact C119_inversesqrt _ hf h

/-- C119: `inversesqrt` of a `vec4`, component by component. -/
theorem C119_vec4 (v : V4 F32) (i : Fin 4) (hf : (coord v i).IsFin = true) (h : 0 < (coord v i).val) :
    (coord (V4.inversesqrt v) i).IsFin = true ∧
    |((coord (V4.inversesqrt v) i).val : ℝ) - 1 / Real.sqrt (coord v i).val| ≤
      2.001 / 2 ^ 24 * (1 / Real.sqrt (coord v i).val) := by
  have e : coord (V4.inversesqrt v) i = F.inversesqrt (coord v i) := by fin_cases i <;> rfl
  rw [e]
  exact C119_inversesqrt _ hf h

/-- C119: `inversesqrt` of a `quat`, component by component. -/
theorem C119_quat (v : Quat F32) (i : Fin 4) (hf : (coord v i).IsFin = true) (h : 0 < (coord v i).val) :
    (coord (Quat.inversesqrt v) i).IsFin = true ∧
    |((coord (Quat.inversesqrt v) i).val : ℝ) - 1 / Real.sqrt (coord v i).val| ≤
      2.001 / 2 ^ 24 * (1 / Real.sqrt (coord v i).val) := by
  have e : coord (Quat.inversesqrt v) i = F.inversesqrt (coord v i) := by fin_cases i <;> rfl
  rw [e]
  exact C119_inversesqrt _ hf h

/-- A magnitude that is far from overflow and underflow. -/
def Ordinary (q : ℚ) : Prop := 1 / 2 ^ 125 ≤ |q| ∧ |q| ≤ 2 ^ 126

instance (q : ℚ) : Decidable (Ordinary q) := inferInstanceAs (Decidable (_ ∧ _))

theorem Ordinary.real {q : ℚ} (h : Ordinary q) : 1 / 2 ^ 125 ≤ |(q : ℝ)| ∧ |(q : ℝ)| ≤ 2 ^ 126 := by
  have a := (Rat.cast_le (K := ℝ)).2 h.1
  have b := (Rat.cast_le (K := ℝ)).2 h.2
  push_cast at a b
  exact ⟨a, b⟩

/-- C119: `compAdd` of a `vec2`: 1 rounding, relative to the sum of the magnitudes. -/
theorem C119_compAdd_vec2 (v : V2 F32) (hf : ∀ i, (coord v i).IsFin = true)
    (h : ∑ i, |((coord v i).val : ℝ)| ≤ 2 ^ 126) :
    (V2.compAdd v).IsFin = true ∧
    |((V2.compAdd v).val : ℝ) - ∑ i, ((coord v i).val : ℝ)| ≤
      ((1 + 1 / 2 ^ 24) ^ 1 - 1) * ∑ i, |((coord v i).val : ℝ)| := by
  have fx : v.x.IsFin = true := hf 0
  have fy : v.y.IsFin = true := hf 1
  rw [Fin.sum_univ_two] at *
  change |(v.x.val : ℝ)| + |(v.y.val : ℝ)| ≤ 2 ^ 126 at h
  have px := abs_nonneg (v.x.val : ℝ)
  have py := abs_nonneg (v.y.val : ℝ)
  have g1 := sum_step (r := (v.x.val : ℝ)) (S := |(v.x.val : ℝ)|) (g := 0) fx fy le_rfl (by simp) le_rfl (by norm_num) (by linarith)
  refine ⟨g1.1, g1.2.2.trans (le_of_eq ?_)⟩
  rw [Fin.sum_univ_two]
  change _ = _ * (|(v.x.val : ℝ)| + |(v.y.val : ℝ)|)
  ring

example : (∀ i, (coord ({ x := lit 1, y := lit 2 } : V2 F32) i).IsFin = true) ∧
    ∑ i, |((coord ({ x := lit 1, y := lit 2 } : V2 F32) i).val : ℝ)| ≤ 2 ^ 126 := by
  refine ⟨by decide +kernel, ?_⟩
  have : ∑ i, |(coord ({ x := lit 1, y := lit 2 } : V2 F32) i).val| ≤ (2:ℚ) ^ 126 := by decide +kernel
  exact_mod_cast this

/-- C119: `compAdd` of a `vec2` never decreases when no component decreases. -/
theorem C119_compAdd_vec2_order (v w : V2 F32) (hv : ∀ i, (coord v i).IsFin = true) (hw : ∀ i, (coord w i).IsFin = true)
    (h : ∀ i, coord v i ≤ coord w i) : V2.compAdd v ≤ V2.compAdd w := by
  have n1 : v.x + v.y ≠ .nan := add_fin_ne_nan (hv 0) (isFin_ne_nan (hv 1))
  have m1 : w.x + w.y ≠ .nan := add_fin_ne_nan (hw 0) (isFin_ne_nan (hw 1))
  have s1 := add_le' (h 0) (h 1) n1 m1
  exact s1

example : ∀ i, coord ({ x := lit 1, y := lit 2 } : V2 F32) i ≤
    coord ({ x := lit 1, y := lit 3 } : V2 F32) i := by decide +kernel

/-- C119: `compMul` of a `vec2`: 1 rounding, when no partial product overflows or underflows. -/
theorem C119_compMul_vec2 (v : V2 F32) (hf : ∀ i, (coord v i).IsFin = true)
    (h2 : Ordinary (v.x.val * v.y.val)) :
    (V2.compMul v).IsFin = true ∧
    |((V2.compMul v).val : ℝ) - ∏ i, ((coord v i).val : ℝ)| ≤ 1 / 2 ^ 24 * |∏ i, ((coord v i).val : ℝ)| := by
  have b2 : 1 / 2 ^ 125 ≤ |(v.x.val : ℝ) * (v.y.val : ℝ)| ∧ |(v.x.val : ℝ) * (v.y.val : ℝ)| ≤ 2 ^ 126 := by simpa only [Rat.cast_mul] using h2.real
  have r2 := (Rel.exact (hf 0)).mul (g := 1 / 2 ^ 24) (Rel.exact (hf 1)) (by norm_num) (by norm_num) b2.1 b2.2
  rw [Fin.prod_univ_two]
  exact ⟨r2.fin, r2.err⟩

example : (∀ i, (coord ({ x := lit 1, y := lit 2 } : V2 F32) i).IsFin = true) ∧
    Ordinary ((lit 1 : F32).val * (lit 2 : F32).val) := by decide +kernel

/-- C119: `compAdd` of a `vec3`: 2 roundings, relative to the sum of the magnitudes. -/
theorem C119_compAdd_vec3 (v : V3 F32) (hf : ∀ i, (coord v i).IsFin = true)
    (h : ∑ i, |((coord v i).val : ℝ)| ≤ 2 ^ 126) :
    (V3.compAdd v).IsFin = true ∧
    |((V3.compAdd v).val : ℝ) - ∑ i, ((coord v i).val : ℝ)| ≤
      ((1 + 1 / 2 ^ 24) ^ 2 - 1) * ∑ i, |((coord v i).val : ℝ)| := by
  have fx : v.x.IsFin = true := hf 0
  have fy : v.y.IsFin = true := hf 1
  have fz : v.z.IsFin = true := hf 2
  rw [Fin.sum_univ_three] at *
  change |(v.x.val : ℝ)| + |(v.y.val : ℝ)| + |(v.z.val : ℝ)| ≤ 2 ^ 126 at h
  have px := abs_nonneg (v.x.val : ℝ)
  have py := abs_nonneg (v.y.val : ℝ)
  have pz := abs_nonneg (v.z.val : ℝ)
  have g1 := sum_step (r := (v.x.val : ℝ)) (S := |(v.x.val : ℝ)|) (g := 0) fx fy le_rfl (by simp) le_rfl (by norm_num) (by linarith)
  have g2 := sum_step g1.1 fz g1.2.1 g1.2.2 (by norm_num) (by norm_num) (by linarith)
  refine ⟨g2.1, g2.2.2.trans (le_of_eq ?_)⟩
  rw [Fin.sum_univ_three]
  change _ = _ * (|(v.x.val : ℝ)| + |(v.y.val : ℝ)| + |(v.z.val : ℝ)|)
  ring

example : (∀ i, (coord ({ x := lit 1, y := lit 2, z := lit 3 } : V3 F32) i).IsFin = true) ∧
    ∑ i, |((coord ({ x := lit 1, y := lit 2, z := lit 3 } : V3 F32) i).val : ℝ)| ≤ 2 ^ 126 := by
  refine ⟨by decide +kernel, ?_⟩
  have : ∑ i, |(coord ({ x := lit 1, y := lit 2, z := lit 3 } : V3 F32) i).val| ≤ (2:ℚ) ^ 126 := by decide +kernel
  exact_mod_cast this

/-- C119: `compAdd` of a `vec3` never decreases when no component decreases. -/
theorem C119_compAdd_vec3_order (v w : V3 F32) (hv : ∀ i, (coord v i).IsFin = true) (hw : ∀ i, (coord w i).IsFin = true)
    (h : ∀ i, coord v i ≤ coord w i) : V3.compAdd v ≤ V3.compAdd w := by
  have n1 : v.x + v.y ≠ .nan := add_fin_ne_nan (hv 0) (isFin_ne_nan (hv 1))
  have m1 : w.x + w.y ≠ .nan := add_fin_ne_nan (hw 0) (isFin_ne_nan (hw 1))
  have s1 := add_le' (h 0) (h 1) n1 m1
  have n2 : v.x + v.y + v.z ≠ .nan := fin_add_ne_nan (hv 2) n1
  have m2 : w.x + w.y + w.z ≠ .nan := fin_add_ne_nan (hw 2) m1
  have s2 := add_le' s1 (h 2) n2 m2
  exact s2

example : ∀ i, coord ({ x := lit 1, y := lit 2, z := lit 3 } : V3 F32) i ≤
    coord ({ x := lit 1, y := lit 3, z := lit 5 } : V3 F32) i := by decide +kernel

/-- C119: `compMul` of a `vec3`: 2 roundings, when no partial product overflows or underflows. -/
theorem C119_compMul_vec3 (v : V3 F32) (hf : ∀ i, (coord v i).IsFin = true)
    (h2 : Ordinary (v.x.val * v.y.val)) (h3 : Ordinary (v.x.val * v.y.val * v.z.val)) :
    (V3.compMul v).IsFin = true ∧
    |((V3.compMul v).val : ℝ) - ∏ i, ((coord v i).val : ℝ)| ≤ 2.01 / 2 ^ 24 * |∏ i, ((coord v i).val : ℝ)| := by
  have b2 : 1 / 2 ^ 125 ≤ |(v.x.val : ℝ) * (v.y.val : ℝ)| ∧ |(v.x.val : ℝ) * (v.y.val : ℝ)| ≤ 2 ^ 126 := by simpa only [Rat.cast_mul] using h2.real
  have b3 : 1 / 2 ^ 125 ≤ |(v.x.val : ℝ) * (v.y.val : ℝ) * (v.z.val : ℝ)| ∧ |(v.x.val : ℝ) * (v.y.val : ℝ) * (v.z.val : ℝ)| ≤ 2 ^ 126 := by simpa only [Rat.cast_mul] using h3.real
  have r2 := (Rel.exact (hf 0)).mul (g := 1 / 2 ^ 24) (Rel.exact (hf 1)) (by norm_num) (by norm_num) b2.1 b2.2
  have r3 := r2.mul (g := 2.01 / 2 ^ 24) (Rel.exact (hf 2)) (by norm_num) (by norm_num) b3.1 b3.2
  rw [Fin.prod_univ_three]
  exact ⟨r3.fin, r3.err⟩

example : (∀ i, (coord ({ x := lit 1, y := lit 2, z := lit 3 } : V3 F32) i).IsFin = true) ∧
    Ordinary ((lit 1 : F32).val * (lit 2 : F32).val) ∧ Ordinary ((lit 1 : F32).val * (lit 2 : F32).val * (lit 3 : F32).val) := by decide +kernel

/-- C119: `compAdd` of a `vec4`: 3 roundings, relative to the sum of the magnitudes. -/
theorem C119_compAdd_vec4 (v : V4 F32) (hf : ∀ i, (coord v i).IsFin = true)
    (h : ∑ i, |((coord v i).val : ℝ)| ≤ 2 ^ 126) :
    (V4.compAdd v).IsFin = true ∧
    |((V4.compAdd v).val : ℝ) - ∑ i, ((coord v i).val : ℝ)| ≤
      ((1 + 1 / 2 ^ 24) ^ 3 - 1) * ∑ i, |((coord v i).val : ℝ)| := by
  have fx : v.x.IsFin = true := hf 0
  have fy : v.y.IsFin = true := hf 1
  have fz : v.z.IsFin = true := hf 2
  have fw : v.w.IsFin = true := hf 3
  rw [Fin.sum_univ_four] at *
  change |(v.x.val : ℝ)| + |(v.y.val : ℝ)| + |(v.z.val : ℝ)| + |(v.w.val : ℝ)| ≤ 2 ^ 126 at h
  have px := abs_nonneg (v.x.val : ℝ)
  have py := abs_nonneg (v.y.val : ℝ)
  have pz := abs_nonneg (v.z.val : ℝ)
  have pw := abs_nonneg (v.w.val : ℝ)
  have g1 := sum_step (r := (v.x.val : ℝ)) (S := |(v.x.val : ℝ)|) (g := 0) fx fy le_rfl (by simp) le_rfl (by norm_num) (by linarith)
  have g2 := sum_step g1.1 fz g1.2.1 g1.2.2 (by norm_num) (by norm_num) (by linarith)
  have g3 := sum_step g2.1 fw g2.2.1 g2.2.2 (by norm_num) (by norm_num) (by linarith)
  refine ⟨g3.1, g3.2.2.trans (le_of_eq ?_)⟩
  rw [Fin.sum_univ_four]
  change _ = _ * (|(v.x.val : ℝ)| + |(v.y.val : ℝ)| + |(v.z.val : ℝ)| + |(v.w.val : ℝ)|)
  ring

example : (∀ i, (coord ({ x := lit 1, y := lit 2, z := lit 3, w := lit 4 } : V4 F32) i).IsFin = true) ∧
    ∑ i, |((coord ({ x := lit 1, y := lit 2, z := lit 3, w := lit 4 } : V4 F32) i).val : ℝ)| ≤ 2 ^ 126 := by
  refine ⟨by decide +kernel, ?_⟩
  have : ∑ i, |(coord ({ x := lit 1, y := lit 2, z := lit 3, w := lit 4 } : V4 F32) i).val| ≤ (2:ℚ) ^ 126 := by decide +kernel
  exact_mod_cast this

/-- C119: `compAdd` of a `vec4` never decreases when no component decreases. -/
theorem C119_compAdd_vec4_order (v w : V4 F32) (hv : ∀ i, (coord v i).IsFin = true) (hw : ∀ i, (coord w i).IsFin = true)
    (h : ∀ i, coord v i ≤ coord w i) : V4.compAdd v ≤ V4.compAdd w := by
  have n1 : v.x + v.y ≠ .nan := add_fin_ne_nan (hv 0) (isFin_ne_nan (hv 1))
  have m1 : w.x + w.y ≠ .nan := add_fin_ne_nan (hw 0) (isFin_ne_nan (hw 1))
  have s1 := add_le' (h 0) (h 1) n1 m1
  have n2 : v.x + v.y + v.z ≠ .nan := fin_add_ne_nan (hv 2) n1
  have m2 : w.x + w.y + w.z ≠ .nan := fin_add_ne_nan (hw 2) m1
  have s2 := add_le' s1 (h 2) n2 m2
  have n3 : v.x + v.y + v.z + v.w ≠ .nan := fin_add_ne_nan (hv 3) n2
  have m3 : w.x + w.y + w.z + w.w ≠ .nan := fin_add_ne_nan (hw 3) m2
  have s3 := add_le' s2 (h 3) n3 m3
  exact s3

example : ∀ i, coord ({ x := lit 1, y := lit 2, z := lit 3, w := lit 4 } : V4 F32) i ≤
    coord ({ x := lit 1, y := lit 3, z := lit 5, w := lit 7 } : V4 F32) i := by decide +kernel

/-- C119: `compMul` of a `vec4`: 3 roundings, when no partial product overflows or underflows. -/
theorem C119_compMul_vec4 (v : V4 F32) (hf : ∀ i, (coord v i).IsFin = true)
    (h2 : Ordinary (v.x.val * v.y.val)) (h3 : Ordinary (v.x.val * v.y.val * v.z.val)) (h4 : Ordinary (v.x.val * v.y.val * v.z.val * v.w.val)) :
    (V4.compMul v).IsFin = true ∧
    |((V4.compMul v).val : ℝ) - ∏ i, ((coord v i).val : ℝ)| ≤ 3.01 / 2 ^ 24 * |∏ i, ((coord v i).val : ℝ)| := by
  have b2 : 1 / 2 ^ 125 ≤ |(v.x.val : ℝ) * (v.y.val : ℝ)| ∧ |(v.x.val : ℝ) * (v.y.val : ℝ)| ≤ 2 ^ 126 := by simpa only [Rat.cast_mul] using h2.real
  have b3 : 1 / 2 ^ 125 ≤ |(v.x.val : ℝ) * (v.y.val : ℝ) * (v.z.val : ℝ)| ∧ |(v.x.val : ℝ) * (v.y.val : ℝ) * (v.z.val : ℝ)| ≤ 2 ^ 126 := by simpa only [Rat.cast_mul] using h3.real
  have b4 : 1 / 2 ^ 125 ≤ |(v.x.val : ℝ) * (v.y.val : ℝ) * (v.z.val : ℝ) * (v.w.val : ℝ)| ∧ |(v.x.val : ℝ) * (v.y.val : ℝ) * (v.z.val : ℝ) * (v.w.val : ℝ)| ≤ 2 ^ 126 := by simpa only [Rat.cast_mul] using h4.real
  have r2 := (Rel.exact (hf 0)).mul (g := 1 / 2 ^ 24) (Rel.exact (hf 1)) (by norm_num) (by norm_num) b2.1 b2.2
  have r3 := r2.mul (g := 2.005 / 2 ^ 24) (Rel.exact (hf 2)) (by norm_num) (by norm_num) b3.1 b3.2
  have r4 := r3.mul (g := 3.01 / 2 ^ 24) (Rel.exact (hf 3)) (by norm_num) (by norm_num) b4.1 b4.2
  rw [Fin.prod_univ_four]
  exact ⟨r4.fin, r4.err⟩

example : (∀ i, (coord ({ x := lit 1, y := lit 2, z := lit 3, w := lit 4 } : V4 F32) i).IsFin = true) ∧
    Ordinary ((lit 1 : F32).val * (lit 2 : F32).val) ∧ Ordinary ((lit 1 : F32).val * (lit 2 : F32).val * (lit 3 : F32).val) ∧ Ordinary ((lit 1 : F32).val * (lit 2 : F32).val * (lit 3 : F32).val * (lit 4 : F32).val) := by decide +kernel

end Zcm
