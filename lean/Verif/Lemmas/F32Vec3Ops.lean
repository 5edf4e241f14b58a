import Verif.Lemmas.F32Vec3

/-!
# Sums, differences and multiples of computed 3-vectors
-/

set_option exponentiation.threshold 300

namespace Zcm

open F32 NormedSpace WithLp
open scoped RealInnerProductSpace

theorem exactly_neg (v : V3 F32) : exactly (-v) = -exactly v := by
  ext i
  rw [PiLp.neg_apply, exactly_apply, exactly_apply]
  have e : coord (-v) i = -coord v i := by fin_cases i <;> rfl
  rw [e, val_neg]
  push_cast
  rfl

/-- difference of computed vectors -/
theorem NearV.sub {a b : V3 F32} {r q : Space} {e f : ℝ} (ha : NearV a r e) (hb : NearV b q f) (h : ‖r - q‖ + e + f ≤ 2 ^ 120) :
    NearV (a - b) (r - q) (e + f + 1 / 2 ^ 24 * (‖r - q‖ + e + f)) := by
  have t : ‖(exactly a - exactly b) - (r - q)‖ ≤ e + f := by
    rw [show (exactly a - exactly b) - (r - q) = (exactly a - r) - (exactly b - q) by module]
    exact (norm_sub_le _ _).trans (add_le_add ha.2 hb.2)
  have u : ‖exactly a - exactly b‖ ≤ ‖r - q‖ + e + f := by
    have := norm_sub_norm_le (exactly a - exactly b) (r - q)
    linarith
  have n := near_sub ha.1 hb.1 (u.trans h)
  refine ⟨n.1, ?_⟩
  rw [show exactly (a - b) - (r - q) = (exactly (a - b) - (exactly a - exactly b)) + ((exactly a - exactly b) - (r - q)) by module]
  refine (norm_add_le _ _).trans ((add_le_add n.2 t).trans ?_)
  have : 1 / 2 ^ 24 * ‖exactly a - exactly b‖ ≤ 1 / 2 ^ 24 * (‖r - q‖ + e + f) := by gcongr
  linarith

/-- sum of computed vectors -/
theorem NearV.add {a b : V3 F32} {r q : Space} {e f : ℝ} (ha : NearV a r e) (hb : NearV b q f) (h : ‖r + q‖ + e + f ≤ 2 ^ 120) :
    NearV (a + b) (r + q) (e + f + 1 / 2 ^ 24 * (‖r + q‖ + e + f)) := by
  have fb : ∀ i, (coord (-b) i).IsFin = true := fun i => by
    have e : coord (-b) i = -coord b i := by fin_cases i <;> rfl
    rw [e]
    simpa using hb.1 i
  have nb : NearV (-b) (-q) f := ⟨fb, by rw [exactly_neg, neg_sub_neg, norm_sub_rev]; exact hb.2⟩
  have := ha.sub nb (by rwa [sub_neg_eq_add])
  rw [sub_neg_eq_add] at this
  have e : a - -b = a + b := by
    have c : ∀ x y : F32, x - -y = x + y := fun x y => by rw [sub_eq, neg_neg']
    change V3.mk (a.x - -b.x) (a.y - -b.y) (a.z - -b.z) = V3.mk (a.x + b.x) (a.y + b.y) (a.z + b.z)
    rw [c, c, c]
  rwa [e] at this

/-- multiple of an exact vector -/
theorem near_scale {v : V3 F32} {s : F32} (hv : ∀ i, (coord v i).IsFin = true) (hs : s.IsFin = true)
    (h : |(s.val : ℝ)| * ‖exactly v‖ ≤ 2 ^ 120) :
    NearV (v * s) ((s.val : ℝ) • exactly v) (1 / 2 ^ 24 * (|(s.val : ℝ)| * ‖exactly v‖) + 1 / 2 ^ 149) := by
  have e : ∀ i, coord (v * s) i = coord v i * s := fun i => by fin_cases i <;> rfl
  have f : ∀ i, (coord (v * s) i).IsFin = true := fun i => by
    rw [e, mul_fin (hv i) hs]
    apply isFin_round
    have : ((|(coord v i).val * s.val| : ℚ) : ℝ) ≤ (((2 ^ 24 - 1) * 2 ^ 104 : ℚ) : ℝ) := by
      push_cast
      rw [abs_mul, mul_comm]
      have := abs_apply_le (exactly v) i
      rw [exactly_apply] at this
      refine le_trans (mul_le_mul_of_nonneg_left this (abs_nonneg _)) (h.trans (by norm_num))
    exact Rat.cast_le.1 this
  refine ⟨f, ?_⟩
  have k := norm_le_of_abs (x := exactly (v * s) - (s.val : ℝ) • exactly v) (y := (s.val : ℝ) • exactly v) (c := 1 / 2 ^ 24)
    (t := 1 / 2 ^ 150) (by norm_num) (by norm_num) (fun i => by
      rw [PiLp.sub_apply, PiLp.smul_apply, exactly_apply, exactly_apply, e]
      have := (Rat.cast_le (K := ℝ)).2 (mul_error (hv i) hs (by rw [← e]; exact f i))
      push_cast at this
      rw [smul_eq_mul, mul_comm (s.val : ℝ)]
      refine this.trans (le_of_eq ?_)
      ring)
  rw [norm_smul, Real.norm_eq_abs] at k
  refine k.trans (le_of_eq ?_)
  ring

/-- multiple of a computed vector by a computed number -/
theorem NearV.scale {v : V3 F32} {r : Space} {e : ℝ} {s : F32} {q d A B : ℝ} (hv : NearV v r e) (hs : s.IsFin = true)
    (hq : |(s.val : ℝ) - q| ≤ d) (hA : ‖r‖ + e ≤ A) (hB : |q| + d ≤ B) (h : B * A ≤ 2 ^ 120) :
    NearV (v * s) (q • r) (1 / 2 ^ 24 * (B * A) + 1 / 2 ^ 149 + B * e + d * ‖r‖) := by
  have na := hv.norm_le.trans hA
  have nb : |(s.val : ℝ)| ≤ B := by
    have := abs_add_le ((s.val : ℝ) - q) q
    rw [sub_add_cancel] at this
    linarith
  have B0 : 0 ≤ B := (abs_nonneg _).trans nb
  have p : |(s.val : ℝ)| * ‖exactly v‖ ≤ B * A := mul_le_mul nb na (norm_nonneg _) B0
  have n := near_scale hv.1 hs (p.trans h)
  refine ⟨n.1, ?_⟩
  rw [show exactly (v * s) - q • r = (exactly (v * s) - (s.val : ℝ) • exactly v) + (s.val : ℝ) • (exactly v - r) +
    ((s.val : ℝ) - q) • r by module]
  have e1 : ‖(s.val : ℝ) • (exactly v - r)‖ ≤ B * e := by
    rw [norm_smul, Real.norm_eq_abs]
    exact mul_le_mul nb hv.2 (norm_nonneg _) B0
  have e2 : ‖((s.val : ℝ) - q) • r‖ ≤ d * ‖r‖ := by
    rw [norm_smul, Real.norm_eq_abs]
    gcongr
  have e3 : 1 / 2 ^ 24 * (|(s.val : ℝ)| * ‖exactly v‖) ≤ 1 / 2 ^ 24 * (B * A) := by gcongr
  refine (norm_add₃_le).trans ?_
  have := n.2
  linarith

end Zcm
