import Verif.Lemmas.F32Length
import Verif.Lemmas.F32Approx
import Verif.Model.Geometric
import Verif.Spec.View

/-!
# Error analysis of 3-vectors in binary32, in Euclidean norm
-/

set_option exponentiation.threshold 300

namespace Zcm

open F32 NormedSpace InnerProductGeometry WithLp
open scoped Matrix RealInnerProductSpace

/-- `v` is finite and within `e` of `r` -/
def NearV (v : V3 F32) (r : Space) (e : ℝ) : Prop := (∀ i, (coord v i).IsFin = true) ∧ ‖exactly v - r‖ ≤ e

theorem NearV.mono {v : V3 F32} {r : Space} {e f : ℝ} (h : NearV v r e) (hf : e ≤ f) : NearV v r f := ⟨h.1, h.2.trans hf⟩

theorem NearV.exact {v : V3 F32} (h : ∀ i, (coord v i).IsFin = true) : NearV v (exactly v) 0 := ⟨h, by simp⟩

theorem exactly_apply (v : V3 F32) (i : Fin 3) : exactly v i = (coord v i).val := rfl

theorem abs_apply_le (x : Space) (i : Fin 3) : |x i| ≤ ‖x‖ := by
  rw [← Real.norm_eq_abs]; exact PiLp.norm_apply_le x i

theorem NearV.apply {v : V3 F32} {r : Space} {e : ℝ} (h : NearV v r e) (i : Fin 3) :
    (coord v i).IsFin = true ∧ |((coord v i).val : ℝ) - r i| ≤ e :=
  ⟨h.1 i, (abs_apply_le (exactly v - r) i).trans h.2⟩

theorem norm_exactly (v : V3 F32) : ‖exactly v‖ = exactLength (coord v) := by
  rw [EuclideanSpace.norm_eq]
  unfold exactLength
  congr 1
  refine Finset.sum_congr rfl fun i _ => ?_
  rw [Real.norm_eq_abs, sq_abs, exactly_apply]

theorem NearV.norm_le {v : V3 F32} {r : Space} {e : ℝ} (h : NearV v r e) : ‖exactly v‖ ≤ ‖r‖ + e := by
  have := norm_sub_norm_le (exactly v) r
  linarith [h.2]

theorem NearV.le_norm {v : V3 F32} {r : Space} {e : ℝ} (h : NearV v r e) : ‖r‖ - e ≤ ‖exactly v‖ := by
  have := norm_sub_norm_le r (exactly v)
  rw [norm_sub_rev] at this
  linarith [h.2]

/-- a bound on components gives a bound on the norm -/
theorem norm_le_of_abs {x y : Space} {c t : ℝ} (hc : 0 ≤ c) (ht : 0 ≤ t) (h : ∀ i, |x i| ≤ c * |y i| + t) :
    ‖x‖ ≤ c * ‖y‖ + 2 * t := by
  have e : ‖x‖ ≤ ‖(toLp 2 fun i => c * |y i| : Space) + (toLp 2 fun _ => t : Space)‖ := by
    rw [EuclideanSpace.norm_eq, EuclideanSpace.norm_eq]
    refine Real.sqrt_le_sqrt (Finset.sum_le_sum fun i _ => ?_)
    rw [Real.norm_eq_abs, Real.norm_eq_abs]
    have : ((toLp 2 fun i => c * |y i| : Space) + (toLp 2 fun _ => t : Space)) i = c * |y i| + t := rfl
    rw [this, abs_of_nonneg (show 0 ≤ c * |y i| + t by positivity)]
    exact pow_le_pow_left₀ (abs_nonneg _) (h i) 2
  refine e.trans ((norm_add_le _ _).trans (add_le_add (le_of_eq ?_) ?_))
  · rw [EuclideanSpace.norm_eq, EuclideanSpace.norm_eq]
    have : ∀ i, ‖(toLp 2 fun i => c * |y i| : Space) i‖ ^ 2 = c ^ 2 * ‖y i‖ ^ 2 := fun i => by
      rw [Real.norm_eq_abs, Real.norm_eq_abs]
      have : (toLp 2 fun i => c * |y i| : Space) i = c * |y i| := rfl
      rw [this, abs_mul, abs_abs, mul_pow, sq_abs c]
    rw [Finset.sum_congr rfl fun i _ => this i, ← Finset.mul_sum, Real.sqrt_mul (by positivity), Real.sqrt_sq hc]
  · rw [EuclideanSpace.norm_eq, Fin.sum_univ_three]
    show Real.sqrt (‖t‖ ^ 2 + ‖t‖ ^ 2 + ‖t‖ ^ 2) ≤ _
    rw [Real.sqrt_le_iff, Real.norm_eq_abs, sq_abs]
    exact ⟨by positivity, by nlinarith [sq_nonneg t]⟩

theorem exactly_sub_finite {a b : F32} (ha : a.IsFin = true) (hb : b.IsFin = true) (h1 : |(a.val : ℝ) - b.val| ≤ 2 ^ 120) :
    (a - b).IsFin = true := by
  rw [sub_fin ha hb]
  apply isFin_round
  have : ((|a.val - b.val| : ℚ) : ℝ) ≤ (((2 ^ 24 - 1) * 2 ^ 104 : ℚ) : ℝ) := by
    push_cast; refine h1.trans ?_; norm_num
  exact Rat.cast_le.1 this

/-- differences -/
theorem near_sub {a b : V3 F32} (ha : ∀ i, (coord a i).IsFin = true) (hb : ∀ i, (coord b i).IsFin = true)
    (h : ‖exactly a - exactly b‖ ≤ 2 ^ 120) :
    NearV (a - b) (exactly a - exactly b) (1 / 2 ^ 24 * ‖exactly a - exactly b‖) := by
  have e : ∀ i, coord (a - b) i = coord a i - coord b i := fun i => by fin_cases i <;> rfl
  have f : ∀ i, (coord (a - b) i).IsFin = true := fun i => by
    rw [e]
    exact exactly_sub_finite (ha i) (hb i) ((abs_apply_le (exactly a - exactly b) i).trans h)
  refine ⟨f, ?_⟩
  have := norm_le_of_abs (x := exactly (a - b) - (exactly a - exactly b)) (y := exactly a - exactly b)
    (c := 1 / 2 ^ 24) (t := 0) (by positivity) le_rfl fun i => by
      have q := sub_error_rel (a := coord a i) (b := coord b i) (by rw [← e]; exact f i)
      have q' : ((|(coord a i - coord b i).val - ((coord a i).val - (coord b i).val)| : ℚ) : ℝ) ≤
        ((|(coord a i).val - (coord b i).val| / 2 ^ 24 : ℚ) : ℝ) := Rat.cast_le.2 q
      push_cast at q'
      show |((coord (a - b) i).val : ℝ) - ((coord a i).val - (coord b i).val)| ≤
        1 / 2 ^ 24 * |((coord a i).val : ℝ) - (coord b i).val| + 0
      rw [e]
      linarith
  linarith

theorem normalize_lipschitz {E : Type*} [NormedAddCommGroup E] [NormedSpace ℝ E] {a b : E} (hb : b ≠ 0) : ‖normalize a - normalize b‖ ≤ 2 * ‖a - b‖ / ‖b‖ := by
  have b0 : 0 < ‖b‖ := norm_pos_iff.2 hb
  by_cases ha : a = 0
  · subst ha
    rw [normalize_zero_eq_zero, zero_sub, norm_neg, zero_sub, norm_neg, norm_normalize hb, mul_div_assoc, div_self b0.ne']
    norm_num
  · have a0 : 0 < ‖a‖ := norm_pos_iff.2 ha
    have e : normalize a - normalize b = (‖a‖⁻¹ - ‖b‖⁻¹) • a + ‖b‖⁻¹ • (a - b) := by
      unfold NormedSpace.normalize; module
    rw [e]
    refine (norm_add_le _ _).trans ?_
    rw [norm_smul, norm_smul, Real.norm_eq_abs, norm_inv, norm_norm]
    have e2 : |‖a‖⁻¹ - ‖b‖⁻¹| * ‖a‖ = |‖b‖ - ‖a‖| / ‖b‖ := by
      rw [← abs_of_pos a0, ← abs_mul, abs_of_pos a0, sub_mul, inv_mul_cancel₀ a0.ne']
      rw [show 1 - ‖b‖⁻¹ * ‖a‖ = (‖b‖ - ‖a‖) / ‖b‖ by field_simp, abs_div, abs_of_pos b0]
    rw [e2]
    have := abs_norm_sub_norm_le b a
    rw [norm_sub_rev] at this
    rw [mul_div_assoc, two_mul]
    refine add_le_add (by gcongr) (le_of_eq ?_)
    rw [inv_mul_eq_div]

/-- normalisation of an exact vector -/
theorem near_normalize {v : V3 F32} (hv : ∀ i, (coord v i).IsFin = true) (h1 : 1 / 2 ^ 50 ≤ ‖exactly v‖)
    (h2 : ‖exactly v‖ ≤ 2 ^ 63) : NearV (V3.normalize v) (normalize (exactly v)) (6.001 / 2 ^ 24) := by
  have m : Medium (coord v) := ⟨hv, by rw [← norm_exactly]; exact h1, by rw [← norm_exactly]; exact h2⟩
  have a : AlmostUnit (coord v) (coord (V3.normalize v)) := (sqLen3 m).normalize m fun i => by fin_cases i <;> rfl
  have n0 : 0 < ‖exactly v‖ := lt_of_lt_of_le (by norm_num) h1
  refine ⟨fun i => (a i).1, ?_⟩
  have ne : ∀ i, normalize (exactly v) i = (coord v i).val / exactLength (coord v) := fun i => by
    unfold NormedSpace.normalize
    rw [PiLp.smul_apply, smul_eq_mul, exactly_apply, norm_exactly, inv_mul_eq_div]
  have := norm_le_of_abs (x := exactly (V3.normalize v) - normalize (exactly v)) (y := normalize (exactly v))
    (c := 6 / 2 ^ 24) (t := 1 / 2 ^ 150) (by positivity) (by positivity) fun i => by
      rw [PiLp.sub_apply, ne, exactly_apply]
      refine (a i).2.trans (le_of_eq ?_)
      rw [abs_div, abs_of_pos m.pos]
  rw [norm_normalize (norm_pos_iff.1 n0)] at this
  refine this.trans ?_
  norm_num

/-- normalisation of a computed vector -/
theorem NearV.normalize {v : V3 F32} {r : Space} {e : ℝ} (h : NearV v r e) (h1 : 1 / 2 ^ 49 ≤ ‖r‖) (h2 : ‖r‖ ≤ 2 ^ 62)
    (he : e ≤ ‖r‖ / 4) : NearV (V3.normalize v) (normalize r) (6.001 / 2 ^ 24 + 2 * e / ‖r‖) := by
  have l := h.le_norm
  have u := h.norm_le
  have n := near_normalize h.1 (by linarith) (by linarith)
  refine ⟨n.1, ?_⟩
  have r0 : r ≠ 0 := norm_pos_iff.1 (lt_of_lt_of_le (by norm_num) h1)
  have r1 : 0 < ‖r‖ := norm_pos_iff.2 r0
  calc ‖exactly (V3.normalize v) - NormedSpace.normalize r‖
      = ‖(exactly (V3.normalize v) - NormedSpace.normalize (exactly v)) +
          (NormedSpace.normalize (exactly v) - NormedSpace.normalize r)‖ := by congr 1; module
    _ ≤ _ := (norm_add_le _ _).trans (add_le_add n.2 ((normalize_lipschitz r0).trans ?_))
  gcongr
  exact h.2

theorem norm_cross3 (a b : Space) : ‖cross3 a b‖ = ‖a‖ * ‖b‖ * Real.sin (angle a b) := norm_ofLp_crossProduct a b

theorem norm_cross3_le (a b : Space) : ‖cross3 a b‖ ≤ ‖a‖ * ‖b‖ := by
  rw [norm_cross3]
  exact mul_le_of_le_one_right (by positivity) (Real.sin_le_one _)

theorem cross3_sub_left (a a' b : Space) : cross3 a b - cross3 a' b = cross3 (a - a') b := by
  unfold cross3
  rw [WithLp.ofLp_sub, LinearMap.map_sub₂, WithLp.toLp_sub]

theorem cross3_sub_right (a b b' : Space) : cross3 a b - cross3 a b' = cross3 a (b - b') := by
  unfold cross3
  rw [WithLp.ofLp_sub, map_sub, WithLp.toLp_sub]

theorem cross3_swap (a b : Space) : cross3 b a = -cross3 a b := by
  unfold cross3
  rw [← cross_anticomm, WithLp.toLp_neg]

theorem inner_eq_dot (a b : Space) : ⟪a, b⟫ = a 0 * b 0 + a 1 * b 1 + a 2 * b 2 := by
  rw [PiLp.inner_apply, Fin.sum_univ_three]
  simp only [RCLike.inner_apply, conj_trivial]
  ring

theorem cross3_apply (a b : Space) : cross3 a b 0 = a 1 * b 2 - a 2 * b 1 ∧ cross3 a b 1 = a 2 * b 0 - a 0 * b 2 ∧
    cross3 a b 2 = a 0 * b 1 - a 1 * b 0 := by
  unfold cross3
  rw [cross_apply]
  exact ⟨rfl, rfl, rfl⟩

theorem inner_cross3_left (a b : Space) : ⟪cross3 a b, a⟫ = 0 := by
  obtain ⟨e0, e1, e2⟩ := cross3_apply a b
  rw [inner_eq_dot, e0, e1, e2]; ring

theorem inner_cross3_right (a b : Space) : ⟪cross3 a b, b⟫ = 0 := by
  obtain ⟨e0, e1, e2⟩ := cross3_apply a b
  rw [inner_eq_dot, e0, e1, e2]; ring

/-- Cauchy and Schwarz for the two terms of a component -/
theorem two_products_le (a b : Space) {i j : Fin 3} (h : i ≠ j) : |a i * b j| + |a j * b i| ≤ ‖a‖ * ‖b‖ := by
  have sq2 : ∀ (x : Space), |x i| ^ 2 + |x j| ^ 2 ≤ ‖x‖ ^ 2 := fun x => by
    rw [EuclideanSpace.norm_sq_eq]
    have := Finset.sum_le_sum_of_subset_of_nonneg (Finset.subset_univ {i, j}) (f := fun k => ‖x k‖ ^ 2)
      (fun k _ _ => by positivity)
    rw [Finset.sum_pair h] at this
    exact this
  have A := sq2 a
  have B := sq2 b
  rw [abs_mul, abs_mul]
  refine abs_le_of_sq_le_sq' ?_ (by positivity) |>.2
  calc (|a i| * |b j| + |a j| * |b i|) ^ 2 ≤ (|a i| ^ 2 + |a j| ^ 2) * (|b i| ^ 2 + |b j| ^ 2) := by
        nlinarith [sq_nonneg (|a i| * |b i| - |a j| * |b j|)]
    _ ≤ ‖a‖ ^ 2 * ‖b‖ ^ 2 := by gcongr
    _ = _ := by ring

theorem three_products_le (a b : Space) : |a 0 * b 0| + |a 1 * b 1| + |a 2 * b 2| ≤ ‖a‖ * ‖b‖ := by
  rw [abs_mul, abs_mul, abs_mul]
  have A : ‖a‖ ^ 2 = |a 0| ^ 2 + |a 1| ^ 2 + |a 2| ^ 2 := by rw [EuclideanSpace.norm_sq_eq, Fin.sum_univ_three]; rfl
  have B : ‖b‖ ^ 2 = |b 0| ^ 2 + |b 1| ^ 2 + |b 2| ^ 2 := by rw [EuclideanSpace.norm_sq_eq, Fin.sum_univ_three]; rfl
  refine abs_le_of_sq_le_sq' ?_ (by positivity) |>.2
  rw [mul_pow, A, B]
  nlinarith [sq_nonneg (|a 0| * |b 1| - |a 1| * |b 0|), sq_nonneg (|a 0| * |b 2| - |a 2| * |b 0|),
    sq_nonneg (|a 1| * |b 2| - |a 2| * |b 1|)]

private theorem pow2 : ((1 + 1 / 2 ^ 24 : ℝ)) ^ 2 - 1 ≤ 2.001 / 2 ^ 24 := by norm_num

private theorem pow3 : ((1 + 1 / 2 ^ 24 : ℝ)) ^ 3 - 1 ≤ 3.001 / 2 ^ 24 := by norm_num

private theorem pow4 : ((1 + 1 / 2 ^ 24 : ℝ)) ^ 4 - 1 ≤ 4.001 / 2 ^ 24 := by norm_num

/-- one component of a cross product -/
theorem near_cross_term {a b c d : F32} {P : ℝ} (fa : a.IsFin = true) (fb : b.IsFin = true) (fc : c.IsFin = true)
    (fd : d.IsFin = true) (h : |(a.val : ℝ) * b.val| + |(c.val : ℝ) * d.val| ≤ P) (hP : P ≤ 2 ^ 120) :
    (a * b - c * d).IsFin = true ∧
    |((a * b - c * d).val : ℝ) - (a.val * b.val - c.val * d.val)| ≤ 2.001 / 2 ^ 24 * P + 1 / 2 ^ 148 := by
  obtain ⟨A, B⟩ := accurate_cross a b c d
  rw [Fin.sum_univ_two, Fin.sum_univ_two] at B
  rw [Fin.sum_univ_two] at A
  simp only [Matrix.cons_val_zero, Matrix.cons_val_one] at A B
  have f : (a * b - c * d).IsFin = true := by
    refine A (fun i => ?_) ?_
    · fin_cases i
      · exact ⟨fa, fb⟩
      · exact ⟨by show (-c).IsFin = true; rw [isFin_neg]; exact fc, fd⟩
    · have : ((|a.val * b.val| + |(-c).val * d.val| : ℚ) : ℝ) ≤ ((2 ^ 126 : ℚ) : ℝ) := by
        rw [val_neg, neg_mul, abs_neg]
        push_cast
        exact h.trans (hP.trans (by norm_num))
      exact Rat.cast_le.1 this
  refine ⟨f, ?_⟩
  have q := (Rat.cast_le (K := ℝ)).2 (B f)
  rw [val_neg, neg_mul, abs_neg] at q
  push_cast at q
  have e : (a.val : ℝ) * b.val + -(c.val * d.val) = a.val * b.val - c.val * d.val := by ring
  rw [e] at q
  have n : 0 ≤ |(a.val : ℝ) * b.val| + |(c.val : ℝ) * d.val| := by positivity
  have : ((1 + 1 / 2 ^ 24 : ℝ) ^ 2 - 1) * (|(a.val : ℝ) * b.val| + |(c.val : ℝ) * d.val|) ≤ 2.001 / 2 ^ 24 * P :=
    mul_le_mul pow2 h n (by norm_num)
  have t : (2 : ℝ) / 2 ^ 149 = 1 / 2 ^ 148 := by norm_num
  linarith

/-- cross product of exact vectors -/
theorem near_cross {a b : V3 F32} (ha : ∀ i, (coord a i).IsFin = true) (hb : ∀ i, (coord b i).IsFin = true)
    (h : ‖exactly a‖ * ‖exactly b‖ ≤ 2 ^ 120) :
    NearV (V3.cross a b) (cross3 (exactly a) (exactly b)) (4.002 / 2 ^ 24 * (‖exactly a‖ * ‖exactly b‖) + 1 / 2 ^ 147) := by
  obtain ⟨e0, e1, e2⟩ := cross3_apply (exactly a) (exactly b)
  have key : ∀ i, (coord (V3.cross a b) i).IsFin = true ∧
      |((coord (V3.cross a b) i).val : ℝ) - cross3 (exactly a) (exactly b) i| ≤
        2.001 / 2 ^ 24 * (‖exactly a‖ * ‖exactly b‖) + 1 / 2 ^ 148 := by
    have c0 : coord (V3.cross a b) 0 = coord a 1 * coord b 2 - coord a 2 * coord b 1 := rfl
    have c1 : coord (V3.cross a b) 1 = coord a 2 * coord b 0 - coord a 0 * coord b 2 := rfl
    have c2 : coord (V3.cross a b) 2 = coord a 0 * coord b 1 - coord a 1 * coord b 0 := rfl
    have t01 := two_products_le (exactly a) (exactly b) (i := 0) (j := 1) (by decide)
    have t12 := two_products_le (exactly a) (exactly b) (i := 1) (j := 2) (by decide)
    have t20 := two_products_le (exactly a) (exactly b) (i := 2) (j := 0) (by decide)
    simp only [exactly_apply] at e0 e1 e2 t01 t12 t20
    refine Fin.forall_fin_succ.2 ⟨?_, Fin.forall_fin_succ.2 ⟨?_, Fin.forall_fin_succ.2 ⟨?_, fun i => i.elim0⟩⟩⟩
    · rw [c0, e0]
      exact near_cross_term (ha 1) (hb 2) (ha 2) (hb 1) t12 h
    · show (coord (V3.cross a b) 1).IsFin = true ∧ |((coord (V3.cross a b) 1).val : ℝ) - cross3 (exactly a) (exactly b) 1| ≤ _
      rw [c1, e1]
      exact near_cross_term (ha 2) (hb 0) (ha 0) (hb 2) t20 h
    · show (coord (V3.cross a b) 2).IsFin = true ∧ |((coord (V3.cross a b) 2).val : ℝ) - cross3 (exactly a) (exactly b) 2| ≤ _
      rw [c2, e2]
      exact near_cross_term (ha 0) (hb 1) (ha 1) (hb 0) t01 h
  refine ⟨fun i => (key i).1, ?_⟩
  have := norm_le_of_abs (x := exactly (V3.cross a b) - cross3 (exactly a) (exactly b)) (y := 0) (c := 0)
    (t := 2.001 / 2 ^ 24 * (‖exactly a‖ * ‖exactly b‖) + 1 / 2 ^ 148) le_rfl (by positivity) fun i => by
      rw [zero_mul, zero_add]; exact (key i).2
  linarith

/-- cross product of computed vectors -/
theorem NearV.cross {a b : V3 F32} {r s : Space} {e f A B : ℝ} (ha : NearV a r e) (hb : NearV b s f) (hA : ‖r‖ + e ≤ A)
    (hB : ‖s‖ + f ≤ B) (h : A * B ≤ 2 ^ 120) :
    NearV (V3.cross a b) (cross3 r s) (4.002 / 2 ^ 24 * (A * B) + 1 / 2 ^ 147 + e * ‖s‖ + A * f) := by
  have na := ha.norm_le.trans hA
  have nb := hb.norm_le.trans hB
  have A0 : 0 ≤ A := (norm_nonneg _).trans na
  have p : ‖exactly a‖ * ‖exactly b‖ ≤ A * B := mul_le_mul na nb (norm_nonneg _) A0
  have n := near_cross ha.1 hb.1 (p.trans h)
  refine ⟨n.1, ?_⟩
  have e1 : ‖cross3 (exactly a) (exactly b) - cross3 (exactly a) s‖ ≤ A * f := by
    rw [cross3_sub_right]
    refine (norm_cross3_le _ _).trans ?_
    exact mul_le_mul na hb.2 (norm_nonneg _) A0
  have e2 : ‖cross3 (exactly a) s - cross3 r s‖ ≤ e * ‖s‖ := by
    rw [cross3_sub_left]
    refine (norm_cross3_le _ _).trans ?_
    gcongr
    exact ha.2
  have t : exactly (V3.cross a b) - cross3 r s = (exactly (V3.cross a b) - cross3 (exactly a) (exactly b)) +
      (cross3 (exactly a) (exactly b) - cross3 (exactly a) s) + (cross3 (exactly a) s - cross3 r s) := by module
  rw [t]
  have q : 4.002 / 2 ^ 24 * (‖exactly a‖ * ‖exactly b‖) ≤ 4.002 / 2 ^ 24 * (A * B) := by gcongr
  have := norm_add₃_le (a := exactly (V3.cross a b) - cross3 (exactly a) (exactly b))
    (b := cross3 (exactly a) (exactly b) - cross3 (exactly a) s) (c := cross3 (exactly a) s - cross3 r s)
  have := n.2
  linarith

/-- dot product of exact vectors -/
theorem near_dot {a b : V3 F32} (ha : ∀ i, (coord a i).IsFin = true) (hb : ∀ i, (coord b i).IsFin = true)
    (h : ‖exactly a‖ * ‖exactly b‖ ≤ 2 ^ 120) :
    (V3.dot a b).IsFin = true ∧
    |((V3.dot a b).val : ℝ) - ⟪exactly a, exactly b⟫| ≤ 3.001 / 2 ^ 24 * (‖exactly a‖ * ‖exactly b‖) + 1 / 2 ^ 147 := by
  obtain ⟨A, B⟩ := accurate3 a.x b.x a.y b.y a.z b.z
  rw [Fin.sum_univ_three, Fin.sum_univ_three] at B
  rw [Fin.sum_univ_three] at A
  simp only [Matrix.cons_val_zero, Matrix.cons_val_one, Matrix.cons_val_two] at A B
  have cs := three_products_le (exactly a) (exactly b)
  have f : (V3.dot a b).IsFin = true := by
    refine A (fun i => ?_) ?_
    · fin_cases i
      · exact ⟨ha 0, hb 0⟩
      · exact ⟨ha 1, hb 1⟩
      · exact ⟨ha 2, hb 2⟩
    · have : ((|a.x.val * b.x.val| + |a.y.val * b.y.val| + |a.z.val * b.z.val| : ℚ) : ℝ) ≤ ((2 ^ 126 : ℚ) : ℝ) := by
        push_cast
        exact cs.trans (h.trans (by norm_num))
      exact Rat.cast_le.1 this
  refine ⟨f, ?_⟩
  have q := (Rat.cast_le (K := ℝ)).2 (B f)
  push_cast at q
  have e : ⟪exactly a, exactly b⟫ = (a.x.val : ℝ) * b.x.val + a.y.val * b.y.val + a.z.val * b.z.val := by
    rw [PiLp.inner_apply, Fin.sum_univ_three]
    simp only [RCLike.inner_apply, conj_trivial]
    show (b.x.val : ℝ) * a.x.val + b.y.val * a.y.val + b.z.val * a.z.val = _
    ring
  rw [e]
  have n : 0 ≤ |(a.x.val : ℝ) * b.x.val| + |(a.y.val : ℝ) * b.y.val| + |(a.z.val : ℝ) * b.z.val| := by positivity
  have := mul_le_mul pow3 cs n (by norm_num)
  have t : (3 : ℝ) / 2 ^ 149 ≤ 1 / 2 ^ 147 := by norm_num
  refine q.trans ?_
  exact add_le_add this t

/-- dot product of computed vectors -/
theorem NearV.dot {a b : V3 F32} {r s : Space} {e f A B : ℝ} (ha : NearV a r e) (hb : NearV b s f) (hA : ‖r‖ + e ≤ A)
    (hB : ‖s‖ + f ≤ B) (h : A * B ≤ 2 ^ 120) :
    (V3.dot a b).IsFin = true ∧
    |((V3.dot a b).val : ℝ) - ⟪r, s⟫| ≤ 3.001 / 2 ^ 24 * (A * B) + 1 / 2 ^ 147 + e * ‖s‖ + A * f := by
  have na := ha.norm_le.trans hA
  have nb := hb.norm_le.trans hB
  have A0 : 0 ≤ A := (norm_nonneg _).trans na
  have p : ‖exactly a‖ * ‖exactly b‖ ≤ A * B := mul_le_mul na nb (norm_nonneg _) A0
  have n := near_dot ha.1 hb.1 (p.trans h)
  refine ⟨n.1, ?_⟩
  have e1 : |⟪exactly a, exactly b - s⟫| ≤ A * f :=
    (abs_real_inner_le_norm _ _).trans (mul_le_mul na hb.2 (norm_nonneg _) A0)
  have e2 : |⟪exactly a - r, s⟫| ≤ e * ‖s‖ :=
    (abs_real_inner_le_norm _ _).trans (by gcongr; exact ha.2)
  have t : ((V3.dot a b).val : ℝ) - ⟪r, s⟫ = (((V3.dot a b).val : ℝ) - ⟪exactly a, exactly b⟫) +
      ⟪exactly a, exactly b - s⟫ + ⟪exactly a - r, s⟫ := by
    rw [inner_sub_right, inner_sub_left]; ring
  rw [t]
  have q : 3.001 / 2 ^ 24 * (‖exactly a‖ * ‖exactly b‖) ≤ 3.001 / 2 ^ 24 * (A * B) := by gcongr
  have := abs_add_three (((V3.dot a b).val : ℝ) - ⟪exactly a, exactly b⟫) ⟪exactly a, exactly b - s⟫ ⟪exactly a - r, s⟫
  have := n.2
  linarith

end Zcm
