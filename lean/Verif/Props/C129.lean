import Verif.Model.Trig
import Verif.Model.Exponential
import Verif.Lemmas.F32Circle
import Verif.Lemmas.F32AngleLib
import Verif.Props.C67
import Verif.Props.C82

/-!
# C129  Circles, polar coordinates, exponentials and logarithms in IEEE arithmetic

C66 and C68 state the relations between the elementary functions in exact arithmetic.  Here is what remains of them in
binary32, for every C library whose functions are accurate (`GoodTrig`, `GoodAtan2`, `GoodAcos`, `GoodAsin`, `GoodExp`,
`GoodLog`).
-/

set_option exponentiation.threshold 300

namespace Zcm

open F32

variable [Libm F32]

/-- C129: the point `(cos x, sin x)` is on the unit circle, for every finite angle: the sum of the squares, computed in
float arithmetic, is within `2^-21` of 1. -/
theorem C129_pythagoras (hT : GoodTrig) (x : F32) (hx : x.IsFin = true) :
    Near (F.sin x * F.sin x + F.cos x * F.cos x) 1 (1 / 2 ^ 21) := by
  obtain ⟨⟨fs, ds⟩, fc, dc⟩ := hT x hx
  change Near (Libm.sinf x * Libm.sinf x + Libm.cosf x * Libm.cosf x) 1 (1 / 2 ^ 21)
  generalize Libm.sinf x = s at *
  generalize Libm.cosf x = c at *
  have p := Real.sin_sq_add_cos_sq (x.val : ℝ)
  generalize Real.sin (x.val : ℝ) = S at *
  generalize Real.cos (x.val : ℝ) = C at *
  have S1 : |S| ≤ 1 := by rw [← sq_le_one_iff_abs_le_one]; nlinarith
  have C1 : |C| ≤ 1 := by rw [← sq_le_one_iff_abs_le_one]; nlinarith
  have key : ∀ A : ℝ, |A| ≤ 1 → (|A| + 1 / 2 ^ 23) * (|A| + 1 / 2 ^ 23) ≤ A ^ 2 + 3 / 2 ^ 23 := fun A hA => by
    rw [← sq_abs A]
    nlinarith [abs_nonneg A]
  have big : ∀ A : ℝ, |A| ≤ 1 → A ^ 2 + 3 / 2 ^ 23 ≤ (2 : ℝ) ^ 127 := fun A hA => by
    have := (sq_le_one_iff_abs_le_one A).2 hA
    norm_num
    linarith
  obtain ⟨f1, d1⟩ := mul_abs_err fs fs ds ds (key S S1) (big S S1)
  obtain ⟨f2, d2⟩ := mul_abs_err fc fc dc dc (key C C1) (big C C1)
  obtain ⟨f3, d3⟩ := add_abs_err (B := 1.001) f1 f2 d1 d2 (by
    rw [← sq, ← sq, abs_of_nonneg (sq_nonneg S), abs_of_nonneg (sq_nonneg C)]
    norm_num at S1 C1 ⊢
    linarith) (by norm_num)
  refine ⟨f3, ?_⟩
  rw [← sq, ← sq, p] at d3
  refine d3.trans ?_
  -- |S| + |C| ≤ √2
  have q : |S| + |C| ≤ 1.4143 := by
    have := sq_nonneg (|S| - |C|)
    have e : (|S| + |C|) ^ 2 ≤ 2 := by nlinarith [sq_abs S, sq_abs C]
    nlinarith [abs_nonneg S, abs_nonneg C]
  norm_num
  linarith

/-- C129: polar coordinates.  From the length of a vector and its angle the vector is recovered, each component to within 16
units of `2^-24` of the length. -/
theorem C129_polar (hT : GoodTrig) (hA : GoodAtan2) (p : V2 F32) (h : Medium (coord p)) :
    let r := V2.length p
    let t := F.atan2 p.y p.x
    Near (r * F.cos t) p.x.val (16 / 2 ^ 24 * exactLength (coord p)) ∧
    Near (r * F.sin t) p.y.val (16 / 2 ^ 24 * exactLength (coord p)) := by
  intro r t
  obtain ⟨fr, dr⟩ := C82_length_vec2 p h
  obtain ⟨θ, -, hx, hy, ft, dt⟩ := hA p.y p.x (h.1 1) (h.1 0)
  have e : exactLength (coord p) = Real.sqrt ((p.x.val : ℝ) ^ 2 + (p.y.val : ℝ) ^ 2) := by
    rw [exactLength, Fin.sum_univ_two]; rfl
  rw [← e] at hx hy
  obtain ⟨⟨fs, ds⟩, fc, dc⟩ := hT (Libm.atan2f p.y p.x) ft
  have c1 := (abs_cos_sub_le ((Libm.atan2f p.y p.x).val : ℝ) θ).trans dt
  have s1 := (abs_sin_sub_le ((Libm.atan2f p.y p.x).val : ℝ) θ).trans dt
  have lo := h.2.1
  have hi := h.2.2
  have c2 : |((F.cos t).val : ℝ) - Real.cos θ| ≤ 10 / 2 ^ 24 := by
    have := abs_sub_le ((F.cos t).val : ℝ) (Real.cos (Libm.atan2f p.y p.x).val) (Real.cos θ)
    have dc' : |((F.cos t).val : ℝ) - Real.cos (Libm.atan2f p.y p.x).val| ≤ 1 / 2 ^ 23 := dc
    norm_num at *
    linarith
  have s2 : |((F.sin t).val : ℝ) - Real.sin θ| ≤ 10 / 2 ^ 24 := by
    have := abs_sub_le ((F.sin t).val : ℝ) (Real.sin (Libm.atan2f p.y p.x).val) (Real.sin θ)
    have ds' : |((F.sin t).val : ℝ) - Real.sin (Libm.atan2f p.y p.x).val| ≤ 1 / 2 ^ 23 := ds
    norm_num at *
    linarith
  have b0 : 1 / 2 ^ 60 ≤ exactLength (coord p) := le_trans (by norm_num) lo
  have b1 : exactLength (coord p) ≤ 2 ^ 64 := hi.trans (by norm_num)
  have X := circle_part (e := 10) fr fc dr c2 (by norm_num) (Real.abs_cos_le_one θ) b0 b1
  have Y := circle_part (e := 10) fr fs dr s2 (by norm_num) (Real.abs_sin_le_one θ) b0 b1
  rw [hx] at X
  rw [hy] at Y
  norm_num at X Y ⊢
  exact ⟨X, Y⟩

/-- C129: the point at radius `r` and angle `t` is at distance `r` from the origin: `length` recovers the radius to within 16
units of `2^-24`. -/
theorem C129_radius (hT : GoodTrig) (r t : F32) (hr : r.IsFin = true) (ht : t.IsFin = true) (h0 : 1 / 2 ^ 40 ≤ (r.val : ℝ))
    (h1 : (r.val : ℝ) ≤ 2 ^ 60) :
    Near (V2.length ⟨r * F.cos t, r * F.sin t⟩) r.val (16 / 2 ^ 24 * r.val) := by
  obtain ⟨⟨fs, ds⟩, fc, dc⟩ := hT t ht
  have rp : (0 : ℝ) ≤ r.val := le_trans (by norm_num) h0
  have dr : |(r.val : ℝ) - r.val| ≤ 4 / 2 ^ 24 * r.val := by rw [sub_self, abs_zero]; positivity
  have b0 : 1 / 2 ^ 60 ≤ (r.val : ℝ) := le_trans (by norm_num) h0
  have b1 : (r.val : ℝ) ≤ 2 ^ 64 := h1.trans (by norm_num)
  have c2 : |((F.cos t).val : ℝ) - Real.cos t.val| ≤ 2 / 2 ^ 24 := dc.trans (by norm_num)
  have s2 : |((F.sin t).val : ℝ) - Real.sin t.val| ≤ 2 / 2 ^ 24 := ds.trans (by norm_num)
  obtain ⟨fX, X⟩ := circle_part (e := 2) hr fc dr c2 (by norm_num) (Real.abs_cos_le_one _) b0 b1
  obtain ⟨fY, Y⟩ := circle_part (e := 2) hr fs dr s2 (by norm_num) (Real.abs_sin_le_one _) b0 b1
  change (r * F.cos t).IsFin = true at fX
  change (r * F.sin t).IsFin = true at fY
  change |((r * F.cos t).val : ℝ) - _| ≤ _ at X
  change |((r * F.sin t).val : ℝ) - _| ≤ _ at Y
  have p := Real.sin_sq_add_cos_sq (t.val : ℝ)
  have e : exactLength (coord (⟨r * F.cos t, r * F.sin t⟩ : V2 F32)) =
      Real.sqrt (((r * F.cos t).val : ℝ) ^ 2 + ((r * F.sin t).val : ℝ) ^ 2) := by
    rw [exactLength, Fin.sum_univ_two]; rfl
  have L : |exactLength (coord (⟨r * F.cos t, r * F.sin t⟩ : V2 F32)) - r.val| ≤ 11.4 / 2 ^ 24 * r.val := by
    rw [e]
    generalize ((r * F.cos t).val : ℝ) = x at *
    generalize ((r * F.sin t).val : ℝ) = y at *
    generalize (r.val : ℝ) = R at *
    generalize Real.cos (t.val : ℝ) = C at *
    generalize Real.sin (t.val : ℝ) = S at *
    -- the norm of the difference
    have n1 : ‖(⟨R * C, R * S⟩ : ℂ)‖ = R := by
      rw [Complex.norm_def, Complex.normSq_mk, show R * C * (R * C) + R * S * (R * S) = R ^ 2 * (S ^ 2 + C ^ 2) by ring, p, mul_one,
        Real.sqrt_sq rp]
    have n2 : ‖(⟨x, y⟩ : ℂ)‖ = Real.sqrt (x ^ 2 + y ^ 2) := by rw [Complex.norm_def, Complex.normSq_mk, sq, sq]
    have n3 : ‖(⟨x, y⟩ : ℂ) - ⟨R * C, R * S⟩‖ ≤ 11.4 / 2 ^ 24 * R := by
      rw [Complex.norm_def, Complex.normSq_apply]
      apply Real.sqrt_le_iff.2
      refine ⟨by positivity, ?_⟩
      change (x - R * C) * (x - R * C) + (y - R * S) * (y - R * S) ≤ _
      have a : (x - R * C) ^ 2 ≤ ((2 + 6) / 2 ^ 24 * R) ^ 2 := by rw [← sq_abs]; gcongr
      have b : (y - R * S) ^ 2 ≤ ((2 + 6) / 2 ^ 24 * R) ^ 2 := by rw [← sq_abs]; gcongr
      have : (0 : ℝ) ≤ R ^ 2 := sq_nonneg R
      norm_num at a b ⊢
      nlinarith
    have := abs_norm_sub_norm_le (⟨x, y⟩ : ℂ) ⟨R * C, R * S⟩
    rw [n1, n2] at this
    exact this.trans n3
  obtain ⟨L0, L1⟩ := abs_le.1 L
  have m : Medium (coord (⟨r * F.cos t, r * F.sin t⟩ : V2 F32)) := by
    refine ⟨fun i => by fin_cases i; exacts [fX, fY], ?_, ?_⟩
    · norm_num at *; linarith
    · norm_num at *; linarith
  obtain ⟨f, d⟩ := C82_length_vec2 _ m
  refine ⟨f, ?_⟩
  have := abs_sub_le ((V2.length (⟨r * F.cos t, r * F.sin t⟩ : V2 F32)).val : ℝ)
    (exactLength (coord (⟨r * F.cos t, r * F.sin t⟩ : V2 F32))) r.val
  norm_num at *
  linarith

/-- C129: `sin` undoes `asin` and `cos` undoes `acos` on `[-1, 1]`, up to `2^-20`. -/
theorem C129_asin_acos (hT : GoodTrig) (hS : GoodAsin) (hC : GoodAcos) (x : F32) (hx : x.IsFin = true)
    (h : |(x.val : ℝ)| ≤ 1) : Near (F.sin (F.asin x)) x.val (1 / 2 ^ 20) ∧ Near (F.cos (F.acos x)) x.val (1 / 2 ^ 20) := by
  obtain ⟨h0, h1⟩ := abs_le.1 h
  obtain ⟨f1, d1⟩ := hS x hx h
  obtain ⟨f2, d2⟩ := hC x hx h
  obtain ⟨⟨f3, d3⟩, -⟩ := hT _ f1
  obtain ⟨-, f4, d4⟩ := hT _ f2
  have e1 := abs_sin_sub_le ((Libm.asinf x).val : ℝ) (Real.arcsin x.val)
  have e2 := abs_cos_sub_le ((Libm.acosf x).val : ℝ) (Real.arccos x.val)
  rw [Real.sin_arcsin h0 h1] at e1
  rw [Real.cos_arccos h0 h1] at e2
  refine ⟨⟨f3, ?_⟩, f4, ?_⟩
  · have := abs_sub_le ((F.sin (F.asin x)).val : ℝ) (Real.sin (Libm.asinf x).val) x.val
    have d3' : |((F.sin (F.asin x)).val : ℝ) - Real.sin (Libm.asinf x).val| ≤ 1 / 2 ^ 23 := d3
    norm_num at *
    linarith
  · have := abs_sub_le ((F.cos (F.acos x)).val : ℝ) (Real.cos (Libm.acosf x).val) x.val
    have d4' : |((F.cos (F.acos x)).val : ℝ) - Real.cos (Libm.acosf x).val| ≤ 1 / 2 ^ 23 := d4
    norm_num at *
    linarith

/-- C129: sine and cosine of an angle given in degrees: the result is off by at most `2^-22` plus `2^-23` of the angle (in
radians). -/
theorem C129_degrees (hT : GoodTrig) (x : F32) (hx : x.IsFin = true) :
    Near (F.sin (F.radians x)) (Real.sin (x.val * (Real.pi / 180))) (1 / 2 ^ 22 + |x.val * (Real.pi / 180)| / 2 ^ 23) ∧
    Near (F.cos (F.radians x)) (Real.cos (x.val * (Real.pi / 180))) (1 / 2 ^ 22 + |x.val * (Real.pi / 180)| / 2 ^ 23) := by
  obtain ⟨f, d, -⟩ := C67_float x hx
  obtain ⟨⟨fs, ds⟩, fc, dc⟩ := hT _ f
  have t : (1 : ℝ) / 2 ^ 23 + 1 / 2 ^ 150 ≤ 1 / 2 ^ 22 := by norm_num
  refine ⟨⟨fs, ?_⟩, fc, ?_⟩
  · have a := abs_sub_le ((F.sin (F.radians x)).val : ℝ) (Real.sin (F.radians x).val) (Real.sin (x.val * (Real.pi / 180)))
    have b := abs_sin_sub_le ((F.radians x).val : ℝ) (x.val * (Real.pi / 180))
    have c : |((F.sin (F.radians x)).val : ℝ) - Real.sin (F.radians x).val| ≤ 1 / 2 ^ 23 := ds
    linarith
  · have a := abs_sub_le ((F.cos (F.radians x)).val : ℝ) (Real.cos (F.radians x).val) (Real.cos (x.val * (Real.pi / 180)))
    have b := abs_cos_sub_le ((F.radians x).val : ℝ) (x.val * (Real.pi / 180))
    have c : |((F.cos (F.radians x)).val : ℝ) - Real.cos (F.radians x).val| ≤ 1 / 2 ^ 23 := dc
    linarith

/-- C129: `exp(log(x))` returns `x` up to relative error `(|log x| + 1) / 2^21`: the farther `x` is from 1, the more digits are
lost (up to six bits). -/
theorem C129_exp_log (hE : GoodExp) (hL : GoodLog) (x : F32) (hx : x.IsFin = true) (h0 : 1 / 2 ^ 90 ≤ (x.val : ℝ))
    (h1 : (x.val : ℝ) ≤ 2 ^ 90) :
    Near (F.exp (F.log x)) x.val ((|Real.log x.val| + 1) / 2 ^ 21 * x.val) := by
  have xp : (0 : ℝ) < x.val := lt_of_lt_of_le (by norm_num) h0
  have b := log_bound h0 h1
  obtain ⟨f, d⟩ := hL x hx (le_trans (by norm_num) h0) (h1.trans (by norm_num))
  have a0 := abs_nonneg (Real.log (x.val : ℝ))
  have small : |((Libm.logf x).val : ℝ)| ≤ 64 := by
    have := abs_sub_abs_le_abs_sub ((Libm.logf x).val : ℝ) (Real.log x.val)
    norm_num at *
    linarith
  obtain ⟨f2, d2⟩ := hE _ f small
  refine ⟨f2, ?_⟩
  have e := exp_near (d := (Libm.logf x).val - Real.log x.val) d (by norm_num at *; linarith)
  have k : Real.exp (Libm.logf x).val = x.val * Real.exp ((Libm.logf x).val - Real.log x.val) := by
    rw [Real.exp_sub, Real.exp_log xp]; field_simp
  change |((F.exp (F.log x)).val : ℝ) - _| ≤ _ at d2
  rw [k] at d2
  set E := Real.exp ((Libm.logf x).val - Real.log x.val)
  obtain ⟨E0, E1⟩ := abs_le.1 e
  have Ep : 0 ≤ E := (Real.exp_pos _).le
  generalize |Real.log (x.val : ℝ)| = l at *
  generalize ((F.exp (F.log x)).val : ℝ) = y at *
  generalize (x.val : ℝ) = X at *
  have t := abs_sub_le y (X * E) X
  have u : |X * E - X| = X * |E - 1| := by rw [← mul_sub_one, abs_mul, abs_of_pos xp]
  rw [u] at t
  have v : X * |E - 1| ≤ X * ((1 / 2 ^ 22 * l + 1 / 2 ^ 100) * (1 + 1 / 2 ^ 10)) := by gcongr
  have E2 : E ≤ 1.1 := by norm_num at *; linarith
  have w : 1 / 2 ^ 22 * (X * E) ≤ 1 / 2 ^ 22 * (X * 1.1) := by gcongr
  have z : 1 / 2 ^ 22 * (X * 1.1) + X * ((1 / 2 ^ 22 * l + 1 / 2 ^ 100) * (1 + 1 / 2 ^ 10)) ≤ (l + 1) / 2 ^ 21 * X := by
    have : 1 / 2 ^ 22 * 1.1 + (1 / 2 ^ 22 * l + 1 / 2 ^ 100) * (1 + 1 / 2 ^ 10) ≤ (l + 1) / 2 ^ 21 := by
      norm_num; linarith
    nlinarith
  linarith

/-- C129: `log(exp(x))` returns `x` up to `(|x| + 2) / 2^22`, for `x` between -60 and 60. -/
theorem C129_log_exp (hE : GoodExp) (hL : GoodLog) (x : F32) (hx : x.IsFin = true) (h : |(x.val : ℝ)| ≤ 60) :
    Near (F.log (F.exp x)) x.val ((|(x.val : ℝ)| + 2) / 2 ^ 22) := by
  obtain ⟨f, d⟩ := hE x hx (h.trans (by norm_num))
  have xp := Real.exp_pos (x.val : ℝ)
  have ratio : |((Libm.expf x).val : ℝ) / Real.exp x.val - 1| ≤ 1 / 2 ^ 22 := by
    rw [div_sub_one xp.ne', abs_div, abs_of_pos xp, div_le_iff₀ xp]
    exact d
  have l := log_near ratio (by norm_num)
  obtain ⟨r0, r1⟩ := abs_le.1 ratio
  have ep : (0 : ℝ) < (Libm.expf x).val := by
    have : (0 : ℝ) < (Libm.expf x).val / Real.exp x.val := by norm_num at r0 ⊢; linarith
    exact (div_pos_iff_of_pos_right xp).1 this
  rw [Real.log_div ep.ne' xp.ne', Real.log_exp] at l
  have E60 : Real.exp 60 ≤ 2 ^ 90 := by
    have h := Real.exp_one_lt_d9
    have : Real.exp 60 = Real.exp 1 ^ 60 := by rw [← Real.exp_nat_mul]; norm_num
    rw [this]
    calc Real.exp 1 ^ 60 ≤ (2.7182818286 : ℝ) ^ 60 := by gcongr
      _ ≤ _ := by norm_num
  obtain ⟨h0, h1⟩ := abs_le.1 h
  have up : Real.exp x.val ≤ 2 ^ 90 := (Real.exp_le_exp.2 h1).trans E60
  have lo : 1 / 2 ^ 90 ≤ Real.exp x.val := by
    refine le_trans ?_ (Real.exp_le_exp.2 h0)
    rw [Real.exp_neg, ← one_div]
    exact one_div_le_one_div_of_le (Real.exp_pos _) E60
  obtain ⟨d0, d1⟩ := abs_le.1 d
  obtain ⟨f2, d2⟩ := hL _ f (by norm_num at *; linarith) (by norm_num at *; linarith)
  refine ⟨f2, ?_⟩
  have t := abs_sub_le ((F.log (F.exp x)).val : ℝ) (Real.log (Libm.expf x).val) x.val
  have d2' : |((F.log (F.exp x)).val : ℝ) - Real.log (Libm.expf x).val| ≤ 1 / 2 ^ 22 * |Real.log (Libm.expf x).val| + 1 / 2 ^ 100 := d2
  have m := abs_sub_abs_le_abs_sub (Real.log (Libm.expf x).val) (x.val : ℝ)
  norm_num at *
  linarith

/-! ## Non-vacuity -/

omit [Libm F32] in
/-- C libraries as assumed -/
example : (@GoodTrig angleLibm ∧ @GoodAsin angleLibm ∧ @GoodAcos angleLibm ∧ @GoodAtan2 angleLibm) ∧
    @GoodExp expLibm ∧ @GoodLog expLibm :=
  ⟨⟨angleLibm_trig, angleLibm_asin, angleLibm_acos, angleLibm_atan2⟩, expLibm_exp, expLibm_log⟩

omit [Libm F32] in
/-- the vector (-3, 4), of length 5 -/
example : Medium (coord (⟨lit (-3), lit 4⟩ : V2 F32)) := by
  have a : (lit (-3) : F32).val = -3 := by decide +kernel
  have b : (lit 4 : F32).val = 4 := by decide +kernel
  have e : exactLength (coord (⟨lit (-3), lit 4⟩ : V2 F32)) = 5 := by
    rw [exactLength, Fin.sum_univ_two]
    change Real.sqrt (((lit (-3) : F32).val : ℝ) ^ 2 + ((lit 4 : F32).val : ℝ) ^ 2) = 5
    rw [a, b, show (((-3 : ℚ) : ℝ) ^ 2 + ((4 : ℚ) : ℝ) ^ 2) = 5 ^ 2 by norm_num, Real.sqrt_sq (by norm_num)]
  refine ⟨fun i => by fin_cases i <;> decide +kernel, ?_, ?_⟩ <;> rw [e] <;> norm_num

end Zcm
