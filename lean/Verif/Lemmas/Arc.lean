import Mathlib.Analysis.SpecialFunctions.Trigonometric.Sinc
import Mathlib.Analysis.SpecialFunctions.Trigonometric.Deriv
import Mathlib.Analysis.SpecialFunctions.Trigonometric.Bounds
import Mathlib.Analysis.Calculus.Deriv.MeanValue
import Mathlib.Analysis.Complex.ExponentialBounds
import Mathlib.Analysis.Real.Pi.Bounds

/-!
# The weights of spherical interpolation

`arcWeight s θ = sin (s θ) / sin θ`, continued to `s` at `θ = 0`, changes by at most 0.54 times the change of `cos θ`.
-/

namespace Zcm

open Real Set

noncomputable def arcWeight (s θ : ℝ) : ℝ := s * sinc (s * θ) / sinc θ

theorem arcWeight_zero (s : ℝ) : arcWeight s 0 = s := by simp [arcWeight]

theorem arcWeight_of_ne {s θ : ℝ} (h : θ ≠ 0) : arcWeight s θ = sin (s * θ) / sin θ := by
  unfold arcWeight
  by_cases hs : s = 0
  · simp [hs]
  rw [sinc_of_ne_zero h, sinc_of_ne_zero (mul_ne_zero hs h)]
  rw [mul_div_assoc', mul_div_mul_left _ _ hs, div_div_div_cancel_right₀ h]

theorem sin_pos_arc {θ : ℝ} (h0 : 0 < θ) (h1 : θ ≤ 1.6) : 0 < sin θ :=
  sin_pos_of_pos_of_lt_pi h0 (by linarith [pi_gt_three])

/-- `sin θ` is not much smaller than `θ` -/
theorem le_sin_arc {θ : ℝ} (h0 : 0 ≤ θ) (h1 : θ ≤ 1.6) : θ ≤ 1.61 * sin θ := by
  rcases le_total θ (π / 2) with h | h
  · have a := mul_le_sin h0 h
    have p := pi_lt_d2
    have : 0 < π := pi_pos
    rw [div_mul_eq_mul_div, div_le_iff₀ this] at a
    have s0 : 0 ≤ sin θ := sin_nonneg_of_nonneg_of_le_pi h0 (by linarith)
    nlinarith
  · have e : sin θ = cos (θ - π / 2) := by rw [cos_sub_pi_div_two]
    have c := one_sub_sq_div_two_le_cos (x := θ - π / 2)
    have p := pi_gt_d2
    have : (θ - π / 2) ^ 2 ≤ 0.03 ^ 2 := by
      apply pow_le_pow_left₀ (by linarith)
      linarith
    rw [e]
    linarith

theorem sinc_pos_arc {θ : ℝ} (h0 : 0 ≤ θ) (h1 : θ ≤ 1.6) : 0 < sinc θ := by
  rcases eq_or_lt_of_le h0 with h | h
  · rw [← h]; simp
  · rw [sinc_of_ne_zero h.ne']; exact div_pos (sin_pos_arc h h1) h

theorem arcWeight_continuous (s : ℝ) : ContinuousOn (arcWeight s) (Icc 0 1.6) := by
  unfold arcWeight
  refine ContinuousOn.div ?_ continuous_sinc.continuousOn fun θ h => (sinc_pos_arc h.1 h.2).ne'
  exact (continuous_const.mul (continuous_sinc.comp (continuous_const.mul continuous_id))).continuousOn

/-- the numerator of the derivative -/
noncomputable def arcNum (s θ : ℝ) : ℝ := s * cos (s * θ) * sin θ - sin (s * θ) * cos θ

theorem arcNum_deriv (s θ : ℝ) : HasDerivAt (arcNum s) ((1 - s ^ 2) * (sin (s * θ) * sin θ)) θ := by
  have hl : HasDerivAt (fun θ : ℝ => s * θ) s θ := by simpa using (hasDerivAt_id θ).const_mul s
  have h := ((hl.cos.const_mul s).mul (hasDerivAt_sin θ)).sub (hl.sin.mul (hasDerivAt_cos θ))
  refine h.congr_deriv ?_
  ring

theorem arcWeight_deriv {s θ : ℝ} (h0 : 0 < θ) (h1 : θ < 1.6) :
    HasDerivAt (arcWeight s) (arcNum s θ / sin θ ^ 2) θ := by
  have hl : HasDerivAt (fun θ : ℝ => s * θ) s θ := by simpa using (hasDerivAt_id θ).const_mul s
  have h := hl.sin.div (hasDerivAt_sin θ) (sin_pos_arc h0 h1.le).ne'
  refine (h.congr_deriv ?_).congr_of_eventuallyEq ?_
  · unfold arcNum; congr 1; ring
  · filter_upwards [eventually_ne_nhds h0.ne'] with x hx
    exact arcWeight_of_ne hx

theorem arcNum_bounds {s θ : ℝ} (s0 : 0 ≤ s) (s1 : s ≤ 1) (h0 : 0 ≤ θ) (h1 : θ ≤ 1.6) :
    0 ≤ arcNum s θ ∧ arcNum s θ ≤ (1 - s ^ 2) * s * θ ^ 3 / 3 := by
  have z : arcNum s 0 = 0 := by simp [arcNum]
  have q : 0 ≤ 1 - s ^ 2 := by nlinarith
  have facts : ∀ x ∈ interior (Icc (0 : ℝ) 1.6), 0 ≤ sin (s * x) * sin x ∧ sin (s * x) * sin x ≤ s * x ^ 2 := by
    intro x hx
    rw [interior_Icc] at hx
    have a0 : 0 ≤ s * x := mul_nonneg s0 hx.1.le
    have a1 : s * x ≤ x := mul_le_of_le_one_left hx.1.le s1
    have p1 := sin_nonneg_of_nonneg_of_le_pi a0 (by linarith [pi_gt_three, hx.2])
    have p2 := sin_nonneg_of_nonneg_of_le_pi hx.1.le (by linarith [pi_gt_three, hx.2])
    refine ⟨mul_nonneg p1 p2, ?_⟩
    have := mul_le_mul (sin_le a0) (sin_le hx.1.le) p2 a0
    linarith [sq x]
  have m1 : MonotoneOn (arcNum s) (Icc 0 1.6) := by
    refine monotoneOn_of_deriv_nonneg (convex_Icc _ _) (fun x _ => (arcNum_deriv s x).continuousAt.continuousWithinAt)
      (fun x _ => (arcNum_deriv s x).differentiableAt.differentiableWithinAt) fun x hx => ?_
    rw [(arcNum_deriv s x).deriv]
    exact mul_nonneg q (facts x hx).1
  have d : ∀ x : ℝ, HasDerivAt (fun x => (1 - s ^ 2) * s * x ^ 3 / 3 - arcNum s x)
      ((1 - s ^ 2) * s * x ^ 2 - (1 - s ^ 2) * (sin (s * x) * sin x)) x := fun x => by
    have h := (((hasDerivAt_pow 3 x).const_mul ((1 - s ^ 2) * s)).div_const 3).sub (arcNum_deriv s x)
    refine h.congr_deriv ?_
    push_cast; ring
  have m2 : MonotoneOn (fun x => (1 - s ^ 2) * s * x ^ 3 / 3 - arcNum s x) (Icc 0 1.6) := by
    refine monotoneOn_of_deriv_nonneg (convex_Icc _ _) (fun x _ => (d x).continuousAt.continuousWithinAt)
      (fun x _ => (d x).differentiableAt.differentiableWithinAt) fun x hx => ?_
    rw [(d x).deriv, sub_nonneg, mul_assoc]
    exact mul_le_mul_of_nonneg_left (facts x hx).2 q
  have l0 : (0 : ℝ) ∈ Icc (0 : ℝ) 1.6 := ⟨le_rfl, by norm_num⟩
  have a := m1 l0 ⟨h0, h1⟩ h0
  have b := m2 l0 ⟨h0, h1⟩ h0
  simp only [z] at a b
  exact ⟨a, by linarith⟩

theorem arcNum_le {s θ : ℝ} (s0 : 0 ≤ s) (s1 : s ≤ 1) (h0 : 0 ≤ θ) (h1 : θ ≤ 1.6) :
    arcNum s θ ≤ 0.54 * sin θ ^ 3 := by
  have a := (arcNum_bounds s0 s1 h0 h1).2
  have c : (1 - s ^ 2) * s ≤ 0.385 := by nlinarith [mul_nonneg (sq_nonneg (s - 0.577)) (by linarith : (0 : ℝ) ≤ s + 1.154)]
  have p : θ ^ 3 ≤ (1.61 * sin θ) ^ 3 := pow_le_pow_left₀ h0 (le_sin_arc h0 h1) 3
  have t0 : 0 ≤ θ ^ 3 := by positivity
  have := mul_le_mul_of_nonneg_right c t0
  have e : (1.61 * sin θ) ^ 3 = 4.173281 * sin θ ^ 3 := by ring
  rw [e] at p
  have s3 : 0 ≤ sin θ ^ 3 := by
    have := sin_nonneg_of_nonneg_of_le_pi h0 (by linarith [pi_gt_three]); positivity
  linarith

/-- the weight as a function of the cosine of the angle is Lipschitz with constant 0.54 -/
theorem arcWeight_close {s a b : ℝ} (s0 : 0 ≤ s) (s1 : s ≤ 1) (ha : a ∈ Icc (0 : ℝ) 1.6) (hb : b ∈ Icc (0 : ℝ) 1.6) :
    |arcWeight s a - arcWeight s b| ≤ 0.54 * |cos a - cos b| := by
  have m1 : MonotoneOn (arcWeight s) (Icc 0 1.6) := by
    refine monotoneOn_of_deriv_nonneg (convex_Icc _ _) (arcWeight_continuous s) (fun x hx => ?_) fun x hx => ?_ <;>
      rw [interior_Icc] at hx
    · exact (arcWeight_deriv hx.1 hx.2).differentiableAt.differentiableWithinAt
    · rw [(arcWeight_deriv hx.1 hx.2).deriv]
      exact div_nonneg (arcNum_bounds s0 s1 hx.1.le hx.2.le).1 (sq_nonneg _)
  have d : ∀ x : ℝ, 0 < x → x < 1.6 → HasDerivAt (fun x => arcWeight s x + 0.54 * cos x)
      (arcNum s x / sin x ^ 2 - 0.54 * sin x) x := fun x h0 h1 => by
    have h := (arcWeight_deriv (s := s) h0 h1).add ((hasDerivAt_cos x).const_mul 0.54)
    refine h.congr_deriv ?_
    ring
  have m2 : AntitoneOn (fun x => arcWeight s x + 0.54 * cos x) (Icc 0 1.6) := by
    refine antitoneOn_of_deriv_nonpos (convex_Icc _ _)
      ((arcWeight_continuous s).add (continuous_const.mul continuous_cos).continuousOn) (fun x hx => ?_) fun x hx => ?_ <;>
      rw [interior_Icc] at hx
    · exact (d x hx.1 hx.2).differentiableAt.differentiableWithinAt
    · rw [(d x hx.1 hx.2).deriv, sub_nonpos, div_le_iff₀ (pow_pos (sin_pos_arc hx.1 hx.2.le) 2)]
      have := arcNum_le s0 s1 hx.1.le hx.2.le
      linarith [pow_succ (sin x) 2]
  wlog h : a ≤ b generalizing a b
  · rw [abs_sub_comm, abs_sub_comm (cos a)]
    exact this hb ha (le_of_not_ge h)
  have x := m1 ha hb h
  have y := m2 ha hb h
  simp only at y
  rw [abs_sub_comm, abs_of_nonneg (by linarith)]
  have := le_abs_self (cos a - cos b)
  linarith

theorem arcWeight_bounds {s θ : ℝ} (s0 : 0 ≤ s) (s1 : s ≤ 1) (h0 : 0 ≤ θ) (h1 : θ ≤ 1.6) :
    0 ≤ arcWeight s θ ∧ arcWeight s θ ≤ 1.61 * s := by
  rcases eq_or_lt_of_le h0 with h | h
  · rw [← h, arcWeight_zero]; exact ⟨s0, by linarith⟩
  · have p := sin_pos_arc h h1
    have a0 : 0 ≤ s * θ := mul_nonneg s0 h0
    have a1 : s * θ ≤ θ := mul_le_of_le_one_left h0 s1
    rw [arcWeight_of_ne h.ne']
    refine ⟨div_nonneg (sin_nonneg_of_nonneg_of_le_pi a0 (by linarith [pi_gt_three])) p.le, ?_⟩
    rw [div_le_iff₀ p]
    have := sin_le a0
    have := mul_le_mul_of_nonneg_left (le_sin_arc h0 h1) s0
    linarith

end Zcm
