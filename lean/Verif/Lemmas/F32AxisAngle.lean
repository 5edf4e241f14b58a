import Verif.Spec.Angles
import Verif.Spec.Turn
import Verif.Lemmas.F32Unit
import Verif.Lemmas.F32Mix
import Verif.Lemmas.F32Quat

/-!
# Axis and angle of a float quaternion
-/

set_option exponentiation.threshold 300

namespace Zcm

open F32 Quaternion

theorem mul_two_exact {a : F32} (ha : a.IsFin = true) (h : |a.val| ≤ 2 ^ 120) :
    (a * lit 2).IsFin = true ∧ (a * lit 2).val = 2 * a.val := by
  rw [mul_comm']
  exact two_mul_exact ha h

/-- the computed angle -/
theorem angle_near [Libm F32] (hl : GoodAcos) {q : Quat F32} (fw : q.w.IsFin = true) (hw : |(q.w.val : ℝ)| ≤ 1) :
    (Quat.angle q).IsFin = true ∧ |((Quat.angle q).val : ℝ) / 2 - Real.arccos q.w.val| ≤ 1 / 2 ^ 21 := by
  obtain ⟨f, e⟩ := hl q.w fw hw
  have b : |(Libm.acosf q.w).val| ≤ 2 ^ 120 := by
    have a0 := Real.arccos_nonneg q.w.val
    have a1 := Real.arccos_le_pi q.w.val
    have := Real.pi_le_four
    have e' := abs_le.1 e
    have : |((Libm.acosf q.w).val : ℝ)| ≤ 2 ^ 120 := by
      rw [abs_le]
      constructor <;> norm_num at * <;> linarith
    exact_mod_cast this
  obtain ⟨g, v⟩ := mul_two_exact f b
  refine ⟨g, ?_⟩
  change |(((Libm.acosf q.w * lit 2 : F32).val : ℚ) : ℝ) / 2 - _| ≤ _
  rw [v]
  push_cast
  rw [mul_div_cancel_left₀ _ (by norm_num : (2 : ℝ) ≠ 0)]
  exact e

/-- the reciprocal of the sine of half the angle -/
theorem axis_factor {w : F32} (fw : w.IsFin = true) (hw : 1 / 2 ^ 18 ≤ 1 - (w.val : ℝ) ^ 2) :
    ¬ (lit 1 - w * w ≤ lit 0) ∧
    Rel (F.inversesqrt (lit 1 - w * w)) (1 / Real.sqrt (1 - (w.val : ℝ) ^ 2)) (3.4 / 2 ^ 24 / (1 - (w.val : ℝ) ^ 2)) := by
  have w2 : (w.val : ℝ) ^ 2 ≤ 1 := by linarith [show (0 : ℝ) < 1 / 2 ^ 18 by norm_num]
  have w20 : 0 ≤ (w.val : ℝ) ^ 2 := sq_nonneg _
  have m := (Rel.exact fw).mul' (Rel.exact fw) (g := 1 / 2 ^ 24) (by norm_num) (by norm_num) (by
    rw [← sq, abs_of_nonneg w20]; linarith)
  obtain ⟨fm, em⟩ := m
  rw [← sq, abs_of_nonneg w20] at em
  have l1 : ((lit 1 : F32).val : ℝ) = 1 := by rw [val_lit_one]; norm_num
  obtain ⟨i1, i2⟩ := abs_le.1 em
  have d := rel_sub isFin_lit_one fm (by
    rw [l1, abs_le]
    constructor <;> norm_num at * <;> linarith)
  rw [l1] at d
  obtain ⟨fd, ed⟩ := d
  have s0 : 0 < 1 - (w.val : ℝ) ^ 2 := lt_of_lt_of_le (by norm_num) hw
  have mpos : 0 ≤ 1 - ((w * w).val : ℝ) := by norm_num at *; linarith
  rw [abs_of_nonneg mpos] at ed
  obtain ⟨j1, j2⟩ := abs_le.1 ed
  set S : ℝ := 1 - (w.val : ℝ) ^ 2 with hS
  have t : Rel (lit 1 - w * w) S (2.05 / 2 ^ 24 / S) := by
    refine ⟨fd, ?_⟩
    rw [abs_of_pos s0, div_mul_cancel₀ _ s0.ne', abs_le]
    constructor <;> norm_num at * <;> linarith
  have tS : 1 / S ≤ 2 ^ 18 := by
    rw [div_le_iff₀ s0]; norm_num at *; linarith
  have S1 : S ≤ 1 := by linarith
  have one : 1 ≤ 1 / S := by rw [le_div_iff₀ s0]; linarith
  have eη : ∀ c : ℝ, c / 2 ^ 24 / S = c / 2 ^ 24 * (1 / S) := by intro c; ring
  rw [eη] at t ⊢
  generalize hη : 1 / S = η at *
  have sq := rel_sqrt t (g := 2.2 / 2 ^ 24 * η) (by positivity) (by norm_num at *; linarith)
    (le_trans (by norm_num) hw) (S1.trans (by norm_num)) (by norm_num at *; linarith)
  have r0 : 0 < Real.sqrt S := Real.sqrt_pos.2 s0
  have r1 : Real.sqrt S ≤ 1 := Real.sqrt_le_one.2 S1
  have r2 : 1 / 2 ^ 9 ≤ Real.sqrt S := by
    refine Real.le_sqrt_of_sq_le ?_
    norm_num at *
    linarith
  constructor
  · intro c
    have hv : (lit 1 - w * w).val ≤ 0 := by
      have h := c.2.2
      rwa [key_le_iff, val_lit_zero] at h
    have hv : ((lit 1 - w * w).val : ℝ) ≤ 0 := by exact_mod_cast hv
    clear eη hη t tS sq em ed l1
    linarith
  · have := (Rel.exact isFin_lit_one).div sq (d := 2.3 / 2 ^ 24 * η) (g := 3.4 / 2 ^ 24 * η) le_rfl (by positivity)
      (by norm_num at *; linarith) r0.ne' (by
        have : η * η ≤ 2 ^ 18 * η := by gcongr
        norm_num at *
        nlinarith) (by norm_num at *; linarith) (by norm_num at *; linarith)
      (by rw [l1, abs_of_pos (by positivity), div_le_div_iff₀ (by positivity) r0]; linarith)
      (by rw [l1, abs_of_pos (by positivity), div_le_iff₀ r0]; linarith)
    rw [l1] at this
    exact this

theorem axis_formula [Libm F32] {q : Quat F32} (h : ¬ (lit 1 - q.w * q.w ≤ lit 0)) :
    Quat.axis q = ⟨q.x * F.inversesqrt (lit 1 - q.w * q.w), q.y * F.inversesqrt (lit 1 - q.w * q.w),
      q.z * F.inversesqrt (lit 1 - q.w * q.w)⟩ := by
  unfold Quat.axis
  simp only
  rw [if_neg h]

/-- a component of the computed axis -/
theorem axis_part {x r : F32} {σ c : ℝ} (fx : x.IsFin = true) (hx : |(x.val : ℝ)| ≤ 2) (s0 : 1 / 2 ^ 9 ≤ σ) (hr : Rel r (1 / σ) c)
    (c0 : 1 / 2 ^ 24 ≤ c) (c1 : c ≤ 1 / 16) :
    Near (x * r) (x.val / σ) (2.1 * c * |(x.val : ℝ) / σ| + 1 / 2 ^ 150) := by
  have sp : 0 < σ := lt_of_lt_of_le (by norm_num) s0
  have := (Rel.exact fx).mul' hr (g := 2.1 * c) (by norm_num at *; linarith) (by norm_num at *; linarith) (by
    rw [mul_one_div, abs_div, abs_of_pos sp, div_le_iff₀ sp]
    norm_num at *
    linarith)
  rw [mul_one_div] at this
  exact this

/-- the vector part, componentwise -/
theorem axis_sine {x n : F32} {σ S c : ℝ} (sp : 0 < σ) (σ1 : σ ≤ 1) (hS : |S - σ| ≤ 1 / 2 ^ 21)
    (s9 : 1 / 2 ^ 9 ≤ σ) (hn : |(n.val : ℝ) - x.val / σ| ≤ c * |(x.val : ℝ) / σ| + 1 / 2 ^ 150) :
    |S * n.val - x.val| ≤ (1.01 * c + 1 / 2 ^ 21 / σ) * |(x.val : ℝ)| + 1 / 2 ^ 149 := by
  have e : S * n.val - x.val = S * (n.val - x.val / σ) + (S - σ) * (x.val / σ) := by field_simp; ring
  have hS1 : |S| ≤ 1.01 * σ := by
    have := abs_le.1 hS
    rw [abs_le]
    constructor <;> norm_num at * <;> linarith
  have ax : |(x.val : ℝ) / σ| = |(x.val : ℝ)| / σ := by rw [abs_div, abs_of_pos sp]
  rw [ax] at hn
  have x0 := abs_nonneg (x.val : ℝ)
  calc |S * n.val - x.val| ≤ |S| * |(n.val : ℝ) - x.val / σ| + |S - σ| * |(x.val : ℝ) / σ| := by
        rw [e]
        refine (abs_add_le _ _).trans ?_
        rw [abs_mul, abs_mul]
    _ ≤ 1.01 * σ * (c * (|(x.val : ℝ)| / σ) + 1 / 2 ^ 150) + 1 / 2 ^ 21 * (|(x.val : ℝ)| / σ) := by
        rw [ax]
        gcongr
    _ = (1.01 * c + 1 / 2 ^ 21 / σ) * |(x.val : ℝ)| + 1.01 * σ / 2 ^ 150 := by field_simp; ring
    _ ≤ _ := by norm_num; linarith

theorem turn_parts_close {D0 D1 D2 D3 x y z c σ : ℝ} (h0 : |D0| ≤ 1 / 2 ^ 21) (h1 : |D1| ≤ c * |x| + 1 / 2 ^ 149)
    (h2 : |D2| ≤ c * |y| + 1 / 2 ^ 149) (h3 : |D3| ≤ c * |z| + 1 / 2 ^ 149) (bx : |x| ≤ 2) (by' : |y| ≤ 2) (bz : |z| ≤ 2)
    (cp : 0 ≤ c) (c1 : c ≤ 1) (sp : 0 ≤ σ) (v2 : x ^ 2 + y ^ 2 + z ^ 2 ≤ 1.51 * σ ^ 2) :
    D0 ^ 2 + D1 ^ 2 + D2 ^ 2 + D3 ^ 2 ≤ (1 / 2 ^ 21 + 1.23 * (c * σ) + 1 / 2 ^ 70) ^ 2 := by
  have e0 := pow_le_pow_left₀ (abs_nonneg _) h0 2
  have e1 := pow_le_pow_left₀ (abs_nonneg _) h1 2
  have e2 := pow_le_pow_left₀ (abs_nonneg _) h2 2
  have e3 := pow_le_pow_left₀ (abs_nonneg _) h3 2
  rw [sq_abs] at e0 e1 e2 e3
  have cv : c ^ 2 * (x ^ 2 + y ^ 2 + z ^ 2) ≤ (1.23 * (c * σ)) ^ 2 := by
    calc _ ≤ c ^ 2 * (1.51 * σ ^ 2) := by gcongr
      _ ≤ _ := by
        have := mul_nonneg (sq_nonneg c) (sq_nonneg σ)
        rw [mul_pow, mul_pow]
        norm_num
        linarith
  have lin : ∀ {x : ℝ}, |x| ≤ 2 → (c * |x| + 1 / 2 ^ 149) ^ 2 ≤ c ^ 2 * x ^ 2 + 1 / 2 ^ 144 := by
    intro x hx
    have x0 := abs_nonneg x
    have : c * |x| ≤ 2 := by nlinarith
    rw [← sq_abs x]
    have : (c * |x| + 1 / 2 ^ 149) ^ 2 = c ^ 2 * |x| ^ 2 + 2 / 2 ^ 149 * (c * |x|) + (1 / 2 ^ 149) ^ 2 := by ring
    rw [this]
    norm_num at *
    linarith
  have l1 := lin bx
  have l2 := lin by'
  have l3 := lin bz
  have cs : 0 ≤ 1.23 * (c * σ) := by positivity
  generalize 1.23 * (c * σ) = k at *
  have exp : (1 / 2 ^ 21 + k + 1 / 2 ^ 70) ^ 2 = (1 / 2 ^ 21) ^ 2 + k ^ 2 + (1 / 2 ^ 70) ^ 2 +
      (2 / 2 ^ 21 * k + 2 / 2 ^ 70 * k + 2 / 2 ^ 91) := by ring
  rw [exp]
  clear h0 h1 h2 h3 exp lin
  have p : 0 ≤ 2 / 2 ^ 21 * k + 2 / 2 ^ 70 * k := by positivity
  norm_num at *
  linarith

theorem axis_angle_close [Libm F32] (hl : GoodAcos) {q : Quat F32} (hf : q.Finite) (hw : |(q.w.val : ℝ)| ≤ 1)
    (hn : |‖exactQ q‖ - 1| ≤ 1 / 2 ^ 20) (hs : 1 / 2 ^ 18 ≤ 1 - (q.w.val : ℝ) ^ 2) :
    (Quat.angle q).IsFin = true ∧ (∀ i, (coord (Quat.axis q) i).IsFin = true) ∧
    (∑ i, numbers (Quat.axis q) i ^ 2 ≤ 2) ∧
    ‖turnQ (Quat.angle q).val (numbers (Quat.axis q)) - exactQ q‖ ≤
      1 / 2 ^ 19 + 1 / 2 ^ 20 / Real.sqrt (1 - (q.w.val : ℝ) ^ 2) := by
  obtain ⟨fa, ea⟩ := angle_near hl (hf 3) hw
  obtain ⟨ng, rel⟩ := axis_factor (w := q.w) (hf 3) hs
  have nq := norm_sq_quat (exactQ q)
  have n2 : ‖exactQ q‖ ^ 2 ≤ 1 + 2.01 / 2 ^ 20 := by
    obtain ⟨a, b⟩ := abs_le.1 hn
    have : 0 ≤ ‖exactQ q‖ := norm_nonneg _
    calc ‖exactQ q‖ ^ 2 ≤ (1 + 1 / 2 ^ 20) ^ 2 := by
          refine pow_le_pow_left₀ this ?_ 2
          linarith
      _ ≤ _ := by norm_num
  change _ = (q.w.val : ℝ) ^ 2 + (q.x.val : ℝ) ^ 2 + (q.y.val : ℝ) ^ 2 + (q.z.val : ℝ) ^ 2 at nq
  rw [nq] at n2
  have s0 : 0 < 1 - (q.w.val : ℝ) ^ 2 := lt_of_lt_of_le (by norm_num) hs
  set σ := Real.sqrt (1 - (q.w.val : ℝ) ^ 2) with hσ
  have sp : 0 < σ := Real.sqrt_pos.2 s0
  have σ2 : σ ^ 2 = 1 - (q.w.val : ℝ) ^ 2 := Real.sq_sqrt s0.le
  have σ1 : σ ≤ 1 := Real.sqrt_le_one.2 (by linarith [sq_nonneg (q.w.val : ℝ)])
  have s9 : 1 / 2 ^ 9 ≤ σ := by
    refine Real.le_sqrt_of_sq_le ?_
    norm_num at *
    linarith
  have v2 : (q.x.val : ℝ) ^ 2 + (q.y.val : ℝ) ^ 2 + (q.z.val : ℝ) ^ 2 ≤ 1.51 * σ ^ 2 := by
    rw [← σ2] at hs
    norm_num at *
    linarith
  have v1 : (q.x.val : ℝ) ^ 2 + (q.y.val : ℝ) ^ 2 + (q.z.val : ℝ) ^ 2 ≤ 2 := by
    have : σ ^ 2 ≤ 1 := by rw [σ2]; linarith [sq_nonneg (q.w.val : ℝ)]
    linarith
  have bound : ∀ {x : ℝ}, x ^ 2 ≤ 2 → |x| ≤ 2 := by
    intro x h
    refine abs_le_of_sq_le_sq (by linarith) (by norm_num)
  have bx := bound (x := q.x.val) (by linarith [sq_nonneg (q.y.val : ℝ), sq_nonneg (q.z.val : ℝ)])
  have by' := bound (x := q.y.val) (by linarith [sq_nonneg (q.x.val : ℝ), sq_nonneg (q.z.val : ℝ)])
  have bz := bound (x := q.z.val) (by linarith [sq_nonneg (q.y.val : ℝ), sq_nonneg (q.x.val : ℝ)])
  have c0 : 1 / 2 ^ 24 ≤ 3.4 / 2 ^ 24 / (1 - (q.w.val : ℝ) ^ 2) := by
    rw [le_div_iff₀ s0]
    have := sq_nonneg (q.w.val : ℝ)
    norm_num
    linarith
  have c1 : 3.4 / 2 ^ 24 / (1 - (q.w.val : ℝ) ^ 2) ≤ 1 / 16 := by
    rw [div_le_iff₀ s0]
    norm_num at *
    linarith
  rw [axis_formula ng]
  generalize F.inversesqrt (lit 1 - q.w * q.w) = r at *
  obtain ⟨fx, ex⟩ := axis_part (hf 0) bx s9 rel c0 c1
  obtain ⟨fy, ey⟩ := axis_part (hf 1) by' s9 rel c0 c1
  obtain ⟨fz, ez⟩ := axis_part (hf 2) bz s9 rel c0 c1
  change (q.x * r).IsFin = true at fx
  change (q.y * r).IsFin = true at fy
  change (q.z * r).IsFin = true at fz
  change |((q.x * r).val : ℝ) - q.x.val / σ| ≤ _ * |(q.x.val : ℝ) / σ| + _ at ex
  change |((q.y * r).val : ℝ) - q.y.val / σ| ≤ _ * |(q.y.val : ℝ) / σ| + _ at ey
  change |((q.z * r).val : ℝ) - q.z.val / σ| ≤ _ * |(q.z.val : ℝ) / σ| + _ at ez
  refine ⟨fa, fun i => by fin_cases i <;> assumption, ?_, ?_⟩
  · -- the length of the axis
    have part : ∀ {x n : F32}, |(n.val : ℝ) - x.val / σ| ≤ 2.1 * (3.4 / 2 ^ 24 / (1 - (q.w.val : ℝ) ^ 2)) * |(x.val : ℝ) / σ| + 1 / 2 ^ 150 →
        (n.val : ℝ) ^ 2 ≤ 1.3 * ((x.val : ℝ) / σ) ^ 2 + 1 / 2 ^ 20 := by
      intro x n h
      have h1 : |(n.val : ℝ)| ≤ 1.14 * |(x.val : ℝ) / σ| + 1 / 2 ^ 150 := by
        have := abs_sub_abs_le_abs_sub (n.val : ℝ) (x.val / σ)
        have y0 := abs_nonneg ((x.val : ℝ) / σ)
        have : 2.1 * (3.4 / 2 ^ 24 / (1 - (q.w.val : ℝ) ^ 2)) * |(x.val : ℝ) / σ| ≤ 2.1 * (1 / 16) * |(x.val : ℝ) / σ| := by gcongr
        linarith
      rw [← sq_abs (n.val : ℝ), ← sq_abs ((x.val : ℝ) / σ)]
      have y0 := abs_nonneg ((x.val : ℝ) / σ)
      have n0 := abs_nonneg (n.val : ℝ)
      generalize |(n.val : ℝ)| = a at *
      generalize |(x.val : ℝ) / σ| = b at *
      calc a ^ 2 ≤ (1.14 * b + 1 / 2 ^ 150) ^ 2 := pow_le_pow_left₀ n0 h1 2
        _ ≤ _ := by norm_num; nlinarith [sq_nonneg (b - 1 / 2 ^ 75), sq_nonneg b]
    have px := part ex
    have py := part ey
    have pz := part ez
    have tot : ((q.x.val : ℝ) / σ) ^ 2 + ((q.y.val : ℝ) / σ) ^ 2 + ((q.z.val : ℝ) / σ) ^ 2 ≤ 1.51 := by
      rw [div_pow, div_pow, div_pow, ← add_div, ← add_div, div_le_iff₀ (by positivity)]
      exact v2
    rw [Fin.sum_univ_three]
    change ((q.x * r).val : ℝ) ^ 2 + ((q.y * r).val : ℝ) ^ 2 + ((q.z * r).val : ℝ) ^ 2 ≤ 2
    norm_num at *
    linarith
  · set A := ((Quat.angle q).val : ℝ) / 2 with hA
    have hsin : |Real.sin A - σ| ≤ 1 / 2 ^ 21 := by
      rw [hσ, ← Real.sin_arccos]
      exact (Real.abs_sin_sub_sin_le _ _).trans ea
    have hcos : |Real.cos A - q.w.val| ≤ 1 / 2 ^ 21 := by
      have hw' := abs_le.1 hw
      have : Real.cos (Real.arccos q.w.val) = q.w.val := Real.cos_arccos hw'.1 hw'.2
      rw [← this]
      exact (Real.abs_cos_sub_cos_le _ _).trans ea
    have dx := axis_sine sp σ1 hsin s9 ex
    have dy := axis_sine sp σ1 hsin s9 ey
    have dz := axis_sine sp σ1 hsin s9 ez
    set c := 1.01 * (2.1 * (3.4 / 2 ^ 24 / (1 - (q.w.val : ℝ) ^ 2))) + 1 / 2 ^ 21 / σ with hc
    have cσ : c * σ ≤ 7.22 / 2 ^ 24 / σ + 1 / 2 ^ 21 := by
      rw [hc, ← σ2]
      have : (1.01 * (2.1 * (3.4 / 2 ^ 24 / σ ^ 2)) + 1 / 2 ^ 21 / σ) * σ = 7.2114 / 2 ^ 24 / σ + 1 / 2 ^ 21 := by
        field_simp
        ring
      rw [this]
      gcongr
      norm_num
    have cp : 0 ≤ c := by positivity
    have c1' : c ≤ 1 := by
      have h1 : 1 / 2 ^ 21 / σ ≤ 1 / 2 := by
        rw [div_le_iff₀ sp]
        norm_num
        norm_num at s9
        linarith
      rw [hc]
      norm_num
      norm_num at c1 h1
      linarith
    have main : ‖turnQ (Quat.angle q).val (numbers ⟨q.x * r, q.y * r, q.z * r⟩) - exactQ q‖ ≤ 1 / 2 ^ 21 + 1.23 * (c * σ) + 1 / 2 ^ 70 := by
      refine le_of_sq_le_sq ?_ (by positivity)
      rw [norm_sq_quat, re_sub, imI_sub, imJ_sub, imK_sub]
      exact turn_parts_close hcos dx dy dz bx by' bz cp c1' sp.le v2
    refine main.trans ?_
    have : 1 / 2 ^ 20 / σ = 16 / 2 ^ 24 / σ := by norm_num
    rw [this]
    have h16 : 16 / 2 ^ 24 / σ = 16 * (1 / 2 ^ 24 / σ) := by ring
    have h7 : 7.22 / 2 ^ 24 / σ = 7.22 * (1 / 2 ^ 24 / σ) := by ring
    rw [h16]
    rw [h7] at cσ
    have e0 : 0 < 1 / 2 ^ 24 / σ := by positivity
    clear main
    generalize 1 / 2 ^ 24 / σ = e at *
    generalize c * σ = k at *
    norm_num
    norm_num at cσ
    linarith

end Zcm
