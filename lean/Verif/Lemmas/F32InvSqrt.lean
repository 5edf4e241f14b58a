import Verif.Model.ComponentWise
import Verif.Model.Exponential
import Verif.Lemmas.F32Mono
import Verif.Lemmas.F32Rel
import Verif.Lemmas.F32Scale
import Verif.Lemmas.F32NaN

/-!
# Reciprocal square roots, and chains of additions
-/

set_option exponentiation.threshold 300

namespace Zcm.F32

/-- `√x` lies between 2⁻⁷⁵ and 2⁶⁴ -/
theorem real_sqrt_range {x : F32} (fx : x.IsFin = true) (h : 0 < x.val) :
    (1 / 2 ^ 75 : ℝ) ≤ Real.sqrt x.val ∧ Real.sqrt x.val ≤ 2 ^ 64 := by
  constructor
  · apply Real.le_sqrt_of_sq_le
    have h1 : ((1 / 2 ^ 149 : ℚ) : ℝ) ≤ (x.val : ℝ) := by exact_mod_cast val_ge_of_pos h
    refine le_trans ?_ h1
    push_cast
    norm_num
  · have : (x.val : ℝ) < 2 ^ 128 := by exact_mod_cast val_lt fx
    calc Real.sqrt x.val ≤ Real.sqrt (2 ^ 128) := Real.sqrt_le_sqrt this.le
      _ = 2 ^ 64 := by rw [show ((2:ℝ) ^ 128) = (2 ^ 64) ^ 2 by norm_num, Real.sqrt_sq (by positivity)]

theorem sqrt_rel_range {x : F32} (fx : x.IsFin = true) (h : 0 < x.val) :
    Rel (FloatOps.sqrt x) (Real.sqrt x.val) (1 / 2 ^ 24) := by
  obtain ⟨l, u⟩ := real_sqrt_range fx h
  have s0 := Real.sqrt_nonneg (x.val : ℝ)
  obtain ⟨fr, err⟩ := (sqrt_correct fx h.le).rel (by rw [abs_of_nonneg s0]; exact le_trans (by norm_num) l)
    (by rw [abs_of_nonneg s0]; linarith)
  exact ⟨fr, err.trans (le_of_eq (by ring))⟩

theorem inversesqrt_rel {x : F32} (fx : x.IsFin = true) (h : 0 < x.val) :
    Rel (F.inversesqrt x) (1 / Real.sqrt x.val) (2.001 / 2 ^ 24) := by
  obtain ⟨l, u⟩ := real_sqrt_range fx h
  have s0 : 0 < Real.sqrt (x.val : ℝ) := lt_of_lt_of_le (by norm_num) l
  have one : Rel (lit 1 : F32) 1 0 := .lit (by decide +kernel) (by
    have : (lit 1 : F32).val = 1 := by decide +kernel
    rw [this]; norm_num)
  refine Rel.div (d := 1.0001 / 2 ^ 24) one (sqrt_rel_range fx h) le_rfl (by norm_num) (by norm_num) s0.ne' (by norm_num) (by norm_num)
    (by norm_num) ?_ ?_
  · rw [abs_of_pos (by positivity)]
    calc (1 / 2 ^ 125 : ℝ) ≤ 1 / 2 ^ 64 := by norm_num
      _ ≤ _ := one_div_le_one_div_of_le s0 u
  · rw [abs_of_pos (by positivity)]
    calc 1 / Real.sqrt (x.val : ℝ) ≤ 1 / (1 / 2 ^ 75) := one_div_le_one_div_of_le (by norm_num) l
      _ ≤ _ := by norm_num

theorem val_pos_of_lt {x : F32} (h : lit 0 < x) : (x.IsFin = true ∧ 0 < x.val) ∨ x = .inf false := by
  rcases x with _ | s | ⟨s, k, hk⟩
  · exact absurd rfl h.2.1
  · cases s
    · exact .inr rfl
    · exact absurd h.2.2 (by rw [key_lit_zero, key_inf_true]; norm_num)
  · left
    have := h.2.2
    rw [key_lit_zero] at this
    exact ⟨rfl, key_pos.1 this⟩

theorem inversesqrt_pos {x : F32} (fx : x.IsFin = true) (h : 0 < x.val) : 0 < (F.inversesqrt x).val := by
  have r := inversesqrt_rel fx h
  have s : 0 < 1 / Real.sqrt (x.val : ℝ) := by
    have := (real_sqrt_range fx h).1
    exact one_div_pos.2 (lt_of_lt_of_le (by norm_num) this)
  have e := (abs_le.1 r.err).1
  rw [abs_of_pos s] at e
  have : (0:ℝ) < ((F.inversesqrt x).val : ℝ) := by
    have : 2.001 / 2 ^ 24 * (1 / Real.sqrt (x.val : ℝ)) ≤ 1 / 2 * (1 / Real.sqrt (x.val : ℝ)) :=
      mul_le_mul_of_nonneg_right (by norm_num) s.le
    linarith
  exact_mod_cast this

theorem inversesqrt_anti {x y : F32} (h0 : lit 0 < x) (h : x ≤ y) : F.inversesqrt y ≤ F.inversesqrt x := by
  have z : (F.inversesqrt (.inf false : F32)) = lit 0 := by decide +kernel
  have y0 : lit 0 < y := ⟨by simp, h.2.1, lt_of_lt_of_le h0.2.2 h.2.2⟩
  rcases val_pos_of_lt h0 with ⟨fx, px⟩ | rfl
  swap
  · rw [eq_inf_of_le h]
    rw [z]
    exact le_refl' (by decide +kernel)
  have ix := (inversesqrt_rel fx px).fin
  rcases val_pos_of_lt y0 with ⟨fy, py⟩ | rfl
  · have sx := sqrt_rel_range fx px
    have sy := sqrt_rel_range fy py
    have bx : 0 < (FloatOps.sqrt x).val := lt_of_lt_of_le (by positivity) (sqrt_bounds fx px).1
    have b : 0 < (FloatOps.sqrt y).val := lt_of_lt_of_le (by positivity) (sqrt_bounds fy py).1
    have le := key_le_iff.1 (sqrt_le' h ⟨by simp, h.1, h0.2.2.le⟩).2.2
    have f1 : (lit 1 : F32).IsFin = true := by decide +kernel
    have v1 : (lit 1 : F32).val = 1 := by decide +kernel
    unfold F.inversesqrt
    change (lit 1 : F32) / FloatOps.sqrt y ≤ lit 1 / FloatOps.sqrt x
    rw [div_fin f1 sx.fin bx.ne', div_fin f1 sy.fin b.ne']
    refine ⟨round_ne_nan _ _, round_ne_nan _ _, key_round_mono ?_ _ _⟩
    rw [v1]
    exact one_div_le_one_div_of_le bx le
  · rw [z]
    exact nonneg_iff.2 ⟨isFin_ne_nan ix, key_nonneg.2 (inversesqrt_pos fx px).le⟩

/-- one more term in a running sum -/
theorem sum_step {x y : F32} {r S g : ℝ} (fx : x.IsFin = true) (fy : y.IsFin = true) (hr : |r| ≤ S)
    (hx : |(x.val : ℝ) - r| ≤ g * S) (g0 : 0 ≤ g) (g1 : g ≤ 1 / 2) (hb : S + |(y.val : ℝ)| ≤ 2 ^ 126) :
    (x + y).IsFin = true ∧ |r + y.val| ≤ S + |(y.val : ℝ)| ∧
      |((x + y).val : ℝ) - (r + y.val)| ≤ ((1 + g) * (1 + 1 / 2 ^ 24) - 1) * (S + |(y.val : ℝ)|) := by
  have S0 : 0 ≤ S := (abs_nonneg _).trans hr
  have y0 := abs_nonneg (y.val : ℝ)
  have gS : g * S ≤ 1 / 2 * S := by gcongr
  obtain ⟨f, e⟩ := add_close (F := 0) fx fy hx (s := (y.val : ℝ)) (by simp) (by
    have : (2:ℝ) ^ 126 * 2 = 2 ^ 127 := by norm_num
    linarith)
  refine ⟨f, (abs_add_le _ _).trans (by linarith), e.trans ?_⟩
  have : g * S ≤ g * (S + |(y.val : ℝ)|) := by gcongr; linarith
  have : (|r| + |(y.val : ℝ)| + (g * S + 0)) / 2 ^ 24 ≤ (S + |(y.val : ℝ)| + g * (S + |(y.val : ℝ)|)) / 2 ^ 24 := by
    gcongr
    linarith
  calc _ ≤ g * (S + |(y.val : ℝ)|) + (S + |(y.val : ℝ)| + g * (S + |(y.val : ℝ)|)) / 2 ^ 24 := by linarith
    _ = _ := by ring

theorem fin_add_ne_nan {a c : F32} (hc : c.IsFin = true) (ha : a ≠ .nan) : a + c ≠ .nan := by
  rcases a with _ | s | ⟨s, k, hk⟩
  · exact absurd rfl ha
  · rcases c with _ | t | ⟨t, m, hm⟩
    · cases hc
    · cases hc
    · exact fun h => by cases h
  · exact add_fin_ne_nan rfl (isFin_ne_nan hc)

end Zcm.F32
