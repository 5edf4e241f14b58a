import Verif.Spec.Coord
import Verif.Lemmas.F32
import Verif.Model.Common

/-!
# C26: step and smoothstep
-/

namespace Zcm

open F32

/-- C26, `step` on floats (a NaN makes the comparison false, hence gives 1). -/
theorem C26_step_float (edge x : F32) :
    (x < edge → F.step edge x = lit 0) ∧ (edge ≤ x → F.step edge x = lit 1) ∧
    ((edge = .nan ∨ x = .nan) → F.step edge x = lit 1) := by
  refine ⟨fun h => if_pos h, fun h => if_neg fun h' => ?_, ?_⟩
  · have h1 := h.2.2
    have h2 := h'.2.2
    omega
  · rintro (rfl | rfl) <;> simp [F.step]

/-- C26, `step` on reals. -/
theorem C26_step_real (edge x : ℝ) :
    (x < edge → F.step edge x = 0) ∧ (edge ≤ x → F.step edge x = 1) := by
  unfold F.step
  exact ⟨fun h => by simp [h], fun h => by simp [not_lt.2 h]⟩

theorem smoothstep_real (a b x : ℝ) : F.smoothstep a b x =
    (min (max ((x - a) / (b - a)) 0) 1) ^ 2 * (3 - 2 * min (max ((x - a) / (b - a)) 0) 1) := by
  have hc : ∀ z : ℝ, F.clamp z (lit 0) (lit 1) = min (max z 0) 1 := by
    intro z
    unfold F.clamp F.min F.max
    simp only [lit_real, Rat.cast_zero, Rat.cast_one]
    rcases le_or_gt 0 z with h | h
    · rw [if_neg (not_lt.2 h), max_eq_left h]
      rcases le_or_gt z 1 with h' | h'
      · rw [if_neg (not_lt.2 h'), min_eq_left h']
      · rw [if_pos h', min_eq_right h'.le]
    · rw [if_pos h, max_eq_right h.le]; norm_num
  unfold F.smoothstep
  rw [hc]
  simp only [lit_real, Rat.cast_ofNat]
  ring

theorem poly_mono {s t : ℝ} (h0 : 0 ≤ s) (h : s ≤ t) (h1 : t ≤ 1) :
    s ^ 2 * (3 - 2 * s) ≤ t ^ 2 * (3 - 2 * t) := by
  have h2 : t ^ 2 * (3 - 2 * t) - s ^ 2 * (3 - 2 * s) =
      (t - s) * (3 * (t + s) - 2 * (t ^ 2 + t * s + s ^ 2)) := by ring
  have h3 : 0 ≤ 3 * (t + s) - 2 * (t ^ 2 + t * s + s ^ 2) := by nlinarith
  nlinarith [mul_nonneg (sub_nonneg.2 h) h3]

/-- C26, `smoothstep` in exact arithmetic. -/
theorem C26_smoothstep (a b x y : ℝ) (hab : a < b) :
    (x ≤ a → F.smoothstep a b x = 0) ∧ (b ≤ x → F.smoothstep a b x = 1) ∧
    0 ≤ F.smoothstep a b x ∧ F.smoothstep a b x ≤ 1 ∧
    (x ≤ y → F.smoothstep a b x ≤ F.smoothstep a b y) ∧
    F.smoothstep a b ((a + b) - x) = 1 - F.smoothstep a b x := by
  have hd : 0 < b - a := sub_pos.2 hab
  simp only [smoothstep_real]
  have hr : ∀ z : ℝ, 0 ≤ min (max z 0) 1 ∧ min (max z 0) 1 ≤ 1 := fun z =>
    ⟨le_min (le_max_right _ _) zero_le_one, min_le_right _ _⟩
  refine ⟨fun h => ?_, fun h => ?_, ?_, ?_, fun h => ?_, ?_⟩
  · have : (x - a) / (b - a) ≤ 0 := div_nonpos_of_nonpos_of_nonneg (by linarith) hd.le
    rw [max_eq_right this]; norm_num
  · have : 1 ≤ (x - a) / (b - a) := by rw [le_div_iff₀ hd]; linarith
    rw [min_eq_right (le_max_of_le_left this)]; norm_num
  · have := hr ((x - a) / (b - a))
    nlinarith [sq_nonneg (min (max ((x - a) / (b - a)) 0) 1)]
  · have := hr ((x - a) / (b - a))
    have h2 := poly_mono this.1 this.2 le_rfl
    linarith
  · apply poly_mono (hr _).1 _ (hr _).2
    gcongr
  · have e : (a + b - x - a) / (b - a) = 1 - (x - a) / (b - a) := by field_simp; ring
    rw [e]
    generalize (x - a) / (b - a) = z
    have : min (max (1 - z) 0) 1 = 1 - min (max z 0) 1 := by
      rcases le_total z 0 with h | h
      · rw [max_eq_right h, max_eq_left (by linarith), min_eq_right (by linarith)]; norm_num
      · rw [max_eq_left h]
        rcases le_total z 1 with h' | h'
        · rw [max_eq_left (by linarith), min_eq_left (by linarith), min_eq_left h']
        · rw [max_eq_right (by linarith), min_eq_right h']; norm_num
    rw [this]; ring

/-- C26, the `vec2` overloads act per component, in any arithmetic. -/
theorem C26_vec2 {α : Type} [Add α] [Sub α] [Mul α] [Div α] [FloatOps α] [LT α] [DecidableLT α]
    (a b x : V2 α) (i : Fin 2) :
    coord (V2.step a x) i = F.step (coord a i) (coord x i) ∧
    coord (V2.smoothstep a b x) i = F.smoothstep (coord a i) (coord b i) (coord x i) := by
  fin_cases i <;> exact ⟨rfl, rfl⟩

/-- C26, the `vec3` overloads act per component, in any arithmetic. -/
theorem C26_vec3 {α : Type} [Add α] [Sub α] [Mul α] [Div α] [FloatOps α] [LT α] [DecidableLT α]
    (a b x : V3 α) (i : Fin 3) :
    coord (V3.step a x) i = F.step (coord a i) (coord x i) ∧
    coord (V3.smoothstep a b x) i = F.smoothstep (coord a i) (coord b i) (coord x i) := by
  fin_cases i <;> exact ⟨rfl, rfl⟩

/-- C26, the `vec4` overloads act per component, in any arithmetic. -/
theorem C26_vec4 {α : Type} [Add α] [Sub α] [Mul α] [Div α] [FloatOps α] [LT α] [DecidableLT α]
    (a b x : V4 α) (i : Fin 4) :
    coord (V4.step a x) i = F.step (coord a i) (coord x i) ∧
    coord (V4.smoothstep a b x) i = F.smoothstep (coord a i) (coord b i) (coord x i) := by
  fin_cases i <;> exact ⟨rfl, rfl⟩

/-- Non-vacuity. -/
example : F.smoothstep (2 : ℝ) 6 3 = 5 / 32 := by
  rw [smoothstep_real]; norm_num

end Zcm
