import Verif.Lemmas.F32Horner
import Verif.Lemmas.F32Weighted
import Verif.Model.Mat
import Verif.Model.QuatBasic
import Verif.Spec.Coord

/-!
# C142  Weighted sums and blends

`weighted`, `exactWeighted` and `AccurateWeighted` are in Spec/Weighted.lean.
-/

set_option exponentiation.threshold 300

namespace Zcm

open F32

private theorem weighted_map {V : Type} [HMul V F32 V] [Add V] (c : V → F32) (h : ∀ (x y : V) (w : F32), c (x + y * w) = c x + c y * w)
    (l : List (V × F32)) : ∀ p, c (weighted p l) = weighted (c p) (termsOf c l) := by
  unfold weighted termsOf
  induction l with
  | nil => intro p; rfl
  | cons t l ih => intro p; rw [List.map_cons, List.foldl_cons, List.foldl_cons, ih, h]

/-- The weights are finite, not negative, and their exact sum is 1. -/
def Weights (ws : List F32) : Prop :=
  (∀ w ∈ ws, w.IsFin = true ∧ (0 : ℝ) ≤ w.val) ∧ (ws.map fun w => (w.val : ℝ)).sum = 1

/-- C142, `float`: `r = p; r = r + v0 * w0; r = r + v1 * w1; ...` gives the weighted sum accurately, for any number of terms. -/
theorem C142_float (p : F32) (l : List (F32 × F32)) : AccurateWeighted (weighted p l) p l := accurate_weighted p l

private theorem blend_bounds {l : List (F32 × F32)} {lo hi M : ℝ} (h0 : ∀ w ∈ l.map Prod.snd, (0 : ℝ) ≤ w.val)
    (hv : ∀ t ∈ l, lo ≤ (t.1.val : ℝ) ∧ (t.1.val : ℝ) ≤ hi) (hM : ∀ t ∈ l, |(t.1.val : ℝ)| ≤ M) :
    lo * ((l.map Prod.snd).map fun w => (w.val : ℝ)).sum ≤ exactWeighted (lit 0) l ∧
    exactWeighted (lit 0) l ≤ hi * ((l.map Prod.snd).map fun w => (w.val : ℝ)).sum ∧
    weightedSize (lit 0) l ≤ M * ((l.map Prod.snd).map fun w => (w.val : ℝ)).sum + l.length / 2 ^ 125 := by
  have v0 : (lit 0 : F32).val = 0 := by decide +kernel
  induction l using List.reverseRecOn with
  | nil => simp [exactWeighted, weightedSize, v0]
  | append_singleton l t ih =>
    obtain ⟨a, b, c⟩ := ih (fun w hw => h0 w (by rw [List.map_append]; exact List.mem_append_left _ hw))
      (fun s hs => hv s (List.mem_append_left _ hs)) (fun s hs => hM s (List.mem_append_left _ hs))
    have m : t ∈ l ++ [t] := List.mem_append_right _ (List.mem_singleton.2 rfl)
    have w0 := h0 t.2 (List.mem_map_of_mem m)
    obtain ⟨p, q⟩ := hv t m
    have r := hM t m
    rw [exactWeighted_append, weightedSize_append, List.map_append, List.map_append, List.sum_append, List.length_append]
    simp only [List.map_cons, List.map_nil, List.sum_cons, List.sum_nil, add_zero, List.length_singleton]
    push_cast
    rw [abs_mul, abs_of_nonneg w0]
    have p' := mul_le_mul_of_nonneg_right p w0
    have q' := mul_le_mul_of_nonneg_right q w0
    have r' := mul_le_mul_of_nonneg_right r w0
    refine ⟨by linarith, by linarith, ?_⟩
    rw [add_div]
    linarith

/-- C142, `float`: a blend.  With up to `2^15` weights that are not negative and add up to 1, the result is finite and leaves the
range of the blended values by no more than `n * 2^-22` of their largest magnitude. -/
theorem C142_blend (l : List (F32 × F32)) (hn : l.length + 1 ≤ 2 ^ 15) (hw : Weights (l.map Prod.snd)) (lo hi M : ℝ) (hM0 : M ≤ 2 ^ 120)
    (hv : ∀ t ∈ l, t.1.IsFin = true ∧ lo ≤ (t.1.val : ℝ) ∧ (t.1.val : ℝ) ≤ hi ∧ |(t.1.val : ℝ)| ≤ M) :
    (weighted (lit 0) l).IsFin = true ∧
    lo - (l.length + 1) / 2 ^ 22 * (M + 1 / 2 ^ 110) ≤ ((weighted (lit 0) l).val : ℝ) ∧
    ((weighted (lit 0) l).val : ℝ) ≤ hi + (l.length + 1) / 2 ^ 22 * (M + 1 / 2 ^ 110) := by
  obtain ⟨a, b, c⟩ := blend_bounds (fun w h => (hw.1 w h).2) (fun t h => ⟨(hv t h).2.1, (hv t h).2.2.1⟩) (fun t h => (hv t h).2.2.2)
  rw [hw.2, mul_one] at a b c
  have M0 : 0 ≤ M := by
    rcases l with _ | ⟨t, l⟩
    · exact absurd hw.2 (by simp)
    · exact (abs_nonneg _).trans (hv t (List.mem_cons_self ..)).2.2.2
  have n1 : (l.length : ℝ) + 1 ≤ 2 ^ 15 := by exact_mod_cast hn
  have c' : weightedSize (lit 0) l ≤ M + 1 / 2 ^ 110 := c.trans (by norm_num at n1 ⊢; linarith)
  obtain ⟨g1, g2⟩ := horner_growth (n := l.length + 1) hn
  have g3 : (1 + 1 / 2 ^ 24 : ℝ) ^ (l.length + 1) ≤ (1 + 1 / 2 ^ 24) ^ (2 * (l.length + 1)) :=
    pow_le_pow_right₀ (by norm_num) (by omega)
  have g4 : (1 : ℝ) ≤ (1 + 1 / 2 ^ 24) ^ (l.length + 1) := one_le_pow₀ (by norm_num)
  have S0 : 0 ≤ weightedSize (lit 0) l := (abs_nonneg _).trans (abs_exactWeighted_le _ l)
  have f : (weighted (lit 0) l).IsFin = true := (C142_float (lit 0) l).2 (by decide +kernel)
    (fun t h => ⟨(hv t h).1, (hw.1 t.2 (List.mem_map_of_mem h)).1⟩) (by
      calc (1 + 1 / 2 ^ 24) ^ (l.length + 1) * weightedSize (lit 0) l ≤ 1.01 * (2 ^ 120 + 1 / 2 ^ 110) := by
            refine mul_le_mul (g3.trans g1) (c'.trans (by linarith)) S0 (by norm_num)
        _ ≤ _ := by norm_num)
  have e := (C142_float (lit 0) l).1 f
  have k : ((1 + 1 / 2 ^ 24 : ℝ) ^ (l.length + 1) - 1) * weightedSize (lit 0) l ≤ (l.length + 1) / 2 ^ 22 * (M + 1 / 2 ^ 110) := by
    push_cast at g2
    refine mul_le_mul (by linarith) c' S0 (by positivity)
  have e' := abs_le.1 (e.trans k)
  exact ⟨f, by linarith [e'.1], by linarith [e'.2]⟩

/-- C142, `vec2`: a weighted sum of vectors is accurate in every component. -/
theorem C142_vec2 (p : V2 F32) (l : List (V2 F32 × F32)) (i : Fin 2) :
    AccurateWeighted (coord (weighted p l) i) (coord p i) (termsOf (fun v => coord v i) l) := by
  rw [weighted_map (fun v : V2 F32 => coord v i) fun x y w => by fin_cases i <;> rfl]
  exact accurate_weighted _ _

/-- C142, `vec3`: a weighted sum of vectors is accurate in every component. -/
theorem C142_vec3 (p : V3 F32) (l : List (V3 F32 × F32)) (i : Fin 3) :
    AccurateWeighted (coord (weighted p l) i) (coord p i) (termsOf (fun v => coord v i) l) := by
  rw [weighted_map (fun v : V3 F32 => coord v i) fun x y w => by fin_cases i <;> rfl]
  exact accurate_weighted _ _

/-- C142, `vec4`: a weighted sum of vectors is accurate in every component. -/
theorem C142_vec4 (p : V4 F32) (l : List (V4 F32 × F32)) (i : Fin 4) :
    AccurateWeighted (coord (weighted p l) i) (coord p i) (termsOf (fun v => coord v i) l) := by
  rw [weighted_map (fun v : V4 F32 => coord v i) fun x y w => by fin_cases i <;> rfl]
  exact accurate_weighted _ _

/-- C142, `vec2`: a blend of vectors stays in their bounding box up to rounding errors, in every component. -/
theorem C142_blend_vec2 (l : List (V2 F32 × F32)) (hn : l.length + 1 ≤ 2 ^ 15) (hw : Weights (l.map Prod.snd)) (i : Fin 2)
    (lo hi M : ℝ) (hM : M ≤ 2 ^ 120)
    (hv : ∀ t ∈ l, (coord t.1 i).IsFin = true ∧ lo ≤ ((coord t.1 i).val : ℝ) ∧ ((coord t.1 i).val : ℝ) ≤ hi ∧
      |((coord t.1 i).val : ℝ)| ≤ M) :
    (coord (weighted (V2.splat (lit 0)) l) i).IsFin = true ∧
    lo - (l.length + 1) / 2 ^ 22 * (M + 1 / 2 ^ 110) ≤ ((coord (weighted (V2.splat (lit 0)) l) i).val : ℝ) ∧
    ((coord (weighted (V2.splat (lit 0)) l) i).val : ℝ) ≤ hi + (l.length + 1) / 2 ^ 22 * (M + 1 / 2 ^ 110) := by
  rw [weighted_map (fun v : V2 F32 => coord v i) fun x y w => by fin_cases i <;> rfl]
  have z : coord (V2.splat (lit 0 : F32)) i = lit 0 := by fin_cases i <;> rfl
  have len : (termsOf (fun v : V2 F32 => coord v i) l).length = l.length := List.length_map _
  have h := C142_blend (termsOf (fun v : V2 F32 => coord v i) l) (by rwa [len])
    (by unfold termsOf; rw [List.map_map]; exact hw) lo hi M hM (fun t ht => by
      obtain ⟨s, hs, rfl⟩ := List.mem_map.1 ht
      exact hv s hs)
  rw [z]
  rwa [len] at h

/-- C142, `vec3`: a blend of vectors stays in their bounding box up to rounding errors, in every component. -/
theorem C142_blend_vec3 (l : List (V3 F32 × F32)) (hn : l.length + 1 ≤ 2 ^ 15) (hw : Weights (l.map Prod.snd)) (i : Fin 3)
    (lo hi M : ℝ) (hM : M ≤ 2 ^ 120)
    (hv : ∀ t ∈ l, (coord t.1 i).IsFin = true ∧ lo ≤ ((coord t.1 i).val : ℝ) ∧ ((coord t.1 i).val : ℝ) ≤ hi ∧
      |((coord t.1 i).val : ℝ)| ≤ M) :
    (coord (weighted (V3.splat (lit 0)) l) i).IsFin = true ∧
    lo - (l.length + 1) / 2 ^ 22 * (M + 1 / 2 ^ 110) ≤ ((coord (weighted (V3.splat (lit 0)) l) i).val : ℝ) ∧
    ((coord (weighted (V3.splat (lit 0)) l) i).val : ℝ) ≤ hi + (l.length + 1) / 2 ^ 22 * (M + 1 / 2 ^ 110) := by
  rw [weighted_map (fun v : V3 F32 => coord v i) fun x y w => by fin_cases i <;> rfl]
  have z : coord (V3.splat (lit 0 : F32)) i = lit 0 := by fin_cases i <;> rfl
  have len : (termsOf (fun v : V3 F32 => coord v i) l).length = l.length := List.length_map _
  have h := C142_blend (termsOf (fun v : V3 F32 => coord v i) l) (by rwa [len])
    (by unfold termsOf; rw [List.map_map]; exact hw) lo hi M hM (fun t ht => by
      obtain ⟨s, hs, rfl⟩ := List.mem_map.1 ht
      exact hv s hs)
  rw [z]
  rwa [len] at h

/-- C142, `vec4`: a blend of vectors stays in their bounding box up to rounding errors, in every component. -/
theorem C142_blend_vec4 (l : List (V4 F32 × F32)) (hn : l.length + 1 ≤ 2 ^ 15) (hw : Weights (l.map Prod.snd)) (i : Fin 4)
    (lo hi M : ℝ) (hM : M ≤ 2 ^ 120)
    (hv : ∀ t ∈ l, (coord t.1 i).IsFin = true ∧ lo ≤ ((coord t.1 i).val : ℝ) ∧ ((coord t.1 i).val : ℝ) ≤ hi ∧
      |((coord t.1 i).val : ℝ)| ≤ M) :
    (coord (weighted (V4.splat (lit 0)) l) i).IsFin = true ∧
    lo - (l.length + 1) / 2 ^ 22 * (M + 1 / 2 ^ 110) ≤ ((coord (weighted (V4.splat (lit 0)) l) i).val : ℝ) ∧
    ((coord (weighted (V4.splat (lit 0)) l) i).val : ℝ) ≤ hi + (l.length + 1) / 2 ^ 22 * (M + 1 / 2 ^ 110) := by
  rw [weighted_map (fun v : V4 F32 => coord v i) fun x y w => by fin_cases i <;> rfl]
  have z : coord (V4.splat (lit 0 : F32)) i = lit 0 := by fin_cases i <;> rfl
  have len : (termsOf (fun v : V4 F32 => coord v i) l).length = l.length := List.length_map _
  have h := C142_blend (termsOf (fun v : V4 F32 => coord v i) l) (by rwa [len])
    (by unfold termsOf; rw [List.map_map]; exact hw) lo hi M hM (fun t ht => by
      obtain ⟨s, hs, rfl⟩ := List.mem_map.1 ht
      exact hv s hs)
  rw [z]
  rwa [len] at h

/-- C142, `mat2`: a weighted sum of matrices is accurate in every entry. -/
theorem C142_mat2 (p : M2 F32) (l : List (M2 F32 × F32)) (c r : Fin 2) :
    AccurateWeighted (entry (weighted p l) c r) (entry p c r) (termsOf (fun m => entry m c r) l) := by
  rw [weighted_map (fun m : M2 F32 => entry m c r) fun x y w => by fin_cases c <;> fin_cases r <;> rfl]
  exact accurate_weighted _ _

/-- C142, `mat3`: a weighted sum of matrices is accurate in every entry. -/
theorem C142_mat3 (p : M3 F32) (l : List (M3 F32 × F32)) (c r : Fin 3) :
    AccurateWeighted (entry (weighted p l) c r) (entry p c r) (termsOf (fun m => entry m c r) l) := by
  rw [weighted_map (fun m : M3 F32 => entry m c r) fun x y w => by fin_cases c <;> fin_cases r <;> rfl]
  exact accurate_weighted _ _

/-- C142, `mat4`: a weighted sum of matrices is accurate in every entry. -/
theorem C142_mat4 (p : M4 F32) (l : List (M4 F32 × F32)) (c r : Fin 4) :
    AccurateWeighted (entry (weighted p l) c r) (entry p c r) (termsOf (fun m => entry m c r) l) := by
  rw [weighted_map (fun m : M4 F32 => entry m c r) fun x y w => by fin_cases c <;> fin_cases r <;> rfl]
  exact accurate_weighted _ _

/-- C142, `quat`: a weighted sum of quaternions is accurate in every part. -/
theorem C142_quat (p : Quat F32) (l : List (Quat F32 × F32)) :
    AccurateWeighted (weighted p l).w p.w (termsOf Quat.w l) ∧ AccurateWeighted (weighted p l).x p.x (termsOf Quat.x l) ∧
    AccurateWeighted (weighted p l).y p.y (termsOf Quat.y l) ∧ AccurateWeighted (weighted p l).z p.z (termsOf Quat.z l) := by
  refine ⟨?_, ?_, ?_, ?_⟩
  · rw [weighted_map Quat.w fun x y w => rfl]; exact accurate_weighted _ _
  · rw [weighted_map Quat.x fun x y w => rfl]; exact accurate_weighted _ _
  · rw [weighted_map Quat.y fun x y w => rfl]; exact accurate_weighted _ _
  · rw [weighted_map Quat.z fun x y w => rfl]; exact accurate_weighted _ _

/-- The midpoint of an edge and a corner, weights 1/2, 1/4, 1/4. -/
example : let l : List (V3 F32 × F32) := [(⟨lit 0, lit 1, lit 2⟩, lit 0.5), (⟨lit 4, lit 5, lit 6⟩, lit 0.25), (⟨lit 8, lit 9, lit 10⟩, lit 0.25)]
    Weights (l.map Prod.snd) ∧ (∀ t ∈ l, (coord t.1 2).IsFin = true ∧ (2 : ℝ) ≤ (coord t.1 2).val ∧ ((coord t.1 2).val : ℝ) ≤ 10 ∧
      |((coord t.1 2).val : ℝ)| ≤ 10) ∧ (coord (weighted (V3.splat (lit 0)) l) 2).val = 5 := by
  intro l
  have v5 : (lit 0.5 : F32).val = 1 / 2 := by decide +kernel
  have v25 : (lit 0.25 : F32).val = 1 / 4 := by decide +kernel
  refine ⟨⟨?_, ?_⟩, ?_, by decide +kernel⟩
  · intro w hw
    have hw : w ∈ [(lit 0.5 : F32), lit 0.25, lit 0.25] := hw
    fin_cases hw
    · exact ⟨by decide +kernel, by rw [v5]; norm_num⟩
    · exact ⟨by decide +kernel, by rw [v25]; norm_num⟩
    · exact ⟨by decide +kernel, by rw [v25]; norm_num⟩
  · change (([(lit 0.5 : F32), lit 0.25, lit 0.25]).map fun w => (w.val : ℝ)).sum = 1
    simp only [List.map_cons, List.map_nil, List.sum_cons, List.sum_nil, v5, v25]
    norm_num
  · have v2 : (lit 2 : F32).val = 2 := by decide +kernel
    have v6 : (lit 6 : F32).val = 6 := by decide +kernel
    have v10 : (lit 10 : F32).val = 10 := by decide +kernel
    intro t ht
    simp only [l, List.mem_cons, List.not_mem_nil, or_false] at ht
    rcases ht with rfl | rfl | rfl
    · change (lit 2 : F32).IsFin = true ∧ (2 : ℝ) ≤ (lit 2 : F32).val ∧ ((lit 2 : F32).val : ℝ) ≤ 10 ∧ |((lit 2 : F32).val : ℝ)| ≤ 10
      refine ⟨by decide +kernel, ?_⟩
      rw [v2]; norm_num
    · change (lit 6 : F32).IsFin = true ∧ (2 : ℝ) ≤ (lit 6 : F32).val ∧ ((lit 6 : F32).val : ℝ) ≤ 10 ∧ |((lit 6 : F32).val : ℝ)| ≤ 10
      refine ⟨by decide +kernel, ?_⟩
      rw [v6]; norm_num
    · change (lit 10 : F32).IsFin = true ∧ (2 : ℝ) ≤ (lit 10 : F32).val ∧ ((lit 10 : F32).val : ℝ) ≤ 10 ∧ |((lit 10 : F32).val : ℝ)| ≤ 10
      refine ⟨by decide +kernel, ?_⟩
      rw [v10]; norm_num

end Zcm
