import Verif.Lemmas.F32Approx
import Verif.Spec.Weighted

/-!
# Weighted sums in float arithmetic
-/

set_option exponentiation.threshold 300

namespace Zcm

open F32

theorem exactWeighted_append (p : F32) (l : List (F32 × F32)) (t : F32 × F32) :
    exactWeighted p (l ++ [t]) = exactWeighted p l + t.1.val * t.2.val := by
  unfold exactWeighted
  rw [List.map_append, List.sum_append]
  simp
  ring

theorem weightedSize_append (p : F32) (l : List (F32 × F32)) (t : F32 × F32) :
    weightedSize p (l ++ [t]) = weightedSize p l + (|(t.1.val : ℝ) * t.2.val| + 1 / 2 ^ 125) := by
  unfold weightedSize
  rw [List.map_append, List.sum_append]
  simp
  ring

theorem abs_exactWeighted_le (p : F32) (l : List (F32 × F32)) : |exactWeighted p l| ≤ weightedSize p l := by
  induction l using List.reverseRecOn with
  | nil => simp [exactWeighted, weightedSize]
  | append_singleton l t ih =>
    rw [exactWeighted_append, weightedSize_append]
    refine (abs_add_le _ _).trans ?_
    have : (0 : ℝ) ≤ 1 / 2 ^ 125 := by positivity
    linarith

/-- one step of a weighted sum -/
theorem weighted_step {x v w : F32} {X T g : ℝ} (hg : 1 + 1 / 2 ^ 24 ≤ g) (hX : |X| ≤ T) (he : |(x.val : ℝ) - X| ≤ (g - 1) * T)
    (hf : (x + v * w).IsFin = true) :
    |((x + v * w).val : ℝ) - (X + v.val * w.val)| ≤
      (g * (1 + 1 / 2 ^ 24) - 1) * (T + (|(v.val : ℝ) * w.val| + 1 / 2 ^ 125)) := by
  obtain ⟨fx, fp⟩ := isFin_of_add hf
  obtain ⟨fv, fw⟩ := isFin_of_mul fp
  have e1 := (Rat.cast_le (K := ℝ)).2 (mul_error fv fw fp)
  have e2 := (Rat.cast_le (K := ℝ)).2 (add_error_rel hf)
  push_cast at e1 e2
  generalize ((x + v * w).val : ℝ) = r at *
  generalize ((v * w).val : ℝ) = p at *
  generalize (v.val : ℝ) * w.val = m at *
  generalize (x.val : ℝ) = y at *
  have T0 : 0 ≤ T := (abs_nonneg X).trans hX
  have hy : |y| ≤ g * T := by
    have := abs_add_le (y - X) X
    rw [sub_add_cancel] at this
    linarith
  have hp : |p| ≤ (1 + 1 / 2 ^ 24) * |m| + 1 / 2 ^ 150 := by
    have := abs_add_le (p - m) m
    rw [sub_add_cancel] at this
    linarith
  have yp : |y + p| ≤ |y| + |p| := abs_add_le _ _
  have tri : |r - (X + m)| ≤ |r - (y + p)| + (|y - X| + |p - m|) := by
    have : r - (X + m) = (r - (y + p)) + ((y - X) + (p - m)) := by ring
    rw [this]
    exact (abs_add_le _ _).trans (add_le_add le_rfl (abs_add_le _ _))
  have m0 := abs_nonneg m
  have w : ((1 + 1 / 2 ^ 24) * (1 + 1 / 2 ^ 24) - 1) * (|m| + 1 / 2 ^ 125) ≤ (g * (1 + 1 / 2 ^ 24) - 1) * (|m| + 1 / 2 ^ 125) := by
    gcongr
  rw [mul_add]
  have ex : (g * (1 + 1 / 2 ^ 24) - 1) * T = g * T * (1 + 1 / 2 ^ 24) - T := by ring
  have ex2 : (g - 1) * T = g * T - T := by ring
  rw [ex]
  rw [ex2] at he
  generalize (g * (1 + 1 / 2 ^ 24) - 1) * (|m| + 1 / 2 ^ 125) = Z at *
  generalize g * T = Q at *
  generalize |m| = D at *
  norm_num at *
  linarith

theorem weighted_snoc (p : F32) (l : List (F32 × F32)) (t : F32 × F32) : weighted p (l ++ [t]) = weighted p l + t.1 * t.2 := by
  unfold weighted; rw [List.foldl_append, List.foldl_cons, List.foldl_nil]

theorem weighted_error {p : F32} {l : List (F32 × F32)} (h : (weighted p l).IsFin = true) :
    |((weighted p l).val : ℝ) - exactWeighted p l| ≤ ((1 + 1 / 2 ^ 24) ^ (l.length + 1) - 1) * weightedSize p l := by
  induction l using List.reverseRecOn with
  | nil =>
    simp only [weighted, exactWeighted, List.foldl_nil, List.map_nil, List.sum_nil, add_zero, sub_self, abs_zero, weightedSize,
      List.length_nil]
    have := abs_nonneg (p.val : ℝ)
    norm_num
  | append_singleton l t ih =>
    rw [weighted_snoc] at h ⊢
    rw [exactWeighted_append, weightedSize_append, List.length_append, List.length_singleton, pow_succ _ (l.length + 1)]
    refine weighted_step ?_ (abs_exactWeighted_le _ _) (ih (isFin_of_add h).1) h
    exact le_self_pow₀ (by norm_num) (by omega)

theorem weighted_isFin {p : F32} {l : List (F32 × F32)} (fp : p.IsFin = true) (fl : ∀ t ∈ l, t.1.IsFin = true ∧ t.2.IsFin = true)
    (h : (1 + 1 / 2 ^ 24) ^ (l.length + 1) * weightedSize p l ≤ 2 ^ 126) : (weighted p l).IsFin = true := by
  induction l using List.reverseRecOn with
  | nil => exact fp
  | append_singleton l t ih =>
    rw [weightedSize_append, List.length_append, List.length_singleton, pow_succ _ (l.length + 1)] at h
    have T0 : 0 ≤ weightedSize p l := (abs_nonneg _).trans (abs_exactWeighted_le p l)
    have m0 := abs_nonneg ((t.1.val : ℝ) * t.2.val)
    have g : (1 : ℝ) + 1 / 2 ^ 24 ≤ (1 + 1 / 2 ^ 24) ^ (l.length + 1) := le_self_pow₀ (by norm_num) (by omega)
    have q0 : (0 : ℝ) ≤ 1 / 2 ^ 125 := by positivity
    have h' : (1 + 1 / 2 ^ 24) ^ (l.length + 1) * weightedSize p l +
        (1 + 1 / 2 ^ 24) * (|(t.1.val : ℝ) * t.2.val| + 1 / 2 ^ 125) ≤ 2 ^ 126 := by
      refine le_trans ?_ h
      have e : ∀ G T q : ℝ, G * (1 + 1 / 2 ^ 24) * (T + q) = G * ((1 + 1 / 2 ^ 24) * T) + G * ((1 + 1 / 2 ^ 24) * q) := fun _ _ _ => by ring
      rw [e]
      refine add_le_add ?_ ?_
      · gcongr
        linarith
      · refine mul_le_mul g ?_ (by positivity) (by positivity)
        linarith
    have gT : 0 ≤ (1 + 1 / 2 ^ 24 : ℝ) ^ (l.length + 1) * weightedSize p l := by positivity
    have f := ih (fun s hs => fl s (List.mem_append_left _ hs)) (by linarith)
    obtain ⟨fv, fw⟩ := fl t (List.mem_append_right _ (List.mem_singleton.2 rfl))
    have e := weighted_error f
    have a := abs_exactWeighted_le p l
    rw [weighted_snoc]
    have fm : (t.1 * t.2).IsFin = true := by
      refine isFin_mul_of_le fv fw ((Rat.cast_le (K := ℝ)).1 ?_)
      push_cast
      linarith
    have e1 := (Rat.cast_le (K := ℝ)).2 (mul_error fv fw fm)
    push_cast at e1
    rw [add_fin f fm]
    refine isFin_round ((Rat.cast_le (K := ℝ)).1 ?_)
    push_cast
    have t1 := abs_add_le ((weighted p l).val : ℝ) ((t.1 * t.2).val : ℝ)
    have t2 := abs_add_le (((weighted p l).val : ℝ) - exactWeighted p l) (exactWeighted p l)
    have t3 := abs_add_le (((t.1 * t.2).val : ℝ) - t.1.val * t.2.val) ((t.1.val : ℝ) * t.2.val)
    rw [sub_add_cancel] at t2 t3
    have ex : ((1 + 1 / 2 ^ 24 : ℝ) ^ (l.length + 1) - 1) * weightedSize p l =
      (1 + 1 / 2 ^ 24) ^ (l.length + 1) * weightedSize p l - weightedSize p l := by ring
    rw [ex] at e
    generalize (1 + 1 / 2 ^ 24 : ℝ) ^ (l.length + 1) * weightedSize p l = G at *
    generalize |(t.1.val : ℝ) * t.2.val| = M at *
    generalize |((weighted p l).val : ℝ) + (t.1 * t.2).val| = R at *
    generalize |((t.1 * t.2).val : ℝ) - t.1.val * t.2.val| = E at *
    clear h
    norm_num at *
    linarith

theorem accurate_weighted (p : F32) (l : List (F32 × F32)) : AccurateWeighted (weighted p l) p l :=
  ⟨weighted_error, weighted_isFin⟩

end Zcm
