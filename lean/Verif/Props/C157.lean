import Verif.Spec.Coord
import Verif.Props.C82
import Verif.Props.C85
import Verif.Lemmas.F32Approach
import Verif.Lemmas.F32Axis
import Mathlib.Tactic.FinCases

/-!
# C157  Moving to a target by steps of a given length

The caller's loop and `GoodApproach` are in `Spec/Approach`.
-/

set_option exponentiation.threshold 300

namespace Zcm

open F32

private theorem tiny_coord {x y : F32} {D : ℝ} (fx : x.IsFin = true) (fy : y.IsFin = true) (h : |(x.val : ℝ) - y.val| ≤ D) (hD : D < 1 / 2 ^ 49) :
    F.abs (x - y) ≤ lit (1 / 2 ^ 44) := by
  have r := rel_sub fx fy (h.trans (hD.le.trans (by norm_num)))
  have b := r.abs_le
  have fa := isFin_fabs r.fin
  have fl : (lit (1 / 2 ^ 44) : F32).IsFin = true ∧ (lit (1 / 2 ^ 44) : F32).val = 1 / 2 ^ 44 := ⟨by decide +kernel, by decide +kernel⟩
  refine ⟨isFin_ne_nan fa, isFin_ne_nan fl.1, key_le_iff.2 ?_⟩
  rw [fl.2, val_fabsQ]
  have : ((|(x - y).val| : ℚ) : ℝ) ≤ ((1 / 2 ^ 44 : ℚ) : ℝ) := by
    push_cast
    refine b.trans ?_
    norm_num at *
    linarith
  exact_mod_cast this

private theorem round2 (target : V2 F32) (step : F32) (p : V2 F32) (g : GoodApproach (coord target) step (coord p)) :
    (approach2 target step p = target ∨ GoodApproach (coord target) step (coord (approach2 target step p)) ∧
      ‖exactE (coord target) - exactE (coord (approach2 target step p))‖ ≤ ‖exactE (coord target) - exactE (coord p)‖ - 7 / 8 * step.val) ∧
    ‖exactE (coord (approach2 target step p)) - exactE (coord p)‖ ≤ 9 / 8 * step.val ∧
    (∀ i, (coord (approach2 target step p) i).IsFin = true) := by
  refine approach_round (L := V2.length (target - p)) coord target p _ (by norm_num) g
    (fun h1 h2 => C82_distance_vec2 target p g.fin_target g.fin_p h1 h2) (fun h => ?_) (fun h => ?_) (fun h i => ?_)
  · have c : ∀ i, F.abs (coord (target - p) i) ≤ F.abs (coord (V2.splat (lit (1 / 2 ^ 44)) : V2 F32) i) := by
      intro i
      have t := tiny_coord (g.fin_target i) (g.fin_p i) (abs_coord_le (exactE (coord target) - exactE (coord p)) i)
        (by rw [← exactDistance_norm]; exact h)
      have e : F.abs (lit (1 / 2 ^ 44) : F32) = lit (1 / 2 ^ 44) := by decide +kernel
      fin_cases i
      · exact le_of_le_of_eq t e.symm
      · exact le_of_le_of_eq t e.symm
    have l := (C85_vec2_length _ _ c).2
    have k : V2.length (V2.splat (lit (1 / 2 ^ 44)) : V2 F32) ≤ lit (1 / 2 ^ 40) := by decide +kernel
    have v : (lit (1 / 2 ^ 40) : F32).val = 1 / 2 ^ 40 := by decide +kernel
    refine ⟨l.1, isFin_ne_nan g.fin_step, (l.2.2.trans k.2.2).trans (key_le_iff.2 ?_)⟩
    rw [v]
    have := g.step_ge
    have : (((1 / 2 ^ 40 : ℚ)) : ℝ) ≤ ((step.val : ℚ) : ℝ) := by push_cast; exact this
    exact_mod_cast this
  · unfold approach2; rw [if_pos h]
  · unfold approach2; rw [if_neg h]
    fin_cases i <;> rfl

/-- C157, `vec2`: one round. It either arrives at the target, bit for bit, or comes nearer by at least 7/8 of the step; either way it moves by
no more than 9/8 of the step. -/
theorem C157_vec2_round (target : V2 F32) (step : F32) (p : V2 F32) (g : GoodApproach (coord target) step (coord p)) :
    (approach2 target step p = target ∨
      ‖exactE (coord target) - exactE (coord (approach2 target step p))‖ ≤ ‖exactE (coord target) - exactE (coord p)‖ - 7 / 8 * step.val) ∧
    ‖exactE (coord (approach2 target step p)) - exactE (coord p)‖ ≤ 9 / 8 * step.val := by
  have r := round2 target step p g
  exact ⟨r.1.imp id And.right, r.2.1⟩

private theorem stay2 (target : V2 F32) (step : F32) (p : V2 F32) (g : GoodApproach (coord target) step (coord p)) :
    approach2 target step target = target := by
  have g' : GoodApproach (coord target) step (coord target) :=
    ⟨g.fin_target, g.fin_target, g.fin_step, g.step_ge, g.step_le, by
      have := g.far
      have := norm_nonneg (exactE (coord target) - exactE (coord p))
      rw [sub_self, norm_zero]
      linarith⟩
  rcases (C157_vec2_round target step target g').1 with h | h
  · exact h
  · exfalso
    rw [sub_self (exactE (coord target)), norm_zero] at h
    have s := g.step_ge
    have := norm_nonneg (exactE (coord target) - exactE (coord (approach2 target step target)))
    have : (0 : ℝ) < 1 / 2 ^ 40 := by positivity
    linarith

/-- C157, `vec2`: the target is reached exactly and never left again. After any `k` rounds with `k` times 7/8 of the step more than the
distance at the start, the position is the target, bit for bit. -/
theorem C157_vec2_arrives (target : V2 F32) (step : F32) (p : V2 F32) (g : GoodApproach (coord target) step (coord p)) (k : ℕ)
    (hk : ‖exactE (coord target) - exactE (coord p)‖ < k * (7 / 8 * step.val)) : (approach2 target step)^[k] p = target :=
  approach_arrives coord target (approach2 target step) p
    (approach_iterate coord target (approach2 target step) (round2 target step) (stay2 target step p g) p g) k hk

/-- C157, `vec2`: on the way. After any number of rounds the position is the target or it is nearer by at least 7/8 of a step for every round. -/
theorem C157_vec2_way (target : V2 F32) (step : F32) (p : V2 F32) (g : GoodApproach (coord target) step (coord p)) (k : ℕ) :
    (approach2 target step)^[k] p = target ∨
    ‖exactE (coord target) - exactE (coord ((approach2 target step)^[k] p))‖ ≤
      ‖exactE (coord target) - exactE (coord p)‖ - k * (7 / 8 * step.val) :=
  (approach_iterate coord target (approach2 target step) (round2 target step) (stay2 target step p g) p g k).imp id And.right

/-- The hypotheses hold: from ⟨lit (-20), lit (1/3)⟩ : V2 F32 to ⟨lit 1, lit (1/10)⟩ : V2 F32 by steps of 1/10. -/
example : GoodApproach (coord (⟨lit 1, lit (1/10)⟩ : V2 F32)) (lit (1 / 10)) (coord (⟨lit (-20), lit (1/3)⟩ : V2 F32)) := by
  have bound : ∀ x : EuclideanSpace ℝ (Fin 2), (∀ i, |x i| ≤ 100) → ‖x‖ ≤ 200 := by
    intro x h
    have := norm_le_of_coords (x := x) (e := 100) h
    refine (abs_le_of_sq_le_sq' (this.trans ?_) (by norm_num)).2
    norm_num
  have fs : 1 / 16 ≤ (lit (1 / 10) : F32).val ∧ (lit (1 / 10) : F32).val ≤ 1 := ⟨by decide +kernel, by decide +kernel⟩
  have r1 : (1 / 16 : ℝ) ≤ ((lit (1 / 10) : F32).val : ℝ) := by
    have : ((1 / 16 : ℚ) : ℝ) ≤ (((lit (1 / 10) : F32).val : ℚ) : ℝ) := by exact_mod_cast fs.1
    push_cast at this; exact this
  have r2 : ((lit (1 / 10) : F32).val : ℝ) ≤ 1 := by exact_mod_cast fs.2
  have ca : ∀ i, |(coord (⟨lit 1, lit (1/10)⟩ : V2 F32) i).val| ≤ 50 := by intro i; fin_cases i <;> decide +kernel
  have cb : ∀ i, |(coord (⟨lit (-20), lit (1/3)⟩ : V2 F32) i).val| ≤ 50 := by intro i; fin_cases i <;> decide +kernel
  have n1 := bound (exactE (coord (⟨lit 1, lit (1/10)⟩ : V2 F32))) fun i => by
    have : ((|(coord (⟨lit 1, lit (1/10)⟩ : V2 F32) i).val| : ℚ) : ℝ) ≤ ((50 : ℚ) : ℝ) := by exact_mod_cast ca i
    push_cast at this
    exact this.trans (by norm_num)
  have n2 := bound (exactE (coord (⟨lit 1, lit (1/10)⟩ : V2 F32)) - exactE (coord (⟨lit (-20), lit (1/3)⟩ : V2 F32))) fun i => by
    have h1 : ((|(coord (⟨lit 1, lit (1/10)⟩ : V2 F32) i).val| : ℚ) : ℝ) ≤ ((50 : ℚ) : ℝ) := by exact_mod_cast ca i
    have h2 : ((|(coord (⟨lit (-20), lit (1/3)⟩ : V2 F32) i).val| : ℚ) : ℝ) ≤ ((50 : ℚ) : ℝ) := by exact_mod_cast cb i
    push_cast at h1 h2
    refine (abs_sub _ _).trans (le_trans (add_le_add h1 h2) (by norm_num))
  refine ⟨fun i => ?_, fun i => ?_, by decide +kernel, ?_, ?_, ?_⟩
  · fin_cases i <;> decide +kernel
  · fin_cases i <;> decide +kernel
  · exact le_trans (by norm_num) r1
  · exact r2.trans (by norm_num)
  · norm_num at *
    linarith

private theorem round3 (target : V3 F32) (step : F32) (p : V3 F32) (g : GoodApproach (coord target) step (coord p)) :
    (approach3 target step p = target ∨ GoodApproach (coord target) step (coord (approach3 target step p)) ∧
      ‖exactE (coord target) - exactE (coord (approach3 target step p))‖ ≤ ‖exactE (coord target) - exactE (coord p)‖ - 7 / 8 * step.val) ∧
    ‖exactE (coord (approach3 target step p)) - exactE (coord p)‖ ≤ 9 / 8 * step.val ∧
    (∀ i, (coord (approach3 target step p) i).IsFin = true) := by
  refine approach_round (L := V3.length (target - p)) coord target p _ (by norm_num) g
    (fun h1 h2 => C82_distance_vec3 target p g.fin_target g.fin_p h1 h2) (fun h => ?_) (fun h => ?_) (fun h i => ?_)
  · have c : ∀ i, F.abs (coord (target - p) i) ≤ F.abs (coord (V3.splat (lit (1 / 2 ^ 44)) : V3 F32) i) := by
      intro i
      have t := tiny_coord (g.fin_target i) (g.fin_p i) (abs_coord_le (exactE (coord target) - exactE (coord p)) i)
        (by rw [← exactDistance_norm]; exact h)
      have e : F.abs (lit (1 / 2 ^ 44) : F32) = lit (1 / 2 ^ 44) := by decide +kernel
      fin_cases i
      · exact le_of_le_of_eq t e.symm
      · exact le_of_le_of_eq t e.symm
      · exact le_of_le_of_eq t e.symm
    have l := (C85_vec3_length _ _ c).2
    have k : V3.length (V3.splat (lit (1 / 2 ^ 44)) : V3 F32) ≤ lit (1 / 2 ^ 40) := by decide +kernel
    have v : (lit (1 / 2 ^ 40) : F32).val = 1 / 2 ^ 40 := by decide +kernel
    refine ⟨l.1, isFin_ne_nan g.fin_step, (l.2.2.trans k.2.2).trans (key_le_iff.2 ?_)⟩
    rw [v]
    have := g.step_ge
    have : (((1 / 2 ^ 40 : ℚ)) : ℝ) ≤ ((step.val : ℚ) : ℝ) := by push_cast; exact this
    exact_mod_cast this
  · unfold approach3; rw [if_pos h]
  · unfold approach3; rw [if_neg h]
    fin_cases i <;> rfl

/-- C157, `vec3`: one round. It either arrives at the target, bit for bit, or comes nearer by at least 7/8 of the step; either way it moves by
no more than 9/8 of the step. -/
theorem C157_vec3_round (target : V3 F32) (step : F32) (p : V3 F32) (g : GoodApproach (coord target) step (coord p)) :
    (approach3 target step p = target ∨
      ‖exactE (coord target) - exactE (coord (approach3 target step p))‖ ≤ ‖exactE (coord target) - exactE (coord p)‖ - 7 / 8 * step.val) ∧
    ‖exactE (coord (approach3 target step p)) - exactE (coord p)‖ ≤ 9 / 8 * step.val := by
  have r := round3 target step p g
  exact ⟨r.1.imp id And.right, r.2.1⟩

private theorem stay3 (target : V3 F32) (step : F32) (p : V3 F32) (g : GoodApproach (coord target) step (coord p)) :
    approach3 target step target = target := by
  have g' : GoodApproach (coord target) step (coord target) :=
    ⟨g.fin_target, g.fin_target, g.fin_step, g.step_ge, g.step_le, by
      have := g.far
      have := norm_nonneg (exactE (coord target) - exactE (coord p))
      rw [sub_self, norm_zero]
      linarith⟩
  rcases (C157_vec3_round target step target g').1 with h | h
  · exact h
  · exfalso
    rw [sub_self (exactE (coord target)), norm_zero] at h
    have s := g.step_ge
    have := norm_nonneg (exactE (coord target) - exactE (coord (approach3 target step target)))
    have : (0 : ℝ) < 1 / 2 ^ 40 := by positivity
    linarith

/-- C157, `vec3`: the target is reached exactly and never left again. After any `k` rounds with `k` times 7/8 of the step more than the
distance at the start, the position is the target, bit for bit. -/
theorem C157_vec3_arrives (target : V3 F32) (step : F32) (p : V3 F32) (g : GoodApproach (coord target) step (coord p)) (k : ℕ)
    (hk : ‖exactE (coord target) - exactE (coord p)‖ < k * (7 / 8 * step.val)) : (approach3 target step)^[k] p = target :=
  approach_arrives coord target (approach3 target step) p
    (approach_iterate coord target (approach3 target step) (round3 target step) (stay3 target step p g) p g) k hk

/-- C157, `vec3`: on the way. After any number of rounds the position is the target or it is nearer by at least 7/8 of a step for every round. -/
theorem C157_vec3_way (target : V3 F32) (step : F32) (p : V3 F32) (g : GoodApproach (coord target) step (coord p)) (k : ℕ) :
    (approach3 target step)^[k] p = target ∨
    ‖exactE (coord target) - exactE (coord ((approach3 target step)^[k] p))‖ ≤
      ‖exactE (coord target) - exactE (coord p)‖ - k * (7 / 8 * step.val) :=
  (approach_iterate coord target (approach3 target step) (round3 target step) (stay3 target step p g) p g k).imp id And.right

/-- The hypotheses hold: from ⟨lit (-20), lit (1/3), lit 40⟩ : V3 F32 to ⟨lit 1, lit (1/10), lit 0⟩ : V3 F32 by steps of 1/10. -/
example : GoodApproach (coord (⟨lit 1, lit (1/10), lit 0⟩ : V3 F32)) (lit (1 / 10)) (coord (⟨lit (-20), lit (1/3), lit 40⟩ : V3 F32)) := by
  have bound : ∀ x : EuclideanSpace ℝ (Fin 3), (∀ i, |x i| ≤ 100) → ‖x‖ ≤ 200 := by
    intro x h
    have := norm_le_of_coords (x := x) (e := 100) h
    refine (abs_le_of_sq_le_sq' (this.trans ?_) (by norm_num)).2
    norm_num
  have fs : 1 / 16 ≤ (lit (1 / 10) : F32).val ∧ (lit (1 / 10) : F32).val ≤ 1 := ⟨by decide +kernel, by decide +kernel⟩
  have r1 : (1 / 16 : ℝ) ≤ ((lit (1 / 10) : F32).val : ℝ) := by
    have : ((1 / 16 : ℚ) : ℝ) ≤ (((lit (1 / 10) : F32).val : ℚ) : ℝ) := by exact_mod_cast fs.1
    push_cast at this; exact this
  have r2 : ((lit (1 / 10) : F32).val : ℝ) ≤ 1 := by exact_mod_cast fs.2
  have ca : ∀ i, |(coord (⟨lit 1, lit (1/10), lit 0⟩ : V3 F32) i).val| ≤ 50 := by intro i; fin_cases i <;> decide +kernel
  have cb : ∀ i, |(coord (⟨lit (-20), lit (1/3), lit 40⟩ : V3 F32) i).val| ≤ 50 := by intro i; fin_cases i <;> decide +kernel
  have n1 := bound (exactE (coord (⟨lit 1, lit (1/10), lit 0⟩ : V3 F32))) fun i => by
    have : ((|(coord (⟨lit 1, lit (1/10), lit 0⟩ : V3 F32) i).val| : ℚ) : ℝ) ≤ ((50 : ℚ) : ℝ) := by exact_mod_cast ca i
    push_cast at this
    exact this.trans (by norm_num)
  have n2 := bound (exactE (coord (⟨lit 1, lit (1/10), lit 0⟩ : V3 F32)) - exactE (coord (⟨lit (-20), lit (1/3), lit 40⟩ : V3 F32))) fun i => by
    have h1 : ((|(coord (⟨lit 1, lit (1/10), lit 0⟩ : V3 F32) i).val| : ℚ) : ℝ) ≤ ((50 : ℚ) : ℝ) := by exact_mod_cast ca i
    have h2 : ((|(coord (⟨lit (-20), lit (1/3), lit 40⟩ : V3 F32) i).val| : ℚ) : ℝ) ≤ ((50 : ℚ) : ℝ) := by exact_mod_cast cb i
    push_cast at h1 h2
    refine (abs_sub _ _).trans (le_trans (add_le_add h1 h2) (by norm_num))
  refine ⟨fun i => ?_, fun i => ?_, by decide +kernel, ?_, ?_, ?_⟩
  · fin_cases i <;> decide +kernel
  · fin_cases i <;> decide +kernel
  · exact le_trans (by norm_num) r1
  · exact r2.trans (by norm_num)
  · norm_num at *
    linarith

private theorem round4 (target : V4 F32) (step : F32) (p : V4 F32) (g : GoodApproach (coord target) step (coord p)) :
    (approach4 target step p = target ∨ GoodApproach (coord target) step (coord (approach4 target step p)) ∧
      ‖exactE (coord target) - exactE (coord (approach4 target step p))‖ ≤ ‖exactE (coord target) - exactE (coord p)‖ - 7 / 8 * step.val) ∧
    ‖exactE (coord (approach4 target step p)) - exactE (coord p)‖ ≤ 9 / 8 * step.val ∧
    (∀ i, (coord (approach4 target step p) i).IsFin = true) := by
  refine approach_round (L := V4.length (target - p)) coord target p _ (by norm_num) g
    (fun h1 h2 => C82_distance_vec4 target p g.fin_target g.fin_p h1 h2) (fun h => ?_) (fun h => ?_) (fun h i => ?_)
  · have c : ∀ i, F.abs (coord (target - p) i) ≤ F.abs (coord (V4.splat (lit (1 / 2 ^ 44)) : V4 F32) i) := by
      intro i
      have t := tiny_coord (g.fin_target i) (g.fin_p i) (abs_coord_le (exactE (coord target) - exactE (coord p)) i)
        (by rw [← exactDistance_norm]; exact h)
      have e : F.abs (lit (1 / 2 ^ 44) : F32) = lit (1 / 2 ^ 44) := by decide +kernel
      fin_cases i
      · exact le_of_le_of_eq t e.symm
      · exact le_of_le_of_eq t e.symm
      · exact le_of_le_of_eq t e.symm
      · exact le_of_le_of_eq t e.symm
    have l := (C85_vec4_length _ _ c).2
    have k : V4.length (V4.splat (lit (1 / 2 ^ 44)) : V4 F32) ≤ lit (1 / 2 ^ 40) := by decide +kernel
    have v : (lit (1 / 2 ^ 40) : F32).val = 1 / 2 ^ 40 := by decide +kernel
    refine ⟨l.1, isFin_ne_nan g.fin_step, (l.2.2.trans k.2.2).trans (key_le_iff.2 ?_)⟩
    rw [v]
    have := g.step_ge
    have : (((1 / 2 ^ 40 : ℚ)) : ℝ) ≤ ((step.val : ℚ) : ℝ) := by push_cast; exact this
    exact_mod_cast this
  · unfold approach4; rw [if_pos h]
  · unfold approach4; rw [if_neg h]
    fin_cases i <;> rfl

/-- C157, `vec4`: one round. It either arrives at the target, bit for bit, or comes nearer by at least 7/8 of the step; either way it moves by
no more than 9/8 of the step. -/
theorem C157_vec4_round (target : V4 F32) (step : F32) (p : V4 F32) (g : GoodApproach (coord target) step (coord p)) :
    (approach4 target step p = target ∨
      ‖exactE (coord target) - exactE (coord (approach4 target step p))‖ ≤ ‖exactE (coord target) - exactE (coord p)‖ - 7 / 8 * step.val) ∧
    ‖exactE (coord (approach4 target step p)) - exactE (coord p)‖ ≤ 9 / 8 * step.val := by
  have r := round4 target step p g
  exact ⟨r.1.imp id And.right, r.2.1⟩

private theorem stay4 (target : V4 F32) (step : F32) (p : V4 F32) (g : GoodApproach (coord target) step (coord p)) :
    approach4 target step target = target := by
  have g' : GoodApproach (coord target) step (coord target) :=
    ⟨g.fin_target, g.fin_target, g.fin_step, g.step_ge, g.step_le, by
      have := g.far
      have := norm_nonneg (exactE (coord target) - exactE (coord p))
      rw [sub_self, norm_zero]
      linarith⟩
  rcases (C157_vec4_round target step target g').1 with h | h
  · exact h
  · exfalso
    rw [sub_self (exactE (coord target)), norm_zero] at h
    have s := g.step_ge
    have := norm_nonneg (exactE (coord target) - exactE (coord (approach4 target step target)))
    have : (0 : ℝ) < 1 / 2 ^ 40 := by positivity
    linarith

/-- C157, `vec4`: the target is reached exactly and never left again. After any `k` rounds with `k` times 7/8 of the step more than the
distance at the start, the position is the target, bit for bit. -/
theorem C157_vec4_arrives (target : V4 F32) (step : F32) (p : V4 F32) (g : GoodApproach (coord target) step (coord p)) (k : ℕ)
    (hk : ‖exactE (coord target) - exactE (coord p)‖ < k * (7 / 8 * step.val)) : (approach4 target step)^[k] p = target :=
  approach_arrives coord target (approach4 target step) p
    (approach_iterate coord target (approach4 target step) (round4 target step) (stay4 target step p g) p g) k hk

/-- C157, `vec4`: on the way. After any number of rounds the position is the target or it is nearer by at least 7/8 of a step for every round. -/
theorem C157_vec4_way (target : V4 F32) (step : F32) (p : V4 F32) (g : GoodApproach (coord target) step (coord p)) (k : ℕ) :
    (approach4 target step)^[k] p = target ∨
    ‖exactE (coord target) - exactE (coord ((approach4 target step)^[k] p))‖ ≤
      ‖exactE (coord target) - exactE (coord p)‖ - k * (7 / 8 * step.val) :=
  (approach_iterate coord target (approach4 target step) (round4 target step) (stay4 target step p g) p g k).imp id And.right

/-- The hypotheses hold: from ⟨lit (-20), lit (1/3), lit 40, lit (1/1000)⟩ : V4 F32 to ⟨lit 1, lit (1/10), lit 0, lit (3/7)⟩ : V4 F32 by steps of 1/10. -/
example : GoodApproach (coord (⟨lit 1, lit (1/10), lit 0, lit (3/7)⟩ : V4 F32)) (lit (1 / 10)) (coord (⟨lit (-20), lit (1/3), lit 40, lit (1/1000)⟩ : V4 F32)) := by
  have bound : ∀ x : EuclideanSpace ℝ (Fin 4), (∀ i, |x i| ≤ 100) → ‖x‖ ≤ 200 := by
    intro x h
    have := norm_le_of_coords (x := x) (e := 100) h
    refine (abs_le_of_sq_le_sq' (this.trans ?_) (by norm_num)).2
    norm_num
  have fs : 1 / 16 ≤ (lit (1 / 10) : F32).val ∧ (lit (1 / 10) : F32).val ≤ 1 := ⟨by decide +kernel, by decide +kernel⟩
  have r1 : (1 / 16 : ℝ) ≤ ((lit (1 / 10) : F32).val : ℝ) := by
    have : ((1 / 16 : ℚ) : ℝ) ≤ (((lit (1 / 10) : F32).val : ℚ) : ℝ) := by exact_mod_cast fs.1
    push_cast at this; exact this
  have r2 : ((lit (1 / 10) : F32).val : ℝ) ≤ 1 := by exact_mod_cast fs.2
  have ca : ∀ i, |(coord (⟨lit 1, lit (1/10), lit 0, lit (3/7)⟩ : V4 F32) i).val| ≤ 50 := by intro i; fin_cases i <;> decide +kernel
  have cb : ∀ i, |(coord (⟨lit (-20), lit (1/3), lit 40, lit (1/1000)⟩ : V4 F32) i).val| ≤ 50 := by intro i; fin_cases i <;> decide +kernel
  have n1 := bound (exactE (coord (⟨lit 1, lit (1/10), lit 0, lit (3/7)⟩ : V4 F32))) fun i => by
    have : ((|(coord (⟨lit 1, lit (1/10), lit 0, lit (3/7)⟩ : V4 F32) i).val| : ℚ) : ℝ) ≤ ((50 : ℚ) : ℝ) := by exact_mod_cast ca i
    push_cast at this
    exact this.trans (by norm_num)
  have n2 := bound (exactE (coord (⟨lit 1, lit (1/10), lit 0, lit (3/7)⟩ : V4 F32)) - exactE (coord (⟨lit (-20), lit (1/3), lit 40, lit (1/1000)⟩ : V4 F32))) fun i => by
    have h1 : ((|(coord (⟨lit 1, lit (1/10), lit 0, lit (3/7)⟩ : V4 F32) i).val| : ℚ) : ℝ) ≤ ((50 : ℚ) : ℝ) := by exact_mod_cast ca i
    have h2 : ((|(coord (⟨lit (-20), lit (1/3), lit 40, lit (1/1000)⟩ : V4 F32) i).val| : ℚ) : ℝ) ≤ ((50 : ℚ) : ℝ) := by exact_mod_cast cb i
    push_cast at h1 h2
    refine (abs_sub _ _).trans (le_trans (add_le_add h1 h2) (by norm_num))
  refine ⟨fun i => ?_, fun i => ?_, by decide +kernel, ?_, ?_, ?_⟩
  · fin_cases i <;> decide +kernel
  · fin_cases i <;> decide +kernel
  · exact le_trans (by norm_num) r1
  · exact r2.trans (by norm_num)
  · norm_num at *
    linarith

/-- C157: a step that is tiny compared with the coordinates never arrives: at 2^24 a step of 1/2 is rounded away, and the loop stays where it
is for ever. -/
theorem C157_stuck : let p : V2 F32 := ⟨lit (2 ^ 24), lit 0⟩
    let target : V2 F32 := ⟨lit (2 ^ 24 + 8), lit 0⟩
    p ≠ target ∧ ∀ k : ℕ, (approach2 target (lit (1 / 2)))^[k] p = p := by
  refine ⟨by decide +kernel, fun k => ?_⟩
  have e : approach2 (⟨lit (2 ^ 24 + 8), lit 0⟩ : V2 F32) (lit (1 / 2)) ⟨lit (2 ^ 24), lit 0⟩ = ⟨lit (2 ^ 24), lit 0⟩ := by decide +kernel
  induction k with
  | zero => rfl
  | succ k ih => rw [Function.iterate_succ_apply', ih, e]

end Zcm
