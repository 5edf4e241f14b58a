import Verif.Lemmas.Rounding
import Verif.Model.Common
import Verif.Spec.Coord

/-!
# C20: floor, ceil, trunc, round
-/

namespace Zcm

open F32

/-- C20, real numbers. -/
theorem C20_real (x : ℝ) :
    (∃ n : ℤ, F.floor x = n ∧ IsFloor x n) ∧ (∃ n : ℤ, F.ceil x = n ∧ IsCeil x n) ∧
    (∃ n : ℤ, F.trunc x = n ∧ IsTrunc x n) ∧ (∃ n : ℤ, F.round x = n ∧ IsRound x n) := by
  refine ⟨⟨_, rfl, isFloor_floor x⟩, ⟨_, rfl, isCeil_ceil x⟩, ⟨_, ?_, isTrunc_trunc x⟩,
    ⟨_, ?_, isRound_round x⟩⟩
  · show (if 0 ≤ x then (⌊x⌋ : ℝ) else (⌈x⌉ : ℝ)) = _
    split_ifs <;> rfl
  · show (if 0 ≤ x then (⌊x + 1/2⌋ : ℝ) else (⌈x - 1/2⌉ : ℝ)) = _
    split_ifs <;> rfl

/-- C20, every finite binary32 value: the result is finite and exactly the integer named, and a zero
result carries the sign of the argument. -/
theorem C20_float (x : F32) (hx : x.IsFin = true) :
    (∃ n : ℤ, (F.floor x).IsFin = true ∧ (F.floor x).val = n ∧ IsFloor x.val n ∧
      (n = 0 → (F.floor x).sgn = x.sgn)) ∧
    (∃ n : ℤ, (F.ceil x).IsFin = true ∧ (F.ceil x).val = n ∧ IsCeil x.val n ∧
      (n = 0 → (F.ceil x).sgn = x.sgn)) ∧
    (∃ n : ℤ, (F.trunc x).IsFin = true ∧ (F.trunc x).val = n ∧ IsTrunc x.val n ∧
      (n = 0 → (F.trunc x).sgn = x.sgn)) ∧
    (∃ n : ℤ, (F.round x).IsFin = true ∧ (F.round x).val = n ∧ IsRound x.val n ∧
      (n = 0 → (F.round x).sgn = x.sgn)) := by
  have h1 := integral_fin floor_between hx
  have h2 := integral_fin ceil_between hx
  have h3 := integral_fin towardZero_between hx
  have h4 := integral_fin halfAway_between hx
  exact ⟨⟨_, h1.1, h1.2.1, isFloor_floor _, fun h => by rw [if_pos h] at h1; exact h1.2.2⟩,
    ⟨_, h2.1, h2.2.1, isCeil_ceil _, fun h => by rw [if_pos h] at h2; exact h2.2.2⟩,
    ⟨_, h3.1, h3.2.1, isTrunc_trunc _, fun h => by rw [if_pos h] at h3; exact h3.2.2⟩,
    ⟨_, h4.1, h4.2.1, isRound_round _, fun h => by rw [if_pos h] at h4; exact h4.2.2⟩⟩

/-- C20, NaN and infinities are returned unchanged. -/
theorem C20_float_special (x : F32) (hx : x.IsFin = false) :
    F.floor x = x ∧ F.ceil x = x ∧ F.trunc x = x ∧ F.round x = x := by
  cases x with
  | nan => exact ⟨rfl, rfl, rfl, rfl⟩
  | inf s => exact ⟨rfl, rfl, rfl, rfl⟩
  | fin s k h => cases hx

/-- C20, the `vec2` overloads act per component, in any arithmetic. -/
theorem C20_vec2 {α : Type} [FloatOps α] (x : V2 α) (i : Fin 2) :
    coord (V2.floor x) i = F.floor (coord x i) ∧ coord (V2.ceil x) i = F.ceil (coord x i) ∧
    coord (V2.trunc x) i = F.trunc (coord x i) ∧ coord (V2.round x) i = F.round (coord x i) := by
  fin_cases i <;> exact ⟨rfl, rfl, rfl, rfl⟩

/-- C20, the `vec3` overloads act per component, in any arithmetic. -/
theorem C20_vec3 {α : Type} [FloatOps α] (x : V3 α) (i : Fin 3) :
    coord (V3.floor x) i = F.floor (coord x i) ∧ coord (V3.ceil x) i = F.ceil (coord x i) ∧
    coord (V3.trunc x) i = F.trunc (coord x i) ∧ coord (V3.round x) i = F.round (coord x i) := by
  fin_cases i <;> exact ⟨rfl, rfl, rfl, rfl⟩

/-- C20, the `vec4` overloads act per component, in any arithmetic. -/
theorem C20_vec4 {α : Type} [FloatOps α] (x : V4 α) (i : Fin 4) :
    coord (V4.floor x) i = F.floor (coord x i) ∧ coord (V4.ceil x) i = F.ceil (coord x i) ∧
    coord (V4.trunc x) i = F.trunc (coord x i) ∧ coord (V4.round x) i = F.round (coord x i) := by
  fin_cases i <;> exact ⟨rfl, rfl, rfl, rfl⟩

/-- Non-vacuity: a negative half. -/
example : F.floor (lit (-2.5) : F32) = lit (-3) ∧ F.ceil (lit (-2.5) : F32) = lit (-2) ∧
    F.trunc (lit (-2.5) : F32) = lit (-2) ∧ F.round (lit (-2.5) : F32) = lit (-3) ∧
    (lit (-2.5) : F32).IsFin = true ∧ F.ceil (lit (-0.5) : F32) = -(lit 0) := by
  decide +kernel

end Zcm
