import Verif.Lemmas.F32
import Verif.Model.Common
import Verif.Spec.Coord

/-!
# C24: mix interpolates

The interpolation laws in exact arithmetic, and the two endpoints in binary32: `t = 0` gives `x`
unless `y - x` overflows; `t = 1` may miss `y`.
-/

set_option exponentiation.threshold 300

namespace Zcm

open F32

/-- C24 in exact arithmetic. -/
theorem C24_mix (x y t u : ℝ) :
    F.mix x y 0 = x ∧ F.mix x y 1 = y ∧ F.mix x x t = x ∧
    (0 ≤ t → t ≤ 1 → min x y ≤ F.mix x y t ∧ F.mix x y t ≤ max x y) ∧
    (x ≤ y → t ≤ u → F.mix x y t ≤ F.mix x y u) ∧
    (y ≤ x → t ≤ u → F.mix x y u ≤ F.mix x y t) := by
  unfold F.mix
  refine ⟨by ring, by ring, by ring, fun h0 h1 => ?_, fun h h' => by nlinarith, fun h h' => by nlinarith⟩
  rcases le_total x y with h | h
  · rw [min_eq_left h, max_eq_right h]
    constructor <;> nlinarith
  · rw [min_eq_right h, max_eq_left h]
    constructor <;> nlinarith

/-- C24 in binary32: at `t = 0` the result is `x` if `y - x` does not overflow. -/
theorem C24_float_zero (x y : F32) (hx : x.IsFin = true) (h : (y - x).IsFin = true) :
    (F.mix x y (lit 0) == x) = true := by
  unfold F.mix
  have h1 : (lit 0 * (y - x)).IsFin = true ∧ (lit 0 * (y - x)).val = 0 := by
    rw [mul_fin isFin_lit_zero h, val_lit_zero, zero_mul]
    generalize ((lit 0 : F32).sgn ^^ (y - x).sgn) = s
    have hk : (round s 0).key = 0 := by rw [key_round, uround_zero]; rfl
    exact ⟨by rw [isFin_iff (round_ne_nan _ _), hk]; norm_num, key_eq_zero.1 hk⟩
  rw [add_fin hx h1.1, h1.2, add_zero, beq_iff]
  exact ⟨round_ne_nan _ _, isFin_ne_nan hx, key_round_val hx _⟩

/-- C24 in binary32: `mix(x, y, 1)` is not always `y`, and with an overflowing difference even
`mix(x, y, 0)` is not `x` (it is NaN). -/
theorem C24_float_endpoints :
    (∃ x y : F32, x.IsFin = true ∧ y.IsFin = true ∧ (F.mix x y (lit 1) == y) = false) ∧
    (∃ x y : F32, x.IsFin = true ∧ y.IsFin = true ∧ F.mix x y (lit 0) = .nan) := by
  refine ⟨⟨lit 1, lit (1/10^20), ?_⟩, ⟨lit (-3 * 10^38), lit (3 * 10^38), ?_⟩⟩ <;> decide +kernel

/-- C24, the `vec2` overloads with a vector and with a scalar `t` act per component, in any arithmetic. -/
theorem C24_vec2 {α : Type} [Add α] [Sub α] [Mul α] (x y t : V2 α) (s : α) (i : Fin 2) :
    coord (V2.mix x y t) i = F.mix (coord x i) (coord y i) (coord t i) ∧
    coord (V2.mixS x y s) i = F.mix (coord x i) (coord y i) s := by
  fin_cases i <;> exact ⟨rfl, rfl⟩

/-- C24, the `vec3` overloads with a vector and with a scalar `t` act per component, in any arithmetic. -/
theorem C24_vec3 {α : Type} [Add α] [Sub α] [Mul α] (x y t : V3 α) (s : α) (i : Fin 3) :
    coord (V3.mix x y t) i = F.mix (coord x i) (coord y i) (coord t i) ∧
    coord (V3.mixS x y s) i = F.mix (coord x i) (coord y i) s := by
  fin_cases i <;> exact ⟨rfl, rfl⟩

/-- C24, the `vec4` overloads with a vector and with a scalar `t` act per component, in any arithmetic. -/
theorem C24_vec4 {α : Type} [Add α] [Sub α] [Mul α] (x y t : V4 α) (s : α) (i : Fin 4) :
    coord (V4.mix x y t) i = F.mix (coord x i) (coord y i) (coord t i) ∧
    coord (V4.mixS x y s) i = F.mix (coord x i) (coord y i) s := by
  fin_cases i <;> exact ⟨rfl, rfl⟩

/-- Non-vacuity. -/
example : F.mix (2 : ℝ) 10 0.25 = 4 := by unfold F.mix; norm_num
example : ((lit 5 : F32) - lit 3).IsFin = true ∧ F.mix (lit 3 : F32) (lit 5) (lit 0.5) = lit 4 := by
  decide +kernel

end Zcm
