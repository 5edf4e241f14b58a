import Verif.Model.Common
import Mathlib.Tactic.FieldSimp
import Mathlib.Tactic.Linarith

/-!
# C23: mod is floored modulo (exact arithmetic)
-/

namespace Zcm

/-- C23. -/
theorem C23_mod (x y : ℝ) (hy : y ≠ 0) :
    (0 < y → 0 ≤ F.mod x y ∧ F.mod x y < y) ∧
    (y < 0 → y < F.mod x y ∧ F.mod x y ≤ 0) ∧
    (∃ n : ℤ, x - F.mod x y = n * y) ∧
    F.mod (x + y) y = F.mod x y := by
  have e : ∀ z : ℝ, F.mod z y = z - y * (⌊z / y⌋ : ℝ) := fun _ => rfl
  have h1 := Int.floor_le (x / y)
  have h2 := Int.lt_floor_add_one (x / y)
  have h3 : x = y * (x / y) := by field_simp
  refine ⟨fun h => ⟨?_, ?_⟩, fun h => ⟨?_, ?_⟩, ⟨⌊x / y⌋, ?_⟩, ?_⟩
  · rw [e]; nlinarith
  · rw [e]; nlinarith
  · rw [e]; nlinarith
  · rw [e]; nlinarith
  · rw [e]; ring
  · rw [e, e, add_div, div_self hy, Int.floor_add_one]; push_cast; ring


/-- Non-vacuity: a negative argument and a negative modulus. -/
example : F.mod (-7 : ℝ) 3 = 2 ∧ F.mod (7 : ℝ) (-3) = -2 := by
  have h1 : ⌊(-7 : ℝ) / 3⌋ = -3 := by rw [Int.floor_eq_iff]; norm_num
  have h2 : ⌊(7 : ℝ) / -3⌋ = -3 := by rw [Int.floor_eq_iff]; norm_num
  constructor
  · show (-7 : ℝ) - 3 * (⌊(-7 : ℝ) / 3⌋ : ℝ) = 2
    rw [h1]; norm_num
  · show (7 : ℝ) - -3 * (⌊(7 : ℝ) / -3⌋ : ℝ) = -2
    rw [h2]; norm_num

end Zcm
