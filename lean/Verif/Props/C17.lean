import Verif.Lemmas.F32
import Verif.Lemmas.Int
import Verif.Model.Common

/-!
# C17: min and max

Stated for IEEE binary32 (`F32`, comparisons are the C++ ones) and for `int`.
-/

namespace Zcm

open F32

/-- C17, `float`: the result is always one of the two arguments (bit for bit). -/
theorem C17_float_selects (x y : F32) :
    (F.min x y = x ∨ F.min x y = y) ∧ (F.max x y = x ∨ F.max x y = y) := by
  unfold F.min F.max
  constructor <;> split_ifs <;> simp

/-- C17, `float`: bounds, for arguments that are not NaN. -/
theorem C17_float_bounds (x y : F32) (hx : x ≠ .nan) (hy : y ≠ .nan) :
    F.min x y ≤ x ∧ F.min x y ≤ y ∧ x ≤ F.max x y ∧ y ≤ F.max x y ∧
    (∀ z, z ≤ x → z ≤ y → z ≤ F.min x y) ∧ (∀ z, x ≤ z → y ≤ z → F.max x y ≤ z) := by
  unfold F.min F.max
  simp only [lt_iff, hx, hy, ne_eq, not_false_eq_true, true_and]
  split_ifs <;> simp only [le_iff, hx, hy, ne_eq, not_false_eq_true, true_and] <;>
    refine ⟨?_, ?_, ?_, ?_, ?_, ?_⟩ <;> first | omega | (intro z; omega) | skip
  all_goals first | exact fun z h1 h2 => h1 | exact fun z h1 h2 => h2

/-- C17, `float`: commutative, associative and idempotent up to `==`, for arguments that are not NaN. -/
theorem C17_float_laws (x y z : F32) (hx : x ≠ .nan) (hy : y ≠ .nan) (hz : z ≠ .nan) :
    (F.min x y == F.min y x) = true ∧ (F.max x y == F.max y x) = true ∧
    (F.min x (F.min y z) == F.min (F.min x y) z) = true ∧
    (F.max x (F.max y z) == F.max (F.max x y) z) = true ∧
    F.min x x = x ∧ F.max x x = x := by
  unfold F.min F.max
  simp only [lt_iff, hx, hy, hz, ne_eq, not_false_eq_true, true_and, lt_irrefl, if_false, and_self,
    and_true]
  refine ⟨?_, ?_, ?_, ?_⟩ <;> split_ifs <;>
    simp only [beq_iff, hx, hy, hz, ne_eq, not_false_eq_true, true_and] <;> simp_all <;> omega

/-- C17, `float`: a NaN second argument is ignored, a NaN first argument is returned. -/
theorem C17_float_nan (x : F32) :
    F.min x .nan = x ∧ F.max x .nan = x ∧ F.min .nan x = .nan ∧ F.max .nan x = .nan := by
  simp [F.min, F.max]

/-- C17, `int`: the minimum and maximum of the integers. -/
theorem C17_int (x y : I32) :
    (I.min x y).toInt = min x.toInt y.toInt ∧ (I.max x y).toInt = max x.toInt y.toInt := by
  have hlt : ∀ a b : I32, a < b ↔ a.toInt < b.toInt := fun _ _ => Iff.rfl
  unfold I.min I.max
  simp only [hlt]
  constructor <;> split_ifs <;> omega

/-- Non-vacuity: ordinary values, and the two zeros (which are `==` but not the same). -/
example : F.min (lit 2 : F32) (lit (-1)) = lit (-1) ∧ F.max (lit 2 : F32) (lit (-1)) = lit 2 ∧
    F.min (lit 0 : F32) (-(lit 0)) ≠ F.min (-(lit 0)) (lit 0 : F32) ∧ (lit 2 : F32) ≠ .nan := by
  decide +kernel

end Zcm
