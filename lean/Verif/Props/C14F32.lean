import Verif.Lemmas.F32
import Verif.Props.C14

/-!
# C14, NaN: comparisons with a NaN component are false, except `notEqual`
-/

namespace Zcm

open F32

/-- C14 for `vec2` of binary32 numbers: a NaN on either side makes every comparison of that
component false, except `notEqual`, which is true; and without NaN exactly one of <, ==, > holds. -/
theorem C14_vec2_nan (a b : V2 F32) (i : Fin 2) :
    ((coord a i = .nan ∨ coord b i = .nan) →
      coord (V2.lessThan a b) i = false ∧ coord (V2.lessThanEqual a b) i = false ∧
      coord (V2.greaterThan a b) i = false ∧ coord (V2.greaterThanEqual a b) i = false ∧
      coord (V2.equal a b) i = false ∧ coord (V2.notEqual a b) i = true) ∧
    (coord a i ≠ .nan → coord b i ≠ .nan →
      (coord (V2.lessThanEqual a b) i = true ↔
        coord (V2.lessThan a b) i = true ∨ coord (V2.equal a b) i = true) ∧
      coord (V2.greaterThan a b) i = !coord (V2.lessThanEqual a b) i) := by
  obtain ⟨h1, h2, h3, h4, h5, h6⟩ := C14_vec2 a b i
  refine ⟨fun h => ?_, fun ha hb => ⟨?_, ?_⟩⟩
  · simp only [← Bool.not_eq_true, h1, h2, h3, h4]
    rcases h with h | h <;> simp [h5, h6, h]
  · rw [h1, h2, h5, beq_iff, lt_iff, le_iff]
    simp only [ne_eq, ha, hb, not_false_eq_true, true_and]
    omega
  · rw [Bool.eq_iff_iff, Bool.not_eq_true', ← Bool.not_eq_true, h2, h3, gt_iff_lt, lt_iff, le_iff]
    simp only [ne_eq, ha, hb, not_false_eq_true, true_and]
    omega

/-- C14 for `vec3` of binary32 numbers: a NaN on either side makes every comparison of that
component false, except `notEqual`, which is true; and without NaN exactly one of <, ==, > holds. -/
theorem C14_vec3_nan (a b : V3 F32) (i : Fin 3) :
    ((coord a i = .nan ∨ coord b i = .nan) →
      coord (V3.lessThan a b) i = false ∧ coord (V3.lessThanEqual a b) i = false ∧
      coord (V3.greaterThan a b) i = false ∧ coord (V3.greaterThanEqual a b) i = false ∧
      coord (V3.equal a b) i = false ∧ coord (V3.notEqual a b) i = true) ∧
    (coord a i ≠ .nan → coord b i ≠ .nan →
      (coord (V3.lessThanEqual a b) i = true ↔
        coord (V3.lessThan a b) i = true ∨ coord (V3.equal a b) i = true) ∧
      coord (V3.greaterThan a b) i = !coord (V3.lessThanEqual a b) i) := by
  obtain ⟨h1, h2, h3, h4, h5, h6⟩ := C14_vec3 a b i
  refine ⟨fun h => ?_, fun ha hb => ⟨?_, ?_⟩⟩
  · simp only [← Bool.not_eq_true, h1, h2, h3, h4]
    rcases h with h | h <;> simp [h5, h6, h]
  · rw [h1, h2, h5, beq_iff, lt_iff, le_iff]
    simp only [ne_eq, ha, hb, not_false_eq_true, true_and]
    omega
  · rw [Bool.eq_iff_iff, Bool.not_eq_true', ← Bool.not_eq_true, h2, h3, gt_iff_lt, lt_iff, le_iff]
    simp only [ne_eq, ha, hb, not_false_eq_true, true_and]
    omega

/-- C14 for `vec4` of binary32 numbers: a NaN on either side makes every comparison of that
component false, except `notEqual`, which is true; and without NaN exactly one of <, ==, > holds. -/
theorem C14_vec4_nan (a b : V4 F32) (i : Fin 4) :
    ((coord a i = .nan ∨ coord b i = .nan) →
      coord (V4.lessThan a b) i = false ∧ coord (V4.lessThanEqual a b) i = false ∧
      coord (V4.greaterThan a b) i = false ∧ coord (V4.greaterThanEqual a b) i = false ∧
      coord (V4.equal a b) i = false ∧ coord (V4.notEqual a b) i = true) ∧
    (coord a i ≠ .nan → coord b i ≠ .nan →
      (coord (V4.lessThanEqual a b) i = true ↔
        coord (V4.lessThan a b) i = true ∨ coord (V4.equal a b) i = true) ∧
      coord (V4.greaterThan a b) i = !coord (V4.lessThanEqual a b) i) := by
  obtain ⟨h1, h2, h3, h4, h5, h6⟩ := C14_vec4 a b i
  refine ⟨fun h => ?_, fun ha hb => ⟨?_, ?_⟩⟩
  · simp only [← Bool.not_eq_true, h1, h2, h3, h4]
    rcases h with h | h <;> simp [h5, h6, h]
  · rw [h1, h2, h5, beq_iff, lt_iff, le_iff]
    simp only [ne_eq, ha, hb, not_false_eq_true, true_and]
    omega
  · rw [Bool.eq_iff_iff, Bool.not_eq_true', ← Bool.not_eq_true, h2, h3, gt_iff_lt, lt_iff, le_iff]
    simp only [ne_eq, ha, hb, not_false_eq_true, true_and]
    omega

/-- Non-vacuity: NaN, and the two zeros. -/
example : V2.equal (⟨.nan, lit 0⟩ : V2 F32) ⟨.nan, -(lit 0)⟩ = ⟨false, true⟩ ∧
    V2.notEqual (⟨.nan, lit 0⟩ : V2 F32) ⟨.nan, -(lit 0)⟩ = ⟨true, false⟩ := by decide +kernel

end Zcm
