import Verif.Spec.Coord
import Verif.Model.Common

/-!
# C14: relational functions mirror the scalar comparisons

For every carrier, with the carrier's own scalar comparisons (the behaviour of these at NaN is in
`Props/C14F32.lean`).
-/

namespace Zcm

variable {α : Type} [LT α] [DecidableLT α] [LE α] [DecidableLE α] [BEq α]

/-- C14 for `vec2`: per component the scalar comparison. -/
theorem C14_vec2 (a b : V2 α) (i : Fin 2) :
    (coord (V2.lessThan a b) i = true ↔ coord a i < coord b i) ∧
    (coord (V2.lessThanEqual a b) i = true ↔ coord a i ≤ coord b i) ∧
    (coord (V2.greaterThan a b) i = true ↔ coord a i > coord b i) ∧
    (coord (V2.greaterThanEqual a b) i = true ↔ coord a i ≥ coord b i) ∧
    coord (V2.equal a b) i = (coord a i == coord b i) ∧
    coord (V2.notEqual a b) i = !(coord a i == coord b i) := by
  fin_cases i <;>
    exact ⟨decide_eq_true_iff, decide_eq_true_iff, decide_eq_true_iff, decide_eq_true_iff, rfl, rfl⟩

/-- C14 for `vec2`: how the functions relate to one another and to `==`. -/
theorem C14_vec2_laws (a b : V2 α) :
    V2.greaterThan a b = V2.lessThan b a ∧
    V2.greaterThanEqual a b = V2.lessThanEqual b a ∧
    V2.notEqual a b = BV2.not (V2.equal a b) ∧
    BV2.all (V2.equal a b) = V2.eq a b ∧
    BV2.any (V2.notEqual a b) = V2.ne a b := by
  refine ⟨rfl, rfl, rfl, rfl, ?_⟩
  simp [BV2.any, V2.notEqual, V2.ne, V2.eq, bne]

/-- C14 for `vec3`: per component the scalar comparison. -/
theorem C14_vec3 (a b : V3 α) (i : Fin 3) :
    (coord (V3.lessThan a b) i = true ↔ coord a i < coord b i) ∧
    (coord (V3.lessThanEqual a b) i = true ↔ coord a i ≤ coord b i) ∧
    (coord (V3.greaterThan a b) i = true ↔ coord a i > coord b i) ∧
    (coord (V3.greaterThanEqual a b) i = true ↔ coord a i ≥ coord b i) ∧
    coord (V3.equal a b) i = (coord a i == coord b i) ∧
    coord (V3.notEqual a b) i = !(coord a i == coord b i) := by
  fin_cases i <;>
    exact ⟨decide_eq_true_iff, decide_eq_true_iff, decide_eq_true_iff, decide_eq_true_iff, rfl, rfl⟩

/-- C14 for `vec3`: how the functions relate to one another and to `==`. -/
theorem C14_vec3_laws (a b : V3 α) :
    V3.greaterThan a b = V3.lessThan b a ∧
    V3.greaterThanEqual a b = V3.lessThanEqual b a ∧
    V3.notEqual a b = BV3.not (V3.equal a b) ∧
    BV3.all (V3.equal a b) = V3.eq a b ∧
    BV3.any (V3.notEqual a b) = V3.ne a b := by
  refine ⟨rfl, rfl, rfl, rfl, ?_⟩
  simp [BV3.any, V3.notEqual, V3.ne, V3.eq, bne]

/-- C14 for `vec4`: per component the scalar comparison. -/
theorem C14_vec4 (a b : V4 α) (i : Fin 4) :
    (coord (V4.lessThan a b) i = true ↔ coord a i < coord b i) ∧
    (coord (V4.lessThanEqual a b) i = true ↔ coord a i ≤ coord b i) ∧
    (coord (V4.greaterThan a b) i = true ↔ coord a i > coord b i) ∧
    (coord (V4.greaterThanEqual a b) i = true ↔ coord a i ≥ coord b i) ∧
    coord (V4.equal a b) i = (coord a i == coord b i) ∧
    coord (V4.notEqual a b) i = !(coord a i == coord b i) := by
  fin_cases i <;>
    exact ⟨decide_eq_true_iff, decide_eq_true_iff, decide_eq_true_iff, decide_eq_true_iff, rfl, rfl⟩

/-- C14 for `vec4`: how the functions relate to one another and to `==`. -/
theorem C14_vec4_laws (a b : V4 α) :
    V4.greaterThan a b = V4.lessThan b a ∧
    V4.greaterThanEqual a b = V4.lessThanEqual b a ∧
    V4.notEqual a b = BV4.not (V4.equal a b) ∧
    BV4.all (V4.equal a b) = V4.eq a b ∧
    BV4.any (V4.notEqual a b) = V4.ne a b := by
  refine ⟨rfl, rfl, rfl, rfl, ?_⟩
  simp [BV4.any, V4.notEqual, V4.ne, V4.eq, bne]

/-- C14 for `quat`. -/
theorem C14_quat {β : Type} [BEq β] (a b : Quat β) :
    (∀ i, coord (Quat.equal a b) i = (coord a i == coord b i)) ∧
    (∀ i, coord (Quat.notEqual a b) i = !(coord a i == coord b i)) ∧
    BV4.all (Quat.equal a b) = Quat.eq a b ∧ BV4.any (Quat.notEqual a b) = Quat.ne a b := by
  refine ⟨fun i => by fin_cases i <;> rfl, fun i => by fin_cases i <;> rfl, rfl, ?_⟩
  simp [BV4.any, Quat.notEqual, Quat.ne, Quat.eq, bne]

/-- C14 for `bvec2`. -/
theorem C14_bvec2 (a b : V2 Bool) :
    (∀ i, coord (BV2.equal a b) i = true ↔ coord a i = coord b i) ∧
    (∀ i, coord (BV2.notEqual a b) i = true ↔ coord a i ≠ coord b i) ∧
    BV2.all (BV2.equal a b) = BV2.eq a b ∧ BV2.any (BV2.notEqual a b) = BV2.ne a b := by
  refine ⟨fun i => by fin_cases i <;> exact beq_iff_eq (α := Bool), fun i => by fin_cases i <;> exact bne_iff_ne (α := Bool), rfl, ?_⟩
  simp [BV2.any, BV2.notEqual, BV2.ne, BV2.eq, bne]

/-- C14 for `bvec3`. -/
theorem C14_bvec3 (a b : V3 Bool) :
    (∀ i, coord (BV3.equal a b) i = true ↔ coord a i = coord b i) ∧
    (∀ i, coord (BV3.notEqual a b) i = true ↔ coord a i ≠ coord b i) ∧
    BV3.all (BV3.equal a b) = BV3.eq a b ∧ BV3.any (BV3.notEqual a b) = BV3.ne a b := by
  refine ⟨fun i => by fin_cases i <;> exact beq_iff_eq (α := Bool), fun i => by fin_cases i <;> exact bne_iff_ne (α := Bool), rfl, ?_⟩
  simp [BV3.any, BV3.notEqual, BV3.ne, BV3.eq, bne]

/-- C14 for `bvec4`. -/
theorem C14_bvec4 (a b : V4 Bool) :
    (∀ i, coord (BV4.equal a b) i = true ↔ coord a i = coord b i) ∧
    (∀ i, coord (BV4.notEqual a b) i = true ↔ coord a i ≠ coord b i) ∧
    BV4.all (BV4.equal a b) = BV4.eq a b ∧ BV4.any (BV4.notEqual a b) = BV4.ne a b := by
  refine ⟨fun i => by fin_cases i <;> exact beq_iff_eq (α := Bool), fun i => by fin_cases i <;> exact bne_iff_ne (α := Bool), rfl, ?_⟩
  simp [BV4.any, BV4.notEqual, BV4.ne, BV4.eq, bne]

/-- Non-vacuity, with integers as the carrier. -/
example : V3.lessThan (⟨1, 2, 3⟩ : V3 ℤ) ⟨2, 2, 2⟩ = ⟨true, false, false⟩ ∧
    V3.greaterThanEqual (⟨1, 2, 3⟩ : V3 ℤ) ⟨2, 2, 2⟩ = ⟨false, true, true⟩ := by decide

end Zcm
