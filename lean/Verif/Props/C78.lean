import Verif.Spec.Int
import Verif.Model.Common

/-!
# C78  Converting an integer vector to a boolean vector

`bvecN(ivecN)` is true in exactly the components that are not 0.
-/

namespace Zcm

theorem I32.toBool_iff (a : I32) : I32.toBool a = true ↔ a.toInt ≠ 0 := by
  have : a.toInt = 0 ↔ a = I32.lit 0 := by
    constructor
    · intro h
      ext1
      exact BitVec.eq_of_toInt_eq (h.trans (by decide))
    · rintro rfl; decide
  rw [ne_eq, this]
  simp [I32.toBool]

/-- C78, `ivec2`: component `i` of the converted vector is true exactly if component `i` is not 0; hence `any` of it
is "some component is not 0" and `all` of it is "no component is 0". -/
theorem C78_ivec2 (v : V2 I32) :
    (∀ i, coord (IV2.toBV v) i = true ↔ icoord v i ≠ 0) ∧
    (BV2.any (IV2.toBV v) = true ↔ ∃ i, icoord v i ≠ 0) ∧
    (BV2.all (IV2.toBV v) = true ↔ ∀ i, icoord v i ≠ 0) := by
  refine ⟨fun i => ?_, ?_, ?_⟩
  · fin_cases i <;> exact I32.toBool_iff _
  · simp only [BV2.any, IV2.toBV, Bool.or_eq_true, I32.toBool_iff]
    constructor
    · rintro (h | h)
      · exact ⟨0, h⟩
      · exact ⟨1, h⟩
    · rintro ⟨i, h⟩
      fin_cases i
      · exact .inl h
      · exact .inr h
  · simp only [BV2.all, IV2.toBV, Bool.and_eq_true, I32.toBool_iff]
    constructor
    · intro h i
      fin_cases i
      · exact h.1
      · exact h.2
    · intro h
      exact ⟨h 0, h 1⟩

/-- C78, `ivec3`: component `i` of the converted vector is true exactly if component `i` is not 0; hence `any` of it
is "some component is not 0" and `all` of it is "no component is 0". -/
theorem C78_ivec3 (v : V3 I32) :
    (∀ i, coord (IV3.toBV v) i = true ↔ icoord v i ≠ 0) ∧
    (BV3.any (IV3.toBV v) = true ↔ ∃ i, icoord v i ≠ 0) ∧
    (BV3.all (IV3.toBV v) = true ↔ ∀ i, icoord v i ≠ 0) := by
  refine ⟨fun i => ?_, ?_, ?_⟩
  · fin_cases i <;> exact I32.toBool_iff _
  · simp only [BV3.any, IV3.toBV, Bool.or_eq_true, I32.toBool_iff]
    constructor
    · rintro ((h | h) | h)
      · exact ⟨0, h⟩
      · exact ⟨1, h⟩
      · exact ⟨2, h⟩
    · rintro ⟨i, h⟩
      fin_cases i
      · exact .inl (.inl h)
      · exact .inl (.inr h)
      · exact .inr h
  · simp only [BV3.all, IV3.toBV, Bool.and_eq_true, I32.toBool_iff]
    constructor
    · intro h i
      fin_cases i
      · exact h.1.1
      · exact h.1.2
      · exact h.2
    · intro h
      exact ⟨⟨h 0, h 1⟩, h 2⟩

/-- C78, `ivec4`: component `i` of the converted vector is true exactly if component `i` is not 0; hence `any` of it
is "some component is not 0" and `all` of it is "no component is 0". -/
theorem C78_ivec4 (v : V4 I32) :
    (∀ i, coord (IV4.toBV v) i = true ↔ icoord v i ≠ 0) ∧
    (BV4.any (IV4.toBV v) = true ↔ ∃ i, icoord v i ≠ 0) ∧
    (BV4.all (IV4.toBV v) = true ↔ ∀ i, icoord v i ≠ 0) := by
  refine ⟨fun i => ?_, ?_, ?_⟩
  · fin_cases i <;> exact I32.toBool_iff _
  · simp only [BV4.any, IV4.toBV, Bool.or_eq_true, I32.toBool_iff]
    constructor
    · rintro (((h | h) | h) | h)
      · exact ⟨0, h⟩
      · exact ⟨1, h⟩
      · exact ⟨2, h⟩
      · exact ⟨3, h⟩
    · rintro ⟨i, h⟩
      fin_cases i
      · exact .inl (.inl (.inl h))
      · exact .inl (.inl (.inr h))
      · exact .inl (.inr h)
      · exact .inr h
  · simp only [BV4.all, IV4.toBV, Bool.and_eq_true, I32.toBool_iff]
    constructor
    · intro h i
      fin_cases i
      · exact h.1.1.1
      · exact h.1.1.2
      · exact h.1.2
      · exact h.2
    · intro h
      exact ⟨⟨⟨h 0, h 1⟩, h 2⟩, h 3⟩

/-- Non-vacuity: a vector with a zero and non-zero components (negative, and a multiple of 256). -/
example : IV3.toBV ⟨I32.lit 0, I32.lit (-1), I32.lit 256⟩ = ⟨false, true, true⟩ := by decide

end Zcm
