import Verif.Lemmas.F32
import Verif.Props.C09
import Verif.Props.C14F32
import Verif.Spec.Compare

/-!
# C09 and C14, floats: comparisons are those of the numbers on the extended number line

`onLine` is in Spec/Compare.lean.
-/

set_option exponentiation.threshold 300

namespace Zcm

open F32

private theorem onLine_lt {a b : F32} (ha : a ≠ .nan) (hb : b ≠ .nan) : a.key < b.key ↔ onLine a < onLine b := by
  cases a with
  | nan => exact absurd rfl ha
  | inf s =>
    cases b with
    | nan => exact absurd rfl hb
    | inf t => cases s <;> cases t <;> simp [onLine, key]
    | fin t l g =>
      obtain ⟨x, y⟩ := key_bound_fin (a := .fin t l g) rfl
      cases s
      · rw [key_inf_false]; simp only [onLine]; simp; omega
      · rw [key_inf_true]; simp only [onLine]; simp; omega
  | fin s k h =>
    cases b with
    | nan => exact absurd rfl hb
    | inf t =>
      obtain ⟨x, y⟩ := key_bound_fin (a := .fin s k h) rfl
      cases t
      · rw [key_inf_false]; simp only [onLine]; simp; omega
      · rw [key_inf_true]; simp only [onLine]; simp; omega
    | fin t l g =>
      rw [key_lt_iff]
      simp only [onLine]
      rw [EReal.coe_lt_coe_iff, Rat.cast_lt]

private theorem onLine_eq {a b : F32} (ha : a ≠ .nan) (hb : b ≠ .nan) : a.key = b.key ↔ onLine a = onLine b := by
  have x := onLine_lt ha hb
  have y := onLine_lt hb ha
  constructor
  · intro h
    exact le_antisymm (not_lt.1 fun z => by have := y.2 z; omega) (not_lt.1 fun z => by have := x.2 z; omega)
  · intro h
    rw [h] at x y
    simp only [lt_irrefl, iff_false, not_lt] at x y
    omega

/-- C09: `x == y` on floats: neither is NaN and they are the same number (or infinity). -/
theorem C09_float (x y : F32) : (x == y) = true ↔ x ≠ .nan ∧ y ≠ .nan ∧ onLine x = onLine y := by
  rw [beq_iff]
  constructor
  · rintro ⟨a, b, c⟩; exact ⟨a, b, (onLine_eq a b).1 c⟩
  · rintro ⟨a, b, c⟩; exact ⟨a, b, (onLine_eq a b).2 c⟩

/-- C14: `<`, `<=`, `>` and `>=` on floats: neither is NaN and the numbers (or infinities) are in that order. -/
theorem C14_float (x y : F32) :
    (x < y ↔ x ≠ .nan ∧ y ≠ .nan ∧ onLine x < onLine y) ∧ (x ≤ y ↔ x ≠ .nan ∧ y ≠ .nan ∧ onLine x ≤ onLine y) ∧
    (x > y ↔ x ≠ .nan ∧ y ≠ .nan ∧ onLine y < onLine x) ∧ (x ≥ y ↔ x ≠ .nan ∧ y ≠ .nan ∧ onLine y ≤ onLine x) := by
  have l : ∀ x y : F32, x < y ↔ x ≠ .nan ∧ y ≠ .nan ∧ onLine x < onLine y := fun x y => by
    rw [lt_iff]
    exact and_congr_right fun a => and_congr_right fun b => onLine_lt a b
  have e : ∀ x y : F32, x ≤ y ↔ x ≠ .nan ∧ y ≠ .nan ∧ onLine x ≤ onLine y := fun x y => by
    rw [le_iff]
    exact and_congr_right fun a => and_congr_right fun b => by rw [← not_lt, onLine_lt b a, not_lt]
  refine ⟨l x y, e x y, ?_, ?_⟩
  · rw [gt_iff_lt, l]; tauto
  · rw [ge_iff_le, e]; tauto

private theorem refl_float (x : F32) : (x == x) = true ↔ x ≠ .nan := by rw [C09_float]; simp

private theorem symm_float {x y : F32} (h : (x == y) = true) : (y == x) = true := by
  rw [C09_float] at h ⊢; exact ⟨h.2.1, h.1, h.2.2.symm⟩

private theorem trans_float {x y z : F32} (h : (x == y) = true) (g : (y == z) = true) : (x == z) = true := by
  rw [C09_float] at h g ⊢; exact ⟨h.1, g.2.1, h.2.2.trans g.2.2⟩

/-- C09 for `vec2` of floats: equal means every pair of components is the same number, none a NaN; `==` is symmetric and transitive, and a
value equals itself exactly when it has no NaN component. -/
theorem C09_vec2_float (a b c : V2 F32) :
    (V2.eq a b = true ↔ ∀ i, coord a i ≠ .nan ∧ coord b i ≠ .nan ∧ onLine (coord a i) = onLine (coord b i)) ∧
    (V2.eq a a = true ↔ ∀ i, coord a i ≠ .nan) ∧ (V2.eq a b = true → V2.eq b a = true) ∧
    (V2.eq a b = true → V2.eq b c = true → V2.eq a c = true) := by
  simp only [fun a b : V2 F32 => (C09_vec2 a b).1, ← C09_float, refl_float, true_and]
  exact ⟨fun h i => symm_float (h i), fun h g i => trans_float (h i) (g i)⟩

/-- C09 for `vec3` of floats: equal means every pair of components is the same number, none a NaN; `==` is symmetric and transitive, and a
value equals itself exactly when it has no NaN component. -/
theorem C09_vec3_float (a b c : V3 F32) :
    (V3.eq a b = true ↔ ∀ i, coord a i ≠ .nan ∧ coord b i ≠ .nan ∧ onLine (coord a i) = onLine (coord b i)) ∧
    (V3.eq a a = true ↔ ∀ i, coord a i ≠ .nan) ∧ (V3.eq a b = true → V3.eq b a = true) ∧
    (V3.eq a b = true → V3.eq b c = true → V3.eq a c = true) := by
  simp only [fun a b : V3 F32 => (C09_vec3 a b).1, ← C09_float, refl_float, true_and]
  exact ⟨fun h i => symm_float (h i), fun h g i => trans_float (h i) (g i)⟩

/-- C09 for `vec4` of floats: equal means every pair of components is the same number, none a NaN; `==` is symmetric and transitive, and a
value equals itself exactly when it has no NaN component. -/
theorem C09_vec4_float (a b c : V4 F32) :
    (V4.eq a b = true ↔ ∀ i, coord a i ≠ .nan ∧ coord b i ≠ .nan ∧ onLine (coord a i) = onLine (coord b i)) ∧
    (V4.eq a a = true ↔ ∀ i, coord a i ≠ .nan) ∧ (V4.eq a b = true → V4.eq b a = true) ∧
    (V4.eq a b = true → V4.eq b c = true → V4.eq a c = true) := by
  simp only [fun a b : V4 F32 => (C09_vec4 a b).1, ← C09_float, refl_float, true_and]
  exact ⟨fun h i => symm_float (h i), fun h g i => trans_float (h i) (g i)⟩

/-- C09 for `quat` of floats: equal means every pair of components is the same number, none a NaN; `==` is symmetric and transitive, and a
value equals itself exactly when it has no NaN component. -/
theorem C09_quat_float (a b c : Quat F32) :
    (Quat.eq a b = true ↔ ∀ i, coord a i ≠ .nan ∧ coord b i ≠ .nan ∧ onLine (coord a i) = onLine (coord b i)) ∧
    (Quat.eq a a = true ↔ ∀ i, coord a i ≠ .nan) ∧ (Quat.eq a b = true → Quat.eq b a = true) ∧
    (Quat.eq a b = true → Quat.eq b c = true → Quat.eq a c = true) := by
  simp only [fun a b : Quat F32 => (C09_quat a b).1, ← C09_float, refl_float, true_and]
  exact ⟨fun h i => symm_float (h i), fun h g i => trans_float (h i) (g i)⟩

/-- C09 for `mat2` of floats. -/
theorem C09_mat2_float (a b c : M2 F32) :
    (M2.eq a b = true ↔ ∀ i j, entry a i j ≠ .nan ∧ entry b i j ≠ .nan ∧ onLine (entry a i j) = onLine (entry b i j)) ∧
    (M2.eq a a = true ↔ ∀ i j, entry a i j ≠ .nan) ∧ (M2.eq a b = true → M2.eq b a = true) ∧
    (M2.eq a b = true → M2.eq b c = true → M2.eq a c = true) := by
  simp only [fun a b : M2 F32 => (C09_mat2 a b).1, ← C09_float, refl_float, true_and]
  exact ⟨fun h i j => symm_float (h i j), fun h g i j => trans_float (h i j) (g i j)⟩

/-- C09 for `mat3` of floats. -/
theorem C09_mat3_float (a b c : M3 F32) :
    (M3.eq a b = true ↔ ∀ i j, entry a i j ≠ .nan ∧ entry b i j ≠ .nan ∧ onLine (entry a i j) = onLine (entry b i j)) ∧
    (M3.eq a a = true ↔ ∀ i j, entry a i j ≠ .nan) ∧ (M3.eq a b = true → M3.eq b a = true) ∧
    (M3.eq a b = true → M3.eq b c = true → M3.eq a c = true) := by
  simp only [fun a b : M3 F32 => (C09_mat3 a b).1, ← C09_float, refl_float, true_and]
  exact ⟨fun h i j => symm_float (h i j), fun h g i j => trans_float (h i j) (g i j)⟩

/-- C09 for `mat4` of floats. -/
theorem C09_mat4_float (a b c : M4 F32) :
    (M4.eq a b = true ↔ ∀ i j, entry a i j ≠ .nan ∧ entry b i j ≠ .nan ∧ onLine (entry a i j) = onLine (entry b i j)) ∧
    (M4.eq a a = true ↔ ∀ i j, entry a i j ≠ .nan) ∧ (M4.eq a b = true → M4.eq b a = true) ∧
    (M4.eq a b = true → M4.eq b c = true → M4.eq a c = true) := by
  simp only [fun a b : M4 F32 => (C09_mat4 a b).1, ← C09_float, refl_float, true_and]
  exact ⟨fun h i j => symm_float (h i j), fun h g i j => trans_float (h i j) (g i j)⟩

/-- Non-vacuity: the two zeros are the same number, an infinity equals itself only, a NaN nothing. -/
example : V3.eq (⟨lit 0, lit 1, .inf false⟩ : V3 F32) ⟨-(lit 0), lit 1, .inf false⟩ = true ∧
    V3.eq (⟨lit 0, lit 1, .inf false⟩ : V3 F32) ⟨lit 0, lit 1, .inf true⟩ = false ∧
    V3.eq (⟨lit 0, .nan, lit 1⟩ : V3 F32) ⟨lit 0, .nan, lit 1⟩ = false := by decide +kernel

end Zcm
