import Verif.Spec.Coord

/-!
# C10: ivec ordering is a strict total lexicographic order

`ints v` is the list of the integer values of the components; `<` on lists of integers is the
lexicographic order of Lean's standard library.
-/

set_option linter.unusedSimpArgs false

namespace Zcm

/-- The integer values of the components, first to last. -/
def ints {V : Type → Type} {n : ℕ} [Coords V n] (v : V I32) : List ℤ :=
  List.ofFn fun i => (coord v i).toInt

private theorem toInt_inj {a b : I32} : a.toInt = b.toInt ↔ a = b := by
  constructor
  · intro h; ext1; exact BitVec.toInt_inj.1 h
  · rintro rfl; rfl

private theorem lt_def (a b : I32) : a < b ↔ a.toInt < b.toInt := Iff.rfl

private theorem ints_inj2 {a b : V2 I32} : ints a = ints b ↔ a = b := by
  constructor
  · intro h
    refine coord_inj2.1 fun i => toInt_inj.1 ?_
    exact congrFun (List.ofFn_injective h) i
  · rintro rfl; rfl

/-- C10 for `ivec2`: `<` is the lexicographic order and the other relations derive from it. -/
theorem C10_ivec2 (a b : V2 I32) :
    (IV2.lt a b = true ↔ ints a < ints b) ∧
    (IV2.le a b = true ↔ ints a ≤ ints b) ∧
    (IV2.gt a b = true ↔ ints b < ints a) ∧
    (IV2.ge a b = true ↔ ints b ≤ ints a) ∧
    (IV2.eq a b = true ↔ ints a = ints b) := by
  have key : ∀ a b : V2 I32, IV2.lt a b = true ↔ ints a < ints b := by
    intro a b
    simp only [ints, List.ofFn_succ, List.ofFn_zero, coord, List.cons_lt_cons_iff, IV2.lt, lt_def]
    simp
    omega
  refine ⟨key a b, ?_, key b a, ?_, ?_⟩
  · rw [IV2.le, Bool.not_eq_true', ← Bool.not_eq_true, key]; exact not_lt
  · rw [IV2.ge, Bool.not_eq_true', ← Bool.not_eq_true, key]; exact not_lt
  · rw [ints_inj2]
    simp [IV2.eq, V2.ext_iff, and_assoc]

/-- C10 for `ivec2`: the laws a key type of an ordered container must satisfy. -/
theorem C10_ivec2_order :
    (∀ a : V2 I32, IV2.lt a a = false) ∧
    (∀ a b c : V2 I32, IV2.lt a b = true → IV2.lt b c = true → IV2.lt a c = true) ∧
    (∀ a b : V2 I32, IV2.lt a b = true ∨ a = b ∨ IV2.lt b a = true) ∧
    (∀ a b : V2 I32, IV2.lt a b = false → IV2.lt b a = false → IV2.eq a b = true) ∧
    (∀ a b : V2 I32, IV2.le a b = true ↔ IV2.lt a b = true ∨ IV2.eq a b = true) := by
  refine ⟨fun a => ?_, fun a b c h1 h2 => ?_, fun a b => ?_, fun a b h1 h2 => ?_, fun a b => ?_⟩
  · rw [← Bool.not_eq_true, (C10_ivec2 a a).1]; exact lt_irrefl _
  · rw [(C10_ivec2 _ _).1] at *; exact lt_trans h1 h2
  · rw [(C10_ivec2 a b).1, (C10_ivec2 b a).1, ← ints_inj2]; exact lt_trichotomy _ _
  · rw [← Bool.not_eq_true, (C10_ivec2 _ _).1] at h1 h2
    rw [(C10_ivec2 a b).2.2.2.2]
    exact le_antisymm (not_lt.1 h2) (not_lt.1 h1)
  · rw [(C10_ivec2 a b).2.1, (C10_ivec2 a b).1, (C10_ivec2 a b).2.2.2.2]; exact le_iff_lt_or_eq

private theorem ints_inj3 {a b : V3 I32} : ints a = ints b ↔ a = b := by
  constructor
  · intro h
    refine coord_inj3.1 fun i => toInt_inj.1 ?_
    exact congrFun (List.ofFn_injective h) i
  · rintro rfl; rfl

/-- C10 for `ivec3`: `<` is the lexicographic order and the other relations derive from it. -/
theorem C10_ivec3 (a b : V3 I32) :
    (IV3.lt a b = true ↔ ints a < ints b) ∧
    (IV3.le a b = true ↔ ints a ≤ ints b) ∧
    (IV3.gt a b = true ↔ ints b < ints a) ∧
    (IV3.ge a b = true ↔ ints b ≤ ints a) ∧
    (IV3.eq a b = true ↔ ints a = ints b) := by
  have key : ∀ a b : V3 I32, IV3.lt a b = true ↔ ints a < ints b := by
    intro a b
    simp only [ints, List.ofFn_succ, List.ofFn_zero, coord, List.cons_lt_cons_iff, IV3.lt, lt_def]
    simp
    omega
  refine ⟨key a b, ?_, key b a, ?_, ?_⟩
  · rw [IV3.le, Bool.not_eq_true', ← Bool.not_eq_true, key]; exact not_lt
  · rw [IV3.ge, Bool.not_eq_true', ← Bool.not_eq_true, key]; exact not_lt
  · rw [ints_inj3]
    simp [IV3.eq, V3.ext_iff, and_assoc]

/-- C10 for `ivec3`: the laws a key type of an ordered container must satisfy. -/
theorem C10_ivec3_order :
    (∀ a : V3 I32, IV3.lt a a = false) ∧
    (∀ a b c : V3 I32, IV3.lt a b = true → IV3.lt b c = true → IV3.lt a c = true) ∧
    (∀ a b : V3 I32, IV3.lt a b = true ∨ a = b ∨ IV3.lt b a = true) ∧
    (∀ a b : V3 I32, IV3.lt a b = false → IV3.lt b a = false → IV3.eq a b = true) ∧
    (∀ a b : V3 I32, IV3.le a b = true ↔ IV3.lt a b = true ∨ IV3.eq a b = true) := by
  refine ⟨fun a => ?_, fun a b c h1 h2 => ?_, fun a b => ?_, fun a b h1 h2 => ?_, fun a b => ?_⟩
  · rw [← Bool.not_eq_true, (C10_ivec3 a a).1]; exact lt_irrefl _
  · rw [(C10_ivec3 _ _).1] at *; exact lt_trans h1 h2
  · rw [(C10_ivec3 a b).1, (C10_ivec3 b a).1, ← ints_inj3]; exact lt_trichotomy _ _
  · rw [← Bool.not_eq_true, (C10_ivec3 _ _).1] at h1 h2
    rw [(C10_ivec3 a b).2.2.2.2]
    exact le_antisymm (not_lt.1 h2) (not_lt.1 h1)
  · rw [(C10_ivec3 a b).2.1, (C10_ivec3 a b).1, (C10_ivec3 a b).2.2.2.2]; exact le_iff_lt_or_eq

private theorem ints_inj4 {a b : V4 I32} : ints a = ints b ↔ a = b := by
  constructor
  · intro h
    refine coord_inj4.1 fun i => toInt_inj.1 ?_
    exact congrFun (List.ofFn_injective h) i
  · rintro rfl; rfl

/-- C10 for `ivec4`: `<` is the lexicographic order and the other relations derive from it. -/
theorem C10_ivec4 (a b : V4 I32) :
    (IV4.lt a b = true ↔ ints a < ints b) ∧
    (IV4.le a b = true ↔ ints a ≤ ints b) ∧
    (IV4.gt a b = true ↔ ints b < ints a) ∧
    (IV4.ge a b = true ↔ ints b ≤ ints a) ∧
    (IV4.eq a b = true ↔ ints a = ints b) := by
  have key : ∀ a b : V4 I32, IV4.lt a b = true ↔ ints a < ints b := by
    intro a b
    simp only [ints, List.ofFn_succ, List.ofFn_zero, coord, List.cons_lt_cons_iff, IV4.lt, lt_def]
    simp
    omega
  refine ⟨key a b, ?_, key b a, ?_, ?_⟩
  · rw [IV4.le, Bool.not_eq_true', ← Bool.not_eq_true, key]; exact not_lt
  · rw [IV4.ge, Bool.not_eq_true', ← Bool.not_eq_true, key]; exact not_lt
  · rw [ints_inj4]
    simp [IV4.eq, V4.ext_iff, and_assoc]

/-- C10 for `ivec4`: the laws a key type of an ordered container must satisfy. -/
theorem C10_ivec4_order :
    (∀ a : V4 I32, IV4.lt a a = false) ∧
    (∀ a b c : V4 I32, IV4.lt a b = true → IV4.lt b c = true → IV4.lt a c = true) ∧
    (∀ a b : V4 I32, IV4.lt a b = true ∨ a = b ∨ IV4.lt b a = true) ∧
    (∀ a b : V4 I32, IV4.lt a b = false → IV4.lt b a = false → IV4.eq a b = true) ∧
    (∀ a b : V4 I32, IV4.le a b = true ↔ IV4.lt a b = true ∨ IV4.eq a b = true) := by
  refine ⟨fun a => ?_, fun a b c h1 h2 => ?_, fun a b => ?_, fun a b h1 h2 => ?_, fun a b => ?_⟩
  · rw [← Bool.not_eq_true, (C10_ivec4 a a).1]; exact lt_irrefl _
  · rw [(C10_ivec4 _ _).1] at *; exact lt_trans h1 h2
  · rw [(C10_ivec4 a b).1, (C10_ivec4 b a).1, ← ints_inj4]; exact lt_trichotomy _ _
  · rw [← Bool.not_eq_true, (C10_ivec4 _ _).1] at h1 h2
    rw [(C10_ivec4 a b).2.2.2.2]
    exact le_antisymm (not_lt.1 h2) (not_lt.1 h1)
  · rw [(C10_ivec4 a b).2.1, (C10_ivec4 a b).1, (C10_ivec4 a b).2.2.2.2]; exact le_iff_lt_or_eq

/-- Non-vacuity: the first component decides, then the second; components are signed. -/
example : IV2.lt ⟨I32.lit (-1), I32.lit 5⟩ ⟨I32.lit 0, I32.lit 0⟩ = true ∧
    IV2.lt ⟨I32.lit 0, I32.lit 5⟩ ⟨I32.lit 0, I32.lit (-7)⟩ = false := by decide

end Zcm
