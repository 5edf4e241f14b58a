import Mathlib.Data.Fin.VecNotation
import Mathlib.Tactic.FinCases
import Verif.Model.QuatBasic

/-!
# Specification: components of a vector, entries of a matrix

The property theorems speak about a vector, quaternion or matrix only through these functions:
`coord v i` is the `i`-th component of `v` (`x` is 0, `y` is 1, ...), `entry m c r` is the number
in column `c` and row `r` of `m`.
-/

namespace Zcm

/-- A type of `n`-component values. -/
class Coords (V : Type → Type) (n : outParam ℕ) where
  /-- the `i`-th component -/
  coord {β : Type} : V β → Fin n → β

export Coords (coord)

instance : Coords V2 2 := ⟨fun v => ![v.x, v.y]⟩
instance : Coords V3 3 := ⟨fun v => ![v.x, v.y, v.z]⟩
instance : Coords V4 4 := ⟨fun v => ![v.x, v.y, v.z, v.w]⟩
/-- a quaternion `w + xi + yj + zk` has components `x, y, z, w` in this order -/
instance : Coords Quat 4 := ⟨fun v => ![v.x, v.y, v.z, v.w]⟩

/-- A type of `n × n` matrices. -/
class Entries (M : Type → Type) (n : outParam ℕ) where
  /-- the number in column `c` and row `r` -/
  entry {β : Type} : M β → (c r : Fin n) → β

export Entries (entry)

instance : Entries M2 2 := ⟨fun m => ![coord m.c0, coord m.c1]⟩
instance : Entries M3 3 := ⟨fun m => ![coord m.c0, coord m.c1, coord m.c2]⟩
instance : Entries M4 4 := ⟨fun m => ![coord m.c0, coord m.c1, coord m.c2, coord m.c3]⟩

/-- Values with the same components are the same value. -/
theorem coord_inj2 {β : Type} {a b : V2 β} : (∀ i, coord a i = coord b i) ↔ a = b := by
  constructor
  · intro h; ext
    · exact h 0
    · exact h 1
  · rintro rfl i; rfl

theorem coord_inj3 {β : Type} {a b : V3 β} : (∀ i, coord a i = coord b i) ↔ a = b := by
  constructor
  · intro h; ext
    · exact h 0
    · exact h 1
    · exact h 2
  · rintro rfl i; rfl

theorem coord_inj4 {β : Type} {a b : V4 β} : (∀ i, coord a i = coord b i) ↔ a = b := by
  constructor
  · intro h; ext
    · exact h 0
    · exact h 1
    · exact h 2
    · exact h 3
  · rintro rfl i; rfl

theorem coord_injQ {β : Type} {a b : Quat β} : (∀ i, coord a i = coord b i) ↔ a = b := by
  constructor
  · intro h; ext
    · exact h 0
    · exact h 1
    · exact h 2
    · exact h 3
  · rintro rfl i; rfl

theorem entry_inj2 {β : Type} {a b : M2 β} : (∀ c r, entry a c r = entry b c r) ↔ a = b := by
  constructor
  · intro h; ext1
    · exact coord_inj2.1 (h 0)
    · exact coord_inj2.1 (h 1)
  · rintro rfl i j; rfl

theorem entry_inj3 {β : Type} {a b : M3 β} : (∀ c r, entry a c r = entry b c r) ↔ a = b := by
  constructor
  · intro h; ext1
    · exact coord_inj3.1 (h 0)
    · exact coord_inj3.1 (h 1)
    · exact coord_inj3.1 (h 2)
  · rintro rfl i j; rfl

theorem entry_inj4 {β : Type} {a b : M4 β} : (∀ c r, entry a c r = entry b c r) ↔ a = b := by
  constructor
  · intro h; ext1
    · exact coord_inj4.1 (h 0)
    · exact coord_inj4.1 (h 1)
    · exact coord_inj4.1 (h 2)
    · exact coord_inj4.1 (h 3)
  · rintro rfl i j; rfl

@[simp] theorem coord_v2_0 {β : Type} (v : V2 β) : coord v 0 = v.x := rfl
@[simp] theorem coord_v2_1 {β : Type} (v : V2 β) : coord v 1 = v.y := rfl
@[simp] theorem coord_v3_0 {β : Type} (v : V3 β) : coord v 0 = v.x := rfl
@[simp] theorem coord_v3_1 {β : Type} (v : V3 β) : coord v 1 = v.y := rfl
@[simp] theorem coord_v3_2 {β : Type} (v : V3 β) : coord v 2 = v.z := rfl
@[simp] theorem coord_v4_0 {β : Type} (v : V4 β) : coord v 0 = v.x := rfl
@[simp] theorem coord_v4_1 {β : Type} (v : V4 β) : coord v 1 = v.y := rfl
@[simp] theorem coord_v4_2 {β : Type} (v : V4 β) : coord v 2 = v.z := rfl
@[simp] theorem coord_v4_3 {β : Type} (v : V4 β) : coord v 3 = v.w := rfl
@[simp] theorem coord_q_0 {β : Type} (v : Quat β) : coord v 0 = v.x := rfl
@[simp] theorem coord_q_1 {β : Type} (v : Quat β) : coord v 1 = v.y := rfl
@[simp] theorem coord_q_2 {β : Type} (v : Quat β) : coord v 2 = v.z := rfl
@[simp] theorem coord_q_3 {β : Type} (v : Quat β) : coord v 3 = v.w := rfl

end Zcm
