import Verif.Spec.Coord
import Verif.Model.Accessors

/-!
# Specification: component names

`x y z w`, `r g b a` and `s t p q` are the three naming sets; the position of a letter in its set
is the number of the component it names.
-/

namespace Zcm

/-- The number of the component a letter names. -/
def letterIndex : Letter → ℕ
  | .x | .r | .s => 0
  | .y | .g | .t => 1
  | .z | .b | .p => 2
  | .w | .a | .q => 3

/-- The three naming sets. -/
def namingSets : List (List Letter) :=
  [[.x, .y, .z, .w], [.r, .g, .b, .a], [.s, .t, .p, .q]]

/-- The component of `v` that the letter `l` names, if `v` has one. -/
def named {V : Type → Type} {n : ℕ} [Coords V n] {β : Type} (v : V β) (l : Letter) : Option β :=
  if h : letterIndex l < n then some (coord v ⟨letterIndex l, h⟩) else none

/-- A legal swizzle name for a vector of width `n`: two to `n` letters, all from one naming set,
all naming components the vector has. -/
def SwizzleName (n : ℕ) (name : List Letter) : Prop :=
  2 ≤ name.length ∧ name.length ≤ n ∧
    (∃ s ∈ namingSets, ∀ l ∈ name, l ∈ s) ∧ ∀ l ∈ name, letterIndex l < n

/-- The components of a vector of any width, in order. -/
def AnyV.toList {β : Type} : AnyV β → List β
  | .v2 v => List.ofFn (coord v)
  | .v3 v => List.ofFn (coord v)
  | .v4 v => List.ofFn (coord v)

/-- `v'` is `v` with component `k` replaced by `s` and every other component untouched. -/
def WritesOnly {V : Type → Type} {n : ℕ} [Coords V n] {β : Type} (v v' : V β) (k : Fin n) (s : β) :
    Prop :=
  ∀ j, coord v' j = if j = k then s else coord v j

end Zcm
