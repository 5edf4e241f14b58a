import Verif.Model.F32
import Verif.Model.Common

/-!
# Specification: regions cut into triangles
-/

namespace Zcm

/-- `Region E T`: a region with the directed border edges `E` that is cut into the triangles `T`. It is one triangle, or two regions glued
along an edge, which one has in one direction and the other in the opposite direction; the order of the border edges does not matter. Fans,
strips, and all ways to cut a polygon along diagonals are of this kind. -/
inductive Region {V : Type} : List (V × V) → List (V × V × V) → Prop
  | triangle (a b c : V) : Region [(a, b), (b, c), (c, a)] [(a, b, c)]
  | glue {a b : V} {E F : List (V × V)} {T U : List (V × V × V)} : Region ((a, b) :: E) T → Region ((b, a) :: F) U → Region (E ++ F) (T ++ U)
  | reorder {E F : List (V × V)} {T : List (V × V × V)} : Region E T → E.Perm F → Region F T

/-- The edges of the way from `u` through the list to `w`. -/
def walk {V : Type} (u : V) : List V → V → List (V × V)
  | [], w => [(u, w)]
  | x :: xs, w => (u, x) :: walk x xs w

/-- The triangles between `o` and the edges of the way from `u` through the list. -/
def fan {V : Type} (o u : V) : List V → List (V × V × V)
  | [] => []
  | x :: xs => (o, u, x) :: fan o x xs

/-- The triangle passes the three edge tests. -/
def Passes {V : Type} (e : V → V → F32) (t : V × V × V) : Prop := lit 0 ≤ e t.1 t.2.1 ∧ lit 0 ≤ e t.2.1 t.2.2 ∧ lit 0 ≤ e t.2.2 t.1

/-- The triangle passes the three edge tests strictly. -/
def PassesStrictly {V : Type} (e : V → V → F32) (t : V × V × V) : Prop := lit 0 < e t.1 t.2.1 ∧ lit 0 < e t.2.1 t.2.2 ∧ lit 0 < e t.2.2 t.1

end Zcm
