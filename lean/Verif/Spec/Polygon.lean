import Verif.Model.F32
import Verif.Model.Geometric
import Verif.Model.Common
import Verif.Spec.Cull

/-!
# Specification: cutting a polygon with a plane, as a caller writes it

Not a file of /repo. A polygon is the list of its corners; the plane is `dot(n, p) + d = 0`, and the side with `dot(n, p) + d >= 0` is
kept. A new corner is always computed from the corner that is kept to the one that is cut off, whichever comes first.
-/

namespace Zcm

/-- Which side of the plane a point is on, given its height over the plane. -/
def keeps {P : Type} (height : P → F32) (p : P) : Bool := decide (lit 0 ≤ height p)

/-- What the edge from `a` to `b` contributes. -/
def clipEdge {P : Type} (height : P → F32) (cut : P → P → P) (a b : P) : List P :=
  if keeps height a then (if keeps height b then [a] else [a, cut a b])
  else (if keeps height b then [cut b a] else [])

/-- The edges of a polygon: every corner with the next one, the last with the first. -/
def edges {P : Type} (ps : List P) : List (P × P) := ps.zip (ps.rotate 1)

/-- The polygon that is left. -/
def clipPolygon {P : Type} (height : P → F32) (cut : P → P → P) (ps : List P) : List P :=
  (edges ps).flatMap fun e => clipEdge height cut e.1 e.2

/-- How many edges lead out of the kept side. -/
def leaving {P : Type} (height : P → F32) (ps : List P) : ℕ := (edges ps).countP fun e => keeps height e.1 && !keeps height e.2

/-- How many edges lead into the kept side. -/
def entering {P : Type} (height : P → F32) (ps : List P) : ℕ := (edges ps).countP fun e => !keeps height e.1 && keeps height e.2

/-- `dot(n, p) + d` for `vec2`. -/
def height2 (n : V2 F32) (d : F32) (p : V2 F32) : F32 := V2.dot n p + d
/-- `dot(n, p) + d` for `vec3`. -/
def height3 (n : V3 F32) (d : F32) (p : V3 F32) : F32 := V3.dot n p + d
/-- `dot(n, p) + d` for `vec4`. -/
def height4 (n : V4 F32) (d : F32) (p : V4 F32) : F32 := V4.dot n p + d

/-- The new corner on the edge from the kept corner `a` to the lost corner `b`: `mix(a, b, ha / (ha - hb))`, `vec2`. -/
def cut2 (n : V2 F32) (d : F32) (a b : V2 F32) : V2 F32 := V2.mixS a b (height2 n d a / (height2 n d a - height2 n d b))
/-- The same for `vec3`. -/
def cut3 (n : V3 F32) (d : F32) (a b : V3 F32) : V3 F32 := V3.mixS a b (height3 n d a / (height3 n d a - height3 n d b))
/-- The same for `vec4`. -/
def cut4 (n : V4 F32) (d : F32) (a b : V4 F32) : V4 F32 := V4.mixS a b (height4 n d a / (height4 n d a - height4 n d b))

/-- A plane whose normal has components of at most 1, such as a unit normal, and whose offset is at most `M`. -/
structure PlaneWithin {n : ℕ} (nor : Fin n → F32) (d : F32) (M : ℝ) : Prop where
  nor_fin : ∀ i, (nor i).IsFin = true
  nor_le : ∀ i, |((nor i).val : ℝ)| ≤ 1
  d_fin : d.IsFin = true
  d_le : |(d.val : ℝ)| ≤ M
  le_scale : 1 / 2 ^ 60 ≤ M
  scale_le : M ≤ 2 ^ 60

/-- A point whose coordinates are finite and at most `M`. -/
def PointWithin {n : ℕ} (p : Fin n → F32) (M : ℝ) : Prop := ∀ i, (p i).IsFin = true ∧ |((p i).val : ℝ)| ≤ M

end Zcm
