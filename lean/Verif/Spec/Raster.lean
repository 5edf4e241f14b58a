import Verif.Model.IVec

/-!
# Specification: drawing a polygon as a fan of triangles with integer edge functions, as a caller writes it

Not a file of /repo. Pixels and corners are `ivec2`. A pixel on an edge belongs to the triangle for which the edge goes down, or level to
the right (the rule of graphics hardware, which draws every pixel on a shared edge once).
-/

namespace Zcm

/-- `ivec2 d = b - a, q = p - a; ivec2 m = d * ivec2(q.y, q.x); return m.x - m.y;` -/
def edgeFunction (a b p : V2 I32) : Res I32 := do
  let d ← IV2.sub b a
  let q ← IV2.sub p a
  let m ← IV2.mul d ⟨q.y, q.x⟩
  I32.sub m.x m.y

/-- `ivec2 d = b - a; int e = edgeFunction(a, b, p); return e > 0 || (e == 0 && (d.y < 0 || (d.y == 0 && d.x > 0)));` -/
def ownsEdge (a b p : V2 I32) : Res Bool := do
  let d ← IV2.sub b a
  let e ← edgeFunction a b p
  pure (decide (I32.lit 0 < e) || (e == I32.lit 0 && (decide (d.y < I32.lit 0) || (d.y == I32.lit 0 && decide (I32.lit 0 < d.x)))))

/-- Does the triangle `a b c` draw the pixel `p`? -/
def drawsTriangle (a b c p : V2 I32) : Res Bool := do
  let x ← ownsEdge a b p
  let y ← ownsEdge b c p
  let z ← ownsEdge c a p
  pure (x && y && z)

/-- How many triangles of the fan with tip `v` over the corners of the list draw the pixel `p`. -/
def fanDraws (v : V2 I32) : List (V2 I32) → V2 I32 → Res ℕ
  | a :: b :: l, p => do
    let t ← drawsTriangle v a b p
    let n ← fanDraws v (b :: l) p
    pure (n + if t then 1 else 0)
  | _, _ => pure 0

/-- Is the pixel on the inner side of every edge of the path? -/
def ownsPath : List (V2 I32) → V2 I32 → Res Bool
  | a :: b :: l, p => do
    let t ← ownsEdge a b p
    let n ← ownsPath (b :: l) p
    pure (t && n)
  | _, _ => pure true

/-- Is the pixel in the polygon with the corners `v`, then those of the list? -/
def inPolygon (v : V2 I32) (l : List (V2 I32)) (p : V2 I32) : Res Bool := ownsPath (v :: (l ++ [v])) p

/-- Coordinates for which nothing overflows: from -23170 to 23170. -/
def SmallPixel (p : V2 I32) : Prop := |p.x.toInt| ≤ 23170 ∧ |p.y.toInt| ≤ 23170

/-- Twice the exact signed area of the triangle `a b p`, as an integer. -/
def areaZ (a b p : V2 I32) : ℤ :=
  (b.x.toInt - a.x.toInt) * (p.y.toInt - a.y.toInt) - (b.y.toInt - a.y.toInt) * (p.x.toInt - a.x.toInt)

/-- A polygon with the corners `v`, then those of the list, in anticlockwise order: no edge is a point, no corner lies on the right of an
edge, and seen from `v` every later corner lies strictly to the left of every earlier one. -/
structure ConvexPolygon (v : V2 I32) (l : List (V2 I32)) : Prop where
  order : l.Pairwise fun a b => 0 < areaZ v a b
  edges : ∀ e ∈ (v :: (l ++ [v])).zip (l ++ [v]), e.1 ≠ e.2 ∧ ∀ w ∈ v :: l, 0 ≤ areaZ e.1 e.2 w

end Zcm
