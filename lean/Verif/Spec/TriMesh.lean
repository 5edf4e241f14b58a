import Verif.Spec.Raster

/-!
# Specification: drawing a mesh of triangles, and the winding number of its boundary, as a caller writes them

Not a file of /repo.
-/

namespace Zcm

/-- How many triangles of the mesh draw the pixel `p`. -/
def meshDraws : List (V2 I32 × V2 I32 × V2 I32) → V2 I32 → Res ℕ
  | [], _ => pure 0
  | t :: ts, p => do
    let d ← drawsTriangle t.1 t.2.1 t.2.2 p
    let n ← meshDraws ts p
    pure (n + if d then 1 else 0)

/-- What an edge adds to the winding number around `p`:
`if (a.y <= p.y) { if (b.y > p.y && edgeFunction(a, b, p) > 0) ++w; } else if (b.y <= p.y && edgeFunction(a, b, p) < 0) --w;` -/
def turn (a b p : V2 I32) : Res ℤ := do
  if ¬ p.y < a.y then
    if p.y < b.y then
      let e ← edgeFunction a b p
      if I32.lit 0 < e then pure 1 else pure 0
    else pure 0
  else
    if ¬ p.y < b.y then
      let e ← edgeFunction a b p
      if e < I32.lit 0 then pure (-1) else pure 0
    else pure 0

/-- The winding number of a list of edges around `p`. -/
def winding : List (V2 I32 × V2 I32) → V2 I32 → Res ℤ
  | [], _ => pure 0
  | e :: es, p => do
    let t ← turn e.1 e.2 p
    let n ← winding es p
    pure (n + t)

/-- The directed edges of the triangles of a mesh. -/
def meshEdges (ts : List (V2 I32 × V2 I32 × V2 I32)) : List (V2 I32 × V2 I32) :=
  ts.flatMap fun t => [(t.1, t.2.1), (t.2.1, t.2.2), (t.2.2, t.1)]

/-- The closed path of edges through the corners `v`, then those of the list. -/
def polygonEdges (v : V2 I32) (l : List (V2 I32)) : List (V2 I32 × V2 I32) := (v :: l).zip (l ++ [v])

/-- Two lists of directed edges have the same edges left over when every edge is cancelled against one in the opposite direction. -/
def SameBoundary (l m : List (V2 I32 × V2 I32)) : Prop :=
  ∀ a b : V2 I32, (l.count (a, b) : ℤ) - l.count (b, a) = (m.count (a, b) : ℤ) - m.count (b, a)

/-- Every triangle of the mesh is anticlockwise and its corners are small. -/
def GoodMesh (ts : List (V2 I32 × V2 I32 × V2 I32)) : Prop :=
  ∀ t ∈ ts, SmallPixel t.1 ∧ SmallPixel t.2.1 ∧ SmallPixel t.2.2 ∧ 0 < areaZ t.1 t.2.1 t.2.2

end Zcm
