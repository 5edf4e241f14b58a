import Verif.Spec.TriMesh

/-!
# Specification: the area of a polygon and of a mesh, as a caller writes it

Not a file of /repo.
-/

namespace Zcm

/-- The loop: `for (edge e : edges) { ivec2 m = e.a * ivec2(e.b.y, e.b.x); s += m.x - m.y; }` -/
def areaLoop (s : I32) : List (V2 I32 × V2 I32) → Res I32
  | [] => pure s
  | e :: es => do
    let m ← IV2.mul e.1 ⟨e.2.y, e.2.x⟩
    let c ← I32.sub m.x m.y
    areaLoop (← I32.add s c) es

/-- Twice the area inside a closed path, from its edges: `int s = 0;` and the loop. -/
def pathArea (es : List (V2 I32 × V2 I32)) : Res I32 := areaLoop (I32.lit 0) es

/-- The loop: `for (triangle t : mesh) s += edgeFunction(t.a, t.b, t.c);` -/
def meshAreaLoop (s : I32) : List (V2 I32 × V2 I32 × V2 I32) → Res I32
  | [] => pure s
  | t :: ts => do
    let c ← edgeFunction t.1 t.2.1 t.2.2
    meshAreaLoop (← I32.add s c) ts

/-- Twice the area of a mesh: `int s = 0;` and the loop. -/
def meshArea (ts : List (V2 I32 × V2 I32 × V2 I32)) : Res I32 := meshAreaLoop (I32.lit 0) ts

/-- The corners have coordinates from `-r` to `r`, and the sum of as many terms as there are edges cannot overflow. -/
def FitsArea (r : ℕ) (es : List (V2 I32 × V2 I32)) : Prop :=
  (∀ e ∈ es, |e.1.x.toInt| ≤ r ∧ |e.1.y.toInt| ≤ r ∧ |e.2.x.toInt| ≤ r ∧ |e.2.y.toInt| ≤ r) ∧ es.length * (2 * r * r) < 2 ^ 31

/-- Twice the signed area, exactly: the sum of the cross products of the ends of the edges. -/
def exactArea (es : List (V2 I32 × V2 I32)) : ℤ := (es.map fun e => e.1.x.toInt * e.2.y.toInt - e.1.y.toInt * e.2.x.toInt).sum

end Zcm
