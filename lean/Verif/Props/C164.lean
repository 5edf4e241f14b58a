import Verif.Lemmas.TriMesh
import Verif.Props.C162

/-!
# C164  Drawing a mesh of triangles: how often a pixel is drawn depends on the boundary only

The caller's code is in `Spec/TriMesh` and `Spec/Raster`.
-/

namespace Zcm

/-- C164: the number of triangles of a mesh that draw a pixel is the winding number of its boundary around the pixel. -/
theorem C164_ivec2_winding (ts : List (V2 I32 × V2 I32 × V2 I32)) (es : List (V2 I32 × V2 I32)) (p : V2 I32) (ht : GoodMesh ts)
    (he : ∀ e ∈ es, SmallPixel e.1 ∧ SmallPixel e.2) (hp : SmallPixel p) (h : SameBoundary (meshEdges ts) es) :
    ∃ n : ℕ, meshDraws ts p = .ok n ∧ winding es p = .ok (n : ℤ) := by
  obtain ⟨n, h1, h2⟩ := meshDraws_ok hp ts ht
  refine ⟨n, h1, (winding_ok hp es he).trans ?_⟩
  rw [h2, sum_of_boundary (fun a b => turnZ_swap p a b) h]

/-- C164: two meshes with the same boundary draw every pixel equally often, however the area is cut into triangles. -/
theorem C164_ivec2_same_boundary (ts us : List (V2 I32 × V2 I32 × V2 I32)) (p : V2 I32) (ht : GoodMesh ts) (hu : GoodMesh us)
    (hp : SmallPixel p) (h : SameBoundary (meshEdges ts) (meshEdges us)) : ∃ n, meshDraws ts p = .ok n ∧ meshDraws us p = .ok n := by
  obtain ⟨n, h1, h2⟩ := meshDraws_ok hp ts ht
  obtain ⟨m, k1, k2⟩ := meshDraws_ok hp us hu
  refine ⟨n, h1, ?_⟩
  rw [k1]
  have : (m : ℤ) = n := by rw [h2, k2, sum_of_boundary (fun a b => turnZ_swap p a b) h]
  congr 1
  exact_mod_cast this

/-- C164: for a convex polygon the winding number is one for the pixels of the polygon and zero for all others. -/
theorem C164_ivec2_convex (v : V2 I32) (l : List (V2 I32)) (p : V2 I32) (hv : SmallPixel v) (hl : ∀ a ∈ l, SmallPixel a)
    (hp : SmallPixel p) (h : ConvexPolygon v l) :
    ∃ b, inPolygon v l p = .ok b ∧ winding (polygonEdges v l) p = .ok (if b then 1 else 0) := by
  obtain ⟨b, h1, h2⟩ := C162_ivec2_polygon v l p hv hl hp h
  refine ⟨b, h1, ?_⟩
  have e : fanZ v l p = if b then 1 else 0 := by
    have := (fanDraws_ok hv hp l hl).symm.trans h2
    injection this
  rw [winding_ok hp, ← polygon_turns l h.order, e]
  · cases b <;> rfl
  · intro e he
    have := List.of_mem_zip (show (e.1, e.2) ∈ (v :: l).zip (l ++ [v]) from he)
    simp only [List.mem_cons, List.mem_append, List.not_mem_nil, or_false] at this
    exact ⟨this.1.elim (fun h => h ▸ hv) (hl _), this.2.elim (hl _) (fun h => h ▸ hv)⟩

/-- C164: however a convex polygon is cut into triangles, also with new corners inside, each pixel of the polygon is drawn exactly once and
no other pixel is drawn. -/
theorem C164_ivec2_any_triangles (v : V2 I32) (l : List (V2 I32)) (ts : List (V2 I32 × V2 I32 × V2 I32)) (p : V2 I32) (hv : SmallPixel v)
    (hl : ∀ a ∈ l, SmallPixel a) (hp : SmallPixel p) (h : ConvexPolygon v l) (ht : GoodMesh ts)
    (hb : SameBoundary (meshEdges ts) (polygonEdges v l)) : ∃ b, inPolygon v l p = .ok b ∧ meshDraws ts p = .ok (if b then 1 else 0) := by
  obtain ⟨b, h1, h2⟩ := C162_ivec2_polygon v l p hv hl hp h
  refine ⟨b, h1, ?_⟩
  have e : fanZ v l p = if b then 1 else 0 := by
    have := (fanDraws_ok hv hp l hl).symm.trans h2
    injection this
  obtain ⟨n, k1, k2⟩ := meshDraws_ok hp ts ht
  rw [k1]
  congr 1
  have : (n : ℤ) = fanZ v l p := by rw [k2, polygon_turns l h.order, sum_of_boundary (fun a b => turnZ_swap p a b) hb]
  rw [← e]
  exact_mod_cast this

private def pt (x y : ℤ) : V2 I32 := ⟨I32.lit x, I32.lit y⟩

private instance (p : V2 I32) : Decidable (SmallPixel p) := by unfold SmallPixel; infer_instance
private instance (ts : List (V2 I32 × V2 I32 × V2 I32)) : Decidable (GoodMesh ts) := by unfold GoodMesh; infer_instance

/-- A quadrilateral cut along one diagonal, along the other, and into four triangles with a new corner inside: meshes with the same boundary,
which is that of the convex polygon. -/
example : GoodMesh [(pt 0 0, pt 8 1, pt 9 7), (pt 0 0, pt 9 7, pt 1 6)] ∧ GoodMesh [(pt 0 0, pt 8 1, pt 1 6), (pt 8 1, pt 9 7, pt 1 6)] ∧
    SameBoundary (meshEdges [(pt 0 0, pt 8 1, pt 9 7), (pt 0 0, pt 9 7, pt 1 6)]) (meshEdges [(pt 0 0, pt 8 1, pt 1 6), (pt 8 1, pt 9 7, pt 1 6)]) ∧
    GoodMesh [(pt 0 0, pt 8 1, pt 4 3), (pt 8 1, pt 9 7, pt 4 3), (pt 9 7, pt 1 6, pt 4 3), (pt 1 6, pt 0 0, pt 4 3)] ∧
    SameBoundary (meshEdges [(pt 0 0, pt 8 1, pt 4 3), (pt 8 1, pt 9 7, pt 4 3), (pt 9 7, pt 1 6, pt 4 3), (pt 1 6, pt 0 0, pt 4 3)])
      (polygonEdges (pt 0 0) [pt 8 1, pt 9 7, pt 1 6]) ∧ ConvexPolygon (pt 0 0) [pt 8 1, pt 9 7, pt 1 6] :=
  ⟨by decide, by decide, sameBoundary_of_perm (by decide), by decide, sameBoundary_of_perm (by decide), ⟨by decide, by decide⟩⟩

/-- A pixel at the new corner is drawn once by the four triangles; and a mesh that is not convex, the boundary of which winds once around (0,4) and not around (3,3). -/
example : meshDraws [(pt 0 0, pt 8 1, pt 4 3), (pt 8 1, pt 9 7, pt 4 3), (pt 9 7, pt 1 6, pt 4 3), (pt 1 6, pt 0 0, pt 4 3)] (pt 4 3) = .ok 1 ∧
    GoodMesh [(pt 0 0, pt 6 0, pt 2 2), (pt 0 0, pt 2 2, pt 0 6)] ∧
    SameBoundary (meshEdges [(pt 0 0, pt 6 0, pt 2 2), (pt 0 0, pt 2 2, pt 0 6)]) (polygonEdges (pt 0 0) [pt 6 0, pt 2 2, pt 0 6]) ∧
    winding (polygonEdges (pt 0 0) [pt 6 0, pt 2 2, pt 0 6]) (pt 0 4) = .ok 1 ∧
    winding (polygonEdges (pt 0 0) [pt 6 0, pt 2 2, pt 0 6]) (pt 3 3) = .ok 0 :=
  ⟨by decide, by decide, sameBoundary_of_perm (by decide), by decide, by decide⟩

end Zcm
