import Verif.Lemmas.Area

/-!
# C165  The area of a polygon from its edges

The caller's code is in `Spec/Area`.
-/

namespace Zcm

/-- C165: if the coordinates and the number of edges are small enough, the loop over the edges is defined and exact. -/
theorem C165_ivec2_exact (r : ℕ) (es : List (V2 I32 × V2 I32)) (h : FitsArea r es) : ∃ s, pathArea es = .ok s ∧ s.toInt = exactArea es := by
  obtain ⟨s, h1, h2, -⟩ := pathArea_ok h
  exact ⟨s, h1, h2⟩

/-- C165: the sum of the areas of the triangles of a mesh is the area computed from its boundary alone, whatever the triangles are; the sum
over the triangles cannot overflow if the one over the boundary cannot. -/
theorem C165_ivec2_mesh (r : ℕ) (ts : List (V2 I32 × V2 I32 × V2 I32)) (es : List (V2 I32 × V2 I32)) (ht : GoodMesh ts) (he : FitsArea r es)
    (h : SameBoundary (meshEdges ts) es) : ∃ s, pathArea es = .ok s ∧ meshArea ts = .ok s := by
  obtain ⟨s, h1, h2, h3⟩ := pathArea_ok he
  have z : (I32.lit 0).toInt = 0 := by decide
  have sum : (ts.map fun t => areaZ t.1 t.2.1 t.2.2).sum = exactArea es := by
    rw [mesh_sum, exactArea_eq, sum_of_boundary crossZ_swap h]
  obtain ⟨t, t1, t2⟩ := meshAreaLoop_ok ts (I32.lit 0) ht (by rw [z]) (by rw [z, zero_add, sum]; exact (abs_lt.1 h3).2)
  refine ⟨s, h1, ?_⟩
  have : t = s := I32.toInt_inj.1 (by rw [t2, z, zero_add, sum, h2])
  rw [← this]
  exact t1

/-- C165: the area does not depend on the corner one begins with. -/
theorem C165_ivec2_first_corner (r : ℕ) (v a : V2 I32) (l : List (V2 I32)) (h : FitsArea r (polygonEdges v (a :: l))) :
    ∃ s, pathArea (polygonEdges v (a :: l)) = .ok s ∧ pathArea (polygonEdges a (l ++ [v])) = .ok s := by
  have p := rotated_edges v a l
  have h' : FitsArea r (polygonEdges a (l ++ [v])) := ⟨fun e he => h.1 e (p.mem_iff.2 he), by rw [← p.length_eq]; exact h.2⟩
  obtain ⟨s, h1, h2, -⟩ := pathArea_ok h
  obtain ⟨t, k1, k2, -⟩ := pathArea_ok h'
  refine ⟨s, h1, ?_⟩
  have : t = s := I32.toInt_inj.1 (by rw [k2, h2, exactArea_eq, exactArea_eq, (p.map crossZ).sum_eq])
  rw [← this]
  exact k1

/-- C165: going round the other way changes the sign. -/
theorem C165_ivec2_other_way (r : ℕ) (es : List (V2 I32 × V2 I32)) (h : FitsArea r es) :
    ∃ s t, pathArea es = .ok s ∧ pathArea (es.map Prod.swap).reverse = .ok t ∧ t.toInt = -s.toInt := by
  have h' : FitsArea r (es.map Prod.swap).reverse := by
    refine ⟨fun e he => ?_, by simpa using h.2⟩
    obtain ⟨x, hx, rfl⟩ := List.mem_map.1 (List.mem_reverse.1 he)
    obtain ⟨h1, h2, h3, h4⟩ := h.1 x hx
    exact ⟨h3, h4, h1, h2⟩
  obtain ⟨s, h1, h2, -⟩ := pathArea_ok h
  obtain ⟨t, k1, k2, -⟩ := pathArea_ok h'
  refine ⟨s, t, h1, k1, ?_⟩
  rw [k2, h2, exactArea_eq, exactArea_eq, ((List.reverse_perm _).map crossZ).sum_eq]
  have : ∀ k : List (V2 I32 × V2 I32), ((k.map Prod.swap).map crossZ).sum = -(k.map crossZ).sum := by
    intro k
    induction k with
    | nil => rfl
    | cons e k ih =>
      simp only [List.map_cons, List.sum_cons] at ih ⊢
      rw [ih, show crossZ e.swap = -crossZ e from crossZ_swap e.1 e.2]
      ring
  exact this es

/-- C165: adding the same `ivec2` to all corners does not change the area. -/
theorem C165_ivec2_moved (r : ℕ) (d v v' : V2 I32) (l l' : List (V2 I32)) (hv : IV2.add v d = .ok v')
    (hl : List.Forall₂ (fun a a' => IV2.add a d = .ok a') l l') (h : FitsArea r (polygonEdges v l)) (h' : FitsArea r (polygonEdges v' l')) :
    ∃ s, pathArea (polygonEdges v l) = .ok s ∧ pathArea (polygonEdges v' l') = .ok s := by
  have add : ∀ {a a' : V2 I32}, IV2.add a d = .ok a' → a'.x.toInt = a.x.toInt + d.x.toInt ∧ a'.y.toInt = a.y.toInt + d.y.toInt := by
    intro a a' ha
    have one : ∀ {x y z : I32}, I32.add x y = .ok z → z.toInt = x.toInt + y.toInt := by
      intro x y z hz
      have := isInt_add x y
      unfold intAdd Zcm.fits at this
      split_ifs at this with hf
      · obtain ⟨w, w1, w2⟩ := this
        rw [hz] at w1
        injection w1 with w1
        rw [w1]
        exact w2
      · rw [hz] at this
        exact absurd (show Res.ok z = Res.ub from this) (by simp)
    unfold IV2.add V2.macroVV at ha
    cases hx : I32.add a.x d.x with
    | ok x =>
      cases hy : I32.add a.y d.y with
      | ok y =>
        rw [hx, hy] at ha
        have : (⟨x, y⟩ : V2 I32) = a' := by injection ha
        rw [← this]
        exact ⟨one hx, one hy⟩
      | ub => rw [hx, hy] at ha; exact absurd ha (by simp [bind, Res.bind])
      | abort => rw [hx, hy] at ha; exact absurd ha (by simp [bind, Res.bind])
    | ub => rw [hx] at ha; exact absurd ha (by simp [bind, Res.bind])
    | abort => rw [hx] at ha; exact absurd ha (by simp [bind, Res.bind])
  obtain ⟨s, h1, h2, -⟩ := pathArea_ok h
  obtain ⟨t, k1, k2, -⟩ := pathArea_ok h'
  refine ⟨s, h1, ?_⟩
  have : t = s := I32.toInt_inj.1 (by rw [k2, h2, moved_area d.x.toInt d.y.toInt (add hv) (hl.imp fun _ _ ha => add ha)])
  rw [← this]
  exact k1

/-- C165: the area of a convex polygon with at least three corners is positive. -/
theorem C165_ivec2_positive (r : ℕ) (v a b : V2 I32) (l : List (V2 I32)) (h : FitsArea r (polygonEdges v (a :: b :: l)))
    (hc : ConvexPolygon v (a :: b :: l)) : ∃ s, pathArea (polygonEdges v (a :: b :: l)) = .ok s ∧ 0 < s.toInt := by
  obtain ⟨s, h1, h2, -⟩ := pathArea_ok h
  refine ⟨s, h1, ?_⟩
  rw [h2, exactArea_eq]
  exact (left_area a (b :: l) hc.order).2 (by simp)

/-- Too far: around the square with the corners (±23170, ±23170), and the sum is no `int`. -/
theorem C165_ivec2_overflow : ∃ es : List (V2 I32 × V2 I32), (∀ e ∈ es, SmallPixel e.1 ∧ SmallPixel e.2) ∧ pathArea es = .ub := by
  let p : ℤ → ℤ → V2 I32 := fun x y => ⟨I32.lit x, I32.lit y⟩
  refine ⟨polygonEdges (p (-23170) (-23170)) [p 23170 (-23170), p 23170 23170, p (-23170) 23170], ?_, by decide⟩
  unfold SmallPixel
  decide

private def pt (x y : ℤ) : V2 I32 := ⟨I32.lit x, I32.lit y⟩

private instance (r : ℕ) (es : List (V2 I32 × V2 I32)) : Decidable (FitsArea r es) := by unfold FitsArea; infer_instance
private instance (p : V2 I32) : Decidable (SmallPixel p) := by unfold SmallPixel; infer_instance
private instance (ts : List (V2 I32 × V2 I32 × V2 I32)) : Decidable (GoodMesh ts) := by unfold GoodMesh; infer_instance

/-- A quadrilateral of area 47: from its edges, and as four triangles with a corner inside. -/
example : FitsArea 9 (polygonEdges (pt 0 0) [pt 8 1, pt 9 7, pt 1 6]) ∧ ConvexPolygon (pt 0 0) [pt 8 1, pt 9 7, pt 1 6] ∧
    GoodMesh [(pt 0 0, pt 8 1, pt 4 3), (pt 8 1, pt 9 7, pt 4 3), (pt 9 7, pt 1 6, pt 4 3), (pt 1 6, pt 0 0, pt 4 3)] ∧
    SameBoundary (meshEdges [(pt 0 0, pt 8 1, pt 4 3), (pt 8 1, pt 9 7, pt 4 3), (pt 9 7, pt 1 6, pt 4 3), (pt 1 6, pt 0 0, pt 4 3)])
      (polygonEdges (pt 0 0) [pt 8 1, pt 9 7, pt 1 6]) ∧
    pathArea (polygonEdges (pt 0 0) [pt 8 1, pt 9 7, pt 1 6]) = .ok (I32.lit 94) ∧
    IV2.add (pt 8 1) (pt 1 (-7)) = .ok (pt 9 (-6)) :=
  ⟨by decide, ⟨by decide, by decide⟩, by decide, sameBoundary_of_perm (by decide), by decide, by decide⟩

end Zcm
