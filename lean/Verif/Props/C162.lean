import Verif.Lemmas.Raster

/-!
# C162  Drawing a polygon as a fan of triangles: no pixel twice, none left out

The caller's code is in `Spec/Raster`.
-/

namespace Zcm

/-- C162: with coordinates from -23170 to 23170 the edge function is defined and is twice the exact signed area, and a pixel belongs to the
inner side exactly if that is positive, or it is zero and the edge goes down, or level to the right. -/
theorem C162_ivec2_exact (a b p : V2 I32) (ha : SmallPixel a) (hb : SmallPixel b) (hp : SmallPixel p) :
    (∃ e, edgeFunction a b p = .ok e ∧ e.toInt = areaZ a b p) ∧
    ownsEdge a b p = .ok (decide (0 < areaZ a b p ∨
      areaZ a b p = 0 ∧ (b.y.toInt < a.y.toInt ∨ b.y.toInt = a.y.toInt ∧ a.x.toInt < b.x.toInt))) := by
  obtain ⟨e, h1, h2, h3⟩ := ownsEdge_ok ha hb hp
  refine ⟨⟨e, h1, h2⟩, h3.trans ?_⟩
  congr 1
  rw [decide_eq_decide]
  unfold ownsZ
  rw [sub_neg, sub_eq_zero, sub_pos]

/-- The bound 23170 cannot be raised to 23171: then the product of two sides is no `int`. -/
theorem C162_ivec2_overflow :
    ∃ a b p : V2 I32, (∀ q ∈ [a, b, p], |q.x.toInt| ≤ 23171 ∧ |q.y.toInt| ≤ 23171) ∧ edgeFunction a b p = .ub :=
  ⟨⟨I32.lit (-23171), I32.lit (-23171)⟩, ⟨I32.lit 23171, I32.lit (-23171)⟩, ⟨I32.lit 0, I32.lit 23171⟩, by decide, by decide⟩

/-- C162: of two triangles that share an edge and lie on its two sides, exactly one has the pixel on the inner side of that edge. -/
theorem C162_ivec2_shared_edge (a b p : V2 I32) (ha : SmallPixel a) (hb : SmallPixel b) (hp : SmallPixel p) (h : a ≠ b) :
    ∃ s, ownsEdge a b p = .ok s ∧ ownsEdge b a p = .ok (!s) := by
  obtain ⟨-, -, -, h1⟩ := ownsEdge_ok ha hb hp
  obtain ⟨-, -, -, h2⟩ := ownsEdge_ok hb ha hp
  refine ⟨_, h1, h2.trans ?_⟩
  congr 1
  rw [← decide_not, decide_eq_decide]
  exact ownsZ_swap h

/-- C162: two triangles on the two sides of a shared edge never draw the same pixel, also if they are far from being parts of a convex
polygon or are turned the wrong way. -/
theorem C162_ivec2_two_triangles (a b c d p : V2 I32) (ha : SmallPixel a) (hb : SmallPixel b) (hc : SmallPixel c) (hd : SmallPixel d)
    (hp : SmallPixel p) : ∃ s t, drawsTriangle a b c p = .ok s ∧ drawsTriangle b a d p = .ok t ∧ (s && t) = false := by
  obtain ⟨-, -, -, h1⟩ := ownsEdge_ok ha hb hp
  obtain ⟨-, -, -, h2⟩ := ownsEdge_ok hb hc hp
  obtain ⟨-, -, -, h3⟩ := ownsEdge_ok hc ha hp
  obtain ⟨-, -, -, k1⟩ := ownsEdge_ok hb ha hp
  obtain ⟨-, -, -, k2⟩ := ownsEdge_ok ha hd hp
  obtain ⟨-, -, -, k3⟩ := ownsEdge_ok hd hb hp
  refine ⟨_, _, ok_step h1 (ok_step h2 (ok_step h3 rfl)), ok_step k1 (ok_step k2 (ok_step k3 rfl)), ?_⟩
  by_cases h : ownsZ b a p
  · have := ownsZ_excl h
    simp [this]
  · simp [h]

/-- C162: if seen from the tip every later corner lies to the left of every earlier one, at most one triangle of the fan draws a pixel. -/
theorem C162_ivec2_at_most_once (v : V2 I32) (l : List (V2 I32)) (p : V2 I32) (hv : SmallPixel v) (hl : ∀ a ∈ l, SmallPixel a)
    (hp : SmallPixel p) (h : l.Pairwise fun a b => 0 < areaZ v a b) : ∃ n, fanDraws v l p = .ok n ∧ n ≤ 1 :=
  ⟨_, fanDraws_ok hv hp l hl, fanZ_le l h⟩

/-- C162: the triangles of the fan over a convex polygon draw every pixel of the polygon exactly once and no other pixel. -/
theorem C162_ivec2_polygon (v : V2 I32) (l : List (V2 I32)) (p : V2 I32) (hv : SmallPixel v) (hl : ∀ a ∈ l, SmallPixel a)
    (hp : SmallPixel p) (h : ConvexPolygon v l) :
    ∃ b, inPolygon v l p = .ok b ∧ fanDraws v l p = .ok (if b then 1 else 0) := by
  have hall : ∀ a ∈ v :: (l ++ [v]), SmallPixel a := by
    intro a ha
    simp only [List.mem_cons, List.mem_append, List.not_mem_nil, or_false] at ha
    rcases ha with rfl | ha | rfl
    · exact hv
    · exact hl a ha
    · exact hv
  refine ⟨_, ownsPath_ok hp _ hall, (fanDraws_ok hv hp l hl).trans ?_⟩
  congr 1
  by_cases hin : pathZ (v :: (l ++ [v])) p
  · rw [if_pos (by simpa using hin)]
    cases l with
    | nil => exact absurd rfl (h.edges (v, v) (by simp)).1
    | cons a l => exact fanZ_one a l hin.1 hin.2 h.order
  · rw [if_neg (by simpa using hin)]
    by_contra hne
    obtain ⟨a, ha, b, hb, hm, o1, o2, o3⟩ := fanZ_pos l h.order (Nat.pos_of_ne_zero hne)
    refine hin (pathZ_of _ fun e he => ?_)
    obtain ⟨ne, k⟩ := h.edges e he
    exact ownsZ_convex hm o1 o2 o3 ne (k v (by simp)) (k a (List.mem_cons_of_mem _ ha)) (k b (List.mem_cons_of_mem _ hb))

/-- C162: every pixel with the exact area positive for all edges, so strictly inside, is in the polygon; one with a negative area for some
edge is not. -/
theorem C162_ivec2_inside (v : V2 I32) (l : List (V2 I32)) (p : V2 I32) (hv : SmallPixel v) (hl : ∀ a ∈ l, SmallPixel a)
    (hp : SmallPixel p) :
    ((∀ e ∈ (v :: (l ++ [v])).zip (l ++ [v]), 0 < areaZ e.1 e.2 p) → inPolygon v l p = .ok true) ∧
    ((∃ e ∈ (v :: (l ++ [v])).zip (l ++ [v]), areaZ e.1 e.2 p < 0) → inPolygon v l p = .ok false) := by
  have hall : ∀ a ∈ v :: (l ++ [v]), SmallPixel a := by
    intro a ha
    simp only [List.mem_cons, List.mem_append, List.not_mem_nil, or_false] at ha
    rcases ha with rfl | ha | rfl
    · exact hv
    · exact hl a ha
    · exact hv
  refine ⟨fun h => (ownsPath_ok hp _ hall).trans ?_, fun ⟨e, he, h⟩ => (ownsPath_ok hp _ hall).trans ?_⟩
  · congr 1
    exact decide_eq_true (pathZ_of _ fun e he => .inl (h e he))
  · congr 1
    refine decide_eq_false fun hc => ?_
    rcases pathZ_mem _ hc e he with h' | h' <;> omega

/-- The polygon (0,0) (8,1) (9,7) (3,9) (-1,5) is such a polygon, and its fan draws (4,3), and (8,1), a corner, never. -/
example : ConvexPolygon ⟨I32.lit 0, I32.lit 0⟩ [⟨I32.lit 8, I32.lit 1⟩, ⟨I32.lit 9, I32.lit 7⟩, ⟨I32.lit 3, I32.lit 9⟩, ⟨I32.lit (-1), I32.lit 5⟩] ∧
    fanDraws ⟨I32.lit 0, I32.lit 0⟩ [⟨I32.lit 8, I32.lit 1⟩, ⟨I32.lit 9, I32.lit 7⟩, ⟨I32.lit 3, I32.lit 9⟩, ⟨I32.lit (-1), I32.lit 5⟩]
      ⟨I32.lit 4, I32.lit 3⟩ = .ok 1 ∧
    fanDraws ⟨I32.lit 0, I32.lit 0⟩ [⟨I32.lit 8, I32.lit 1⟩, ⟨I32.lit 9, I32.lit 7⟩, ⟨I32.lit 3, I32.lit 9⟩, ⟨I32.lit (-1), I32.lit 5⟩]
      ⟨I32.lit 8, I32.lit 1⟩ = .ok 0 ∧ SmallPixel ⟨I32.lit 9, I32.lit 7⟩ :=
  ⟨⟨by decide, by decide⟩, by decide, by decide, by unfold SmallPixel; decide⟩

/-- A pixel on the shared edge of two triangles of a square is drawn once: (2,2) in the square with the corners (0,0), (4,0), (4,4), (0,4). -/
example : fanDraws ⟨I32.lit 0, I32.lit 0⟩ [⟨I32.lit 4, I32.lit 0⟩, ⟨I32.lit 4, I32.lit 4⟩, ⟨I32.lit 0, I32.lit 4⟩] ⟨I32.lit 2, I32.lit 2⟩ = .ok 1 := by
  decide

end Zcm
