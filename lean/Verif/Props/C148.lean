import Verif.Lemmas.F32Mesh
import Verif.Model.Matrix
import Verif.Spec.Mesh

/-!
# C148: which triangle

Caller code. In the plane, the point `p` is tested against the edge from `a` to `b` with `determinant(mat2(a - p, b - p))`; in space, the
line through `o` with direction `d` is tested with `dot(cross(a - o, b - o), d)`. A triangle is taken if its three edges pass, that is, if
the number is not negative.
-/

set_option exponentiation.threshold 300

namespace Zcm

open F32 WithLp

open scoped RealInnerProductSpace

variable {α : Type}

/-- Caller code: the edge test in the plane. -/
def edge2 [Sub α] [Mul α] (p a b : V2 α) : α := M2.determinant (M2.ofCols (a - p) (b - p))

/-- Caller code: the edge test in space. -/
def edge3 [Sub α] [Mul α] [Add α] (o d a b : V3 α) : α := V3.dot (V3.cross (a - o) (b - o)) d

/-- C148, plane: an edge tested in the opposite direction gives exactly the opposite number, for all floats. -/
theorem C148_vec2_edge (p a b : V2 F32) : SameNumber (edge2 p b a) (-edge2 p a b) := by
  have e : edge2 p b a = (b.x - p.x) * (a.y - p.y) - (a.x - p.x) * (b.y - p.y) := rfl
  have f : edge2 p a b = (a.x - p.x) * (b.y - p.y) - (b.x - p.x) * (a.y - p.y) := rfl
  rw [e, f]
  exact SameNumber.sub_swap' _ _

/-- C148, plane: the test is accurate, so its sign is right unless the point is next to the line of the edge. -/
theorem C148_vec2_accurate (p a b : V2 F32) (M : ℝ) (fp : ∀ i, (coord p i).IsFin = true) (fa : ∀ i, (coord a i).IsFin = true)
    (fb : ∀ i, (coord b i).IsFin = true) (hM : M ≤ 2 ^ 50) (ha : ∀ i, |((coord a i).val : ℝ) - (coord p i).val| ≤ M)
    (hb : ∀ i, |((coord b i).val : ℝ) - (coord p i).val| ≤ M) :
    let E := 8.1 / 2 ^ 24 * M ^ 2 + 1 / 2 ^ 148
    let exact : ℝ := (a.x.val - p.x.val) * (b.y.val - p.y.val) - (b.x.val - p.x.val) * (a.y.val - p.y.val)
    Near (edge2 p a b) exact E ∧ (E < exact → lit 0 < edge2 p a b) ∧ (lit 0 ≤ edge2 p a b → -E ≤ exact) := by
  have n : Near (edge2 p a b) ((a.x.val - p.x.val) * (b.y.val - p.y.val) - (b.x.val - p.x.val) * (a.y.val - p.y.val))
      (8.1 / 2 ^ 24 * M ^ 2 + 1 / 2 ^ 148) :=
    near_det2 (fa 0) (fa 1) (fb 0) (fb 1) (fp 0) (fp 1) hM (ha 0) (ha 1) (hb 0) (hb 1)
  exact ⟨n, near_sign n⟩

/-- C148, plane: no gaps. If the point passes the border edges of a region that is cut into triangles, it passes one of the triangles. -/
theorem C148_vec2_cover (p : V2 F32) (E : List (V2 F32 × V2 F32)) (T : List (V2 F32 × V2 F32 × V2 F32)) (r : Region E T)
    (fp : ∀ i, (coord p i).IsFin = true)
    (h : ∀ t ∈ T, ∀ a, a = t.1 ∨ a = t.2.1 ∨ a = t.2.2 →
      ∀ i, (coord a i).IsFin = true ∧ |((coord a i).val : ℝ) - (coord p i).val| ≤ 2 ^ 50)
    (b : ∀ x ∈ E, lit 0 ≤ edge2 p x.1 x.2) : ∃ t ∈ T, Passes (edge2 p) t := by
  refine region_cover (S := fun a => ∀ i, (coord a i).IsFin = true ∧ |((coord a i).val : ℝ) - (coord p i).val| ≤ 2 ^ 50)
    (fun a b ha hb => ?_) r (fun t m => ⟨h t m _ (.inl rfl), h t m _ (.inr (.inl rfl)), h t m _ (.inr (.inr rfl))⟩) b
  have n := (C148_vec2_accurate p a b (2 ^ 50) fp (fun i => (ha i).1) (fun i => (hb i).1) le_rfl (fun i => (ha i).2) fun i => (hb i).2).1
  exact (same_neg_sign (C148_vec2_edge p a b) (isFin_ne_nan n.1)).1

/-- C148, plane: a polygon with any number of corners, cut into a fan of triangles, has no gaps. -/
theorem C148_vec2_fan (p o u x : V2 F32) (xs : List (V2 F32)) (fp : ∀ i, (coord p i).IsFin = true)
    (h : ∀ a ∈ o :: u :: x :: xs, ∀ i, (coord a i).IsFin = true ∧ |((coord a i).val : ℝ) - (coord p i).val| ≤ 2 ^ 50)
    (b : ∀ e ∈ (o, u) :: walk u (x :: xs) o, lit 0 ≤ edge2 p e.1 e.2) : ∃ t ∈ fan o u (x :: xs), Passes (edge2 p) t := by
  refine C148_vec2_cover p _ _ (region_fan o xs u x) fp (fun t m a ha => h a ?_) b
  obtain ⟨m1, m2, m3⟩ := mem_fan m
  rcases ha with rfl | rfl | rfl
  · rw [m1]; simp
  · exact List.mem_cons_of_mem _ m2
  · exact List.mem_cons_of_mem _ m3

/-- C148, plane: no overlaps. A point strictly inside a triangle, as computed, does not pass the triangle on the other side of an edge. -/
theorem C148_vec2_unique (p a b c d : V2 F32) (h : PassesStrictly (edge2 p) (a, b, c)) : ¬ Passes (edge2 p) (b, a, d) := fun g =>
  (same_neg_sign (C148_vec2_edge p a b) h.1.2.1).2 h.1 g.1

/-- C148, plane: what the test means. In exact arithmetic the triangles with positive area that pass are those that contain the point. -/
theorem C148_vec2_exact (p a b c : V2 ℝ) (h : 0 < M2.determinant (M2.ofCols (b - a) (c - a))) :
    (0 ≤ edge2 p a b ∧ 0 ≤ edge2 p b c ∧ 0 ≤ edge2 p c a) ↔ (p.x, p.y) ∈ convexHull ℝ {(a.x, a.y), (b.x, b.y), (c.x, c.y)} := by
  have D : M2.determinant (M2.ofCols (b - a) (c - a)) = (b.x - a.x) * (c.y - a.y) - (c.x - a.x) * (b.y - a.y) := rfl
  have e : ∀ u v : V2 ℝ, edge2 p u v = (u.x - p.x) * (v.y - p.y) - (v.x - p.x) * (u.y - p.y) := fun _ _ => rfl
  rw [D] at h
  rw [e, e, e, mem_hull3]
  simp only [Prod.smul_mk, Prod.mk_add_mk, Prod.mk.injEq, smul_eq_mul]
  constructor
  · rintro ⟨h1, h2, h3⟩
    refine ⟨_, _, _, div_nonneg h2 h.le, div_nonneg h3 h.le, div_nonneg h1 h.le, ?_, ?_, ?_⟩
    · field_simp; ring
    · field_simp; ring
    · field_simp; ring
  · rintro ⟨u, v, w, hu, hv, hw, h1, hx, hy⟩
    obtain rfl : u = 1 - v - w := by linarith
    rw [← hx, ← hy]
    refine ⟨(mul_nonneg hw h.le).trans_eq ?_, (mul_nonneg hu h.le).trans_eq ?_, (mul_nonneg hv h.le).trans_eq ?_⟩ <;> ring

/-- C148, space: an edge tested in the opposite direction gives exactly the opposite number, for all floats, as long as the direction of
the line is finite. -/
theorem C148_vec3_edge (o d a b : V3 F32) (fd : ∀ i, (coord d i).IsFin = true) : SameNumber (edge3 o d b a) (-edge3 o d a b) := by
  have c := fun i => (C84_cross (a - o) (b - o) i).1
  have m := fun i => (c i).mulR (fd i)
  have s := ((m 0).add (m 1)).add (m 2)
  refine s.trans ?_
  rw [neg_mul', neg_mul', neg_mul']
  exact ((SameNumber.neg_add _ _).add .rfl).trans (SameNumber.neg_add _ _)

/-- C148, space: the test is accurate, so its sign is right unless the line passes next to the edge. -/
theorem C148_vec3_accurate (o d a b : V3 F32) (M : ℝ) (fo : ∀ i, (coord o i).IsFin = true) (fd : ∀ i, (coord d i).IsFin = true)
    (fa : ∀ i, (coord a i).IsFin = true) (fb : ∀ i, (coord b i).IsFin = true) (hM : M ≤ 2 ^ 40) (hd : ‖exactly d‖ ≤ 2 ^ 20)
    (ha : ‖exactly a - exactly o‖ ≤ M) (hb : ‖exactly b - exactly o‖ ≤ M) :
    let E := 9.1 / 2 ^ 24 * M ^ 2 * ‖exactly d‖ + (1 + ‖exactly d‖) / 2 ^ 146
    let exact : ℝ := ⟪cross3 (exactly a - exactly o) (exactly b - exactly o), exactly d⟫
    Near (edge3 o d a b) exact E ∧ (E < exact → lit 0 < edge3 o d a b) ∧ (lit 0 ≤ edge3 o d a b → -E ≤ exact) :=
  have n := near_det3 fa fb fo fd hM hd ha hb
  ⟨n, near_sign n⟩

/-- C148, space: no gaps. If the line passes the border edges of a surface that is cut into triangles, it passes one of the triangles. -/
theorem C148_vec3_cover (o d : V3 F32) (E : List (V3 F32 × V3 F32)) (T : List (V3 F32 × V3 F32 × V3 F32)) (r : Region E T)
    (fo : ∀ i, (coord o i).IsFin = true) (fd : ∀ i, (coord d i).IsFin = true) (hd : ‖exactly d‖ ≤ 2 ^ 20)
    (h : ∀ t ∈ T, ∀ a, a = t.1 ∨ a = t.2.1 ∨ a = t.2.2 → (∀ i, (coord a i).IsFin = true) ∧ ‖exactly a - exactly o‖ ≤ 2 ^ 40)
    (b : ∀ x ∈ E, lit 0 ≤ edge3 o d x.1 x.2) : ∃ t ∈ T, Passes (edge3 o d) t := by
  refine region_cover (S := fun a => (∀ i, (coord a i).IsFin = true) ∧ ‖exactly a - exactly o‖ ≤ 2 ^ 40)
    (fun a b ha hb => ?_) r (fun t m => ⟨h t m _ (.inl rfl), h t m _ (.inr (.inl rfl)), h t m _ (.inr (.inr rfl))⟩) b
  have n := (C148_vec3_accurate o d a b (2 ^ 40) fo fd ha.1 hb.1 le_rfl hd ha.2 hb.2).1
  exact (same_neg_sign (C148_vec3_edge o d a b fd) (isFin_ne_nan n.1)).1

/-- C148, space: a polygon with any number of corners, flat or not, cut into a fan of triangles, has no gaps. -/
theorem C148_vec3_fan (o d v u x : V3 F32) (xs : List (V3 F32)) (fo : ∀ i, (coord o i).IsFin = true) (fd : ∀ i, (coord d i).IsFin = true)
    (hd : ‖exactly d‖ ≤ 2 ^ 20)
    (h : ∀ a ∈ v :: u :: x :: xs, (∀ i, (coord a i).IsFin = true) ∧ ‖exactly a - exactly o‖ ≤ 2 ^ 40)
    (b : ∀ e ∈ (v, u) :: walk u (x :: xs) v, lit 0 ≤ edge3 o d e.1 e.2) : ∃ t ∈ fan v u (x :: xs), Passes (edge3 o d) t := by
  refine C148_vec3_cover o d _ _ (region_fan v xs u x) fo fd hd (fun t m a ha => h a ?_) b
  obtain ⟨m1, m2, m3⟩ := mem_fan m
  rcases ha with rfl | rfl | rfl
  · rw [m1]; simp
  · exact List.mem_cons_of_mem _ m2
  · exact List.mem_cons_of_mem _ m3

/-- C148, space: no overlaps. A line strictly inside a triangle, as computed, does not pass the triangle on the other side of an edge. -/
theorem C148_vec3_unique (o d a b c e : V3 F32) (fd : ∀ i, (coord d i).IsFin = true) (h : PassesStrictly (edge3 o d) (a, b, c)) :
    ¬ Passes (edge3 o d) (b, a, e) := fun g =>
  (same_neg_sign (C148_vec3_edge o d a b fd) h.1.2.1).2 h.1 g.1

/-- C148, space: what the test means. In exact arithmetic a triangle that the line meets from its front passes exactly if the line has a
point in the triangle. -/
theorem C148_vec3_exact (o d a b c : V3 ℝ) (h : 0 < V3.dot (V3.cross (b - a) (c - a)) d) :
    (0 ≤ edge3 o d a b ∧ 0 ≤ edge3 o d b c ∧ 0 ≤ edge3 o d c a) ↔
    ∃ t : ℝ, (o.x + t * d.x, o.y + t * d.y, o.z + t * d.z) ∈ convexHull ℝ {(a.x, a.y, a.z), (b.x, b.y, b.z), (c.x, c.y, c.z)} := by
  have dt : ∀ u v w : V3 ℝ, V3.dot (V3.cross (u - w) (v - w)) d = ((u.y - w.y) * (v.z - w.z) - (u.z - w.z) * (v.y - w.y)) * d.x +
      ((u.z - w.z) * (v.x - w.x) - (u.x - w.x) * (v.z - w.z)) * d.y + ((u.x - w.x) * (v.y - w.y) - (u.y - w.y) * (v.x - w.x)) * d.z :=
    fun _ _ _ => rfl
  unfold edge3
  rw [dt] at h
  rw [dt, dt, dt]
  simp only [mem_hull3, Prod.smul_mk, Prod.mk_add_mk, Prod.mk.injEq, smul_eq_mul]
  constructor
  · rintro ⟨h1, h2, h3⟩
    obtain ⟨D, hD⟩ : ∃ D, D = ((b.y - a.y) * (c.z - a.z) - (b.z - a.z) * (c.y - a.y)) * d.x +
      ((b.z - a.z) * (c.x - a.x) - (b.x - a.x) * (c.z - a.z)) * d.y + ((b.x - a.x) * (c.y - a.y) - (b.y - a.y) * (c.x - a.x)) * d.z := ⟨_, rfl⟩
    rw [← hD] at h
    have n := h.ne'
    refine ⟨((a.x - o.x) * ((b.y - o.y) * (c.z - o.z) - (b.z - o.z) * (c.y - o.y)) + (a.y - o.y) * ((b.z - o.z) * (c.x - o.x) - (b.x - o.x) * (c.z - o.z)) +
      (a.z - o.z) * ((b.x - o.x) * (c.y - o.y) - (b.y - o.y) * (c.x - o.x))) / D,
      _, _, _, div_nonneg h2 h.le, div_nonneg h3 h.le, div_nonneg h1 h.le, ?_, ?_, ?_, ?_⟩
    · rw [← add_div, ← add_div, div_eq_one_iff_eq n, hD]; ring
    · field_simp; rw [hD]; ring
    · field_simp; rw [hD]; ring
    · field_simp; rw [hD]; ring
  · rintro ⟨t, u, v, w, hu, hv, hw, h1, hx, hy, hz⟩
    obtain rfl : u = 1 - v - w := by linarith
    have ox : o.x = (1 - v - w) * a.x + v * b.x + w * c.x - t * d.x := by linarith
    have oy : o.y = (1 - v - w) * a.y + v * b.y + w * c.y - t * d.y := by linarith
    have oz : o.z = (1 - v - w) * a.z + v * b.z + w * c.z - t * d.z := by linarith
    rw [ox, oy, oz]
    refine ⟨(mul_nonneg hw h.le).trans_eq ?_, (mul_nonneg hu h.le).trans_eq ?_, (mul_nonneg hv h.le).trans_eq ?_⟩ <;> ring

/-- `C148_vec2_fan` and `C148_vec2_cover` are not vacuous: a five-cornered region and a point on one of its diagonals. -/
example : ∃ t ∈ fan (⟨lit 0, lit 0⟩ : V2 F32) ⟨lit 2, lit (-1)⟩ [⟨lit 3, lit 1⟩, ⟨lit 2, lit 4⟩, ⟨lit 0, lit 3⟩],
    Passes (edge2 ⟨lit 1, lit 2⟩) t := by
  have v0 : (lit 0 : F32).val = 0 := by decide +kernel
  have v1 : (lit 1 : F32).val = 1 := by decide +kernel
  have v2 : (lit 2 : F32).val = 2 := by decide +kernel
  have v3 : (lit 3 : F32).val = 3 := by decide +kernel
  have v4 : (lit 4 : F32).val = 4 := by decide +kernel
  have v5 : (lit (-1) : F32).val = -1 := by decide +kernel
  refine C148_vec2_fan _ _ _ _ _ (by decide +kernel) ?_ (by decide +kernel)
  simp only [List.forall_mem_cons]
  refine ⟨?_, ?_, ?_, ?_, ?_, fun _ m => by cases m⟩ <;> intro i <;> refine ⟨by revert i; decide +kernel, ?_⟩ <;> fin_cases i <;>
    simp [coord, v0, v1, v2, v3, v4, v5] <;> norm_num

/-- `C148_vec2_unique` is not vacuous: a point in a half of a square. -/
example : ¬ Passes (edge2 (⟨lit 1, lit 2⟩ : V2 F32)) (⟨lit 3, lit 3⟩, ⟨lit 0, lit 0⟩, ⟨lit 3, lit 0⟩) :=
  C148_vec2_unique _ _ _ ⟨lit 0, lit 3⟩ _ (by unfold PassesStrictly; decide +kernel)

/-- `C148_vec2_exact` is not vacuous. -/
example : 0 < M2.determinant (M2.ofCols ((⟨3, 0⟩ : V2 ℝ) - ⟨0, 0⟩) (⟨0, 3⟩ - ⟨0, 0⟩)) := by
  simp [M2.determinant, M2.ofCols]

/-- `C148_vec3_fan` and `C148_vec3_cover` are not vacuous: a bent quadrilateral, and a line through its diagonal. -/
example : ∃ t ∈ fan (⟨lit 0, lit 0, lit 4⟩ : V3 F32) ⟨lit 3, lit 0, lit 3⟩ [⟨lit 3, lit 3, lit 4⟩, ⟨lit 0, lit 3, lit 3⟩],
    Passes (edge3 ⟨lit 1, lit 1, lit 0⟩ ⟨lit 0, lit 0, lit 1⟩) t := by
  have v0 : (lit 0 : F32).val = 0 := by decide +kernel
  have v1 : (lit 1 : F32).val = 1 := by decide +kernel
  have v3 : (lit 3 : F32).val = 3 := by decide +kernel
  have v4 : (lit 4 : F32).val = 4 := by decide +kernel
  refine C148_vec3_fan _ _ _ _ _ _ (by decide +kernel) (by decide +kernel) ?_ ?_ (by decide +kernel)
  · rw [EuclideanSpace.norm_eq, Real.sqrt_le_left (by norm_num), Fin.sum_univ_three]
    simp [exactly, coord, v0, v1]
    norm_num
  · simp only [List.forall_mem_cons]
    refine ⟨?_, ?_, ?_, ?_, fun _ m => by cases m⟩ <;> refine ⟨by decide +kernel, ?_⟩ <;>
      rw [EuclideanSpace.norm_eq, Real.sqrt_le_left (by norm_num), Fin.sum_univ_three] <;> simp [exactly, coord, v0, v1, v3, v4] <;> norm_num

/-- `C148_vec3_unique` is not vacuous: a line through the second triangle of the quadrilateral. -/
example : ¬ Passes (edge3 (⟨lit 1, lit 2, lit 0⟩ : V3 F32) ⟨lit 0, lit 0, lit 1⟩)
    (⟨lit 3, lit 3, lit 4⟩, ⟨lit 0, lit 0, lit 4⟩, ⟨lit 3, lit 0, lit 3⟩) :=
  C148_vec3_unique _ _ _ _ ⟨lit 0, lit 3, lit 3⟩ _ (by decide +kernel) (by unfold PassesStrictly; decide +kernel)

/-- `C148_vec3_exact` is not vacuous. -/
example : 0 < V3.dot (V3.cross ((⟨3, 0, 1⟩ : V3 ℝ) - ⟨0, 0, 1⟩) (⟨0, 3, 2⟩ - ⟨0, 0, 1⟩)) ⟨0, 0, 1⟩ := by
  simp [V3.dot, V3.cross]

end Zcm
