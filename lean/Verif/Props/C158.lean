import Verif.Lemmas.F32Polygon
import Verif.Props.C81

/-!
# C158: cutting a polygon with a plane

The caller's code is in Spec/Polygon.lean: `clipPolygon` goes round the corners, keeps those with `dot(n, p) + d >= 0` and puts
`mix(a, b, ha / (ha - hb))` on every edge that crosses the plane, `a` being the end that is kept.  `exactSide` is the exact value of
`n · p + d` (Spec/Cull.lean).
-/

set_option exponentiation.threshold 300

namespace Zcm

open F32

/-- C158, the corners: a polygon all of whose corners are kept stays as it is, one without a kept corner vanishes.  In general the kept
corners stay, in their order, and everything else is a new corner on an edge with one end kept and one lost.  As many edges lead out of
the kept side as lead into it, and each of them adds one corner.  (The edges are those from every corner to the next one, and from the
last to the first.) -/
theorem C158_polygon {P : Type} (height : P → F32) (cut : P → P → P) (ps : List P) :
    ((∀ p ∈ ps, keeps height p = true) → clipPolygon height cut ps = ps) ∧
    ((∀ p ∈ ps, keeps height p = false) → clipPolygon height cut ps = []) ∧
    (ps.filter (keeps height)).Sublist (clipPolygon height cut ps) ∧
    (∀ x ∈ clipPolygon height cut ps, (x ∈ ps ∧ keeps height x = true) ∨
      ∃ a b, ((a, b) ∈ edges ps ∨ (b, a) ∈ edges ps) ∧ keeps height a = true ∧ keeps height b = false ∧ x = cut a b) ∧
    leaving height ps = entering height ps ∧
    (clipPolygon height cut ps).length = ps.countP (keeps height) + 2 * leaving height ps ∧
    (edges ps).length = ps.length ∧
    ∀ (i : ℕ) (h : i < ps.length), (edges ps)[i]? = some (ps[i], ps[(i + 1) % ps.length]'(Nat.mod_lt _ (by omega))) :=
  ⟨clip_all height cut ps, clip_none height cut ps, clip_sublist height cut ps, clip_mem height cut ps, leaving_eq_entering height ps,
    clip_length height cut ps, edges_length ps, edges_get ps⟩

/-- C158, `vec2`: with coordinates and offset of at most `M` and a normal with components of at most 1, no corner of the result is
beyond the plane by more than `28 M / 2^24`, and none is farther out than the corners of the polygon by more than rounding. -/
theorem C158_vec2 (n : V2 F32) (d : F32) (M : ℝ) (g : PlaneWithin (coord n) d M) (ps : List (V2 F32))
    (hps : ∀ p ∈ ps, PointWithin (coord p) M) (q : V2 F32) (hq : q ∈ clipPolygon (height2 n d) (cut2 n d) ps) :
    PointWithin (coord q) ((1 + 6 / 2 ^ 24) * M) ∧ -(28 * M / 2 ^ 24) ≤ exactSide (coord n) d fun i => (coord q i).val := by
  have M0 : 0 < M := lt_of_lt_of_le (by norm_num) g.le_scale
  obtain ⟨h1, h2⟩ := clip_near coord (V2.dot n) (height2 n d) (cut2 n d) (by norm_num) g (fun p => (C81_dot_vec2 n p).1) (fun _ => rfl)
    (fun a b i => by fin_cases i <;> rfl) ps hps q hq
  refine ⟨h1, le_trans ?_ h2⟩
  norm_num
  linarith

/-- C158, `vec2`, the new corners: where an edge with the kept end `a` and the lost end `b` is shared by two polygons, which go along
it in opposite directions, both get the same new corner, bit for bit.  It is on the plane up to `28 M / 2^24`, and every coordinate of
it is from that of `a` to that of `b`, passing the latter by at most `4 M / 2^24` and the former not at all. -/
theorem C158_vec2_shared (n : V2 F32) (d : F32) (M : ℝ) (g : PlaneWithin (coord n) d M) (ps qs : List (V2 F32)) (a b : V2 F32)
    (hps : (a, b) ∈ edges ps) (hqs : (b, a) ∈ edges qs) (ha : PointWithin (coord a) M) (hb : PointWithin (coord b) M)
    (ka : keeps (height2 n d) a = true) (kb : keeps (height2 n d) b = false) :
    ∃ c, c ∈ clipPolygon (height2 n d) (cut2 n d) ps ∧ c ∈ clipPolygon (height2 n d) (cut2 n d) qs ∧
      clipEdge (height2 n d) (cut2 n d) a b = [a, c] ∧ clipEdge (height2 n d) (cut2 n d) b a = [c] ∧
      |exactSide (coord n) d fun i => (coord c i).val| ≤ 28 * M / 2 ^ 24 ∧
      ∀ i, (coord a i ≤ coord b i → coord a i ≤ coord c i ∧ ((coord c i).val : ℝ) ≤ (coord b i).val + 4 * M / 2 ^ 24) ∧
        (coord b i ≤ coord a i → coord c i ≤ coord a i ∧ (coord b i).val - 4 * M / 2 ^ 24 ≤ ((coord c i).val : ℝ)) := by
  have M0 : 0 < M := lt_of_lt_of_le (by norm_num) g.le_scale
  obtain ⟨h1, h2⟩ := clip_corner coord (V2.dot n) (height2 n d) (cut2 n d) (by norm_num) g (fun p => (C81_dot_vec2 n p).1) (fun _ => rfl)
    (fun a b i => by fin_cases i <;> rfl) ha hb ka kb
  refine ⟨cut2 n d a b, cut_mem ka kb (.inl hps), cut_mem ka kb (.inr hqs), ?_, ?_, h1.trans ?_, h2⟩
  · unfold clipEdge; rw [if_pos ka, if_neg (by rw [kb]; simp)]
  · unfold clipEdge; rw [if_neg (by rw [kb]; simp), if_pos ka]
  · norm_num
    linarith

/-- C158, `vec3`: with coordinates and offset of at most `M` and a normal with components of at most 1, no corner of the result is
beyond the plane by more than `40 M / 2^24`, and none is farther out than the corners of the polygon by more than rounding. -/
theorem C158_vec3 (n : V3 F32) (d : F32) (M : ℝ) (g : PlaneWithin (coord n) d M) (ps : List (V3 F32))
    (hps : ∀ p ∈ ps, PointWithin (coord p) M) (q : V3 F32) (hq : q ∈ clipPolygon (height3 n d) (cut3 n d) ps) :
    PointWithin (coord q) ((1 + 6 / 2 ^ 24) * M) ∧ -(40 * M / 2 ^ 24) ≤ exactSide (coord n) d fun i => (coord q i).val := by
  have M0 : 0 < M := lt_of_lt_of_le (by norm_num) g.le_scale
  obtain ⟨h1, h2⟩ := clip_near coord (V3.dot n) (height3 n d) (cut3 n d) (by norm_num) g (fun p => (C81_dot_vec3 n p).1) (fun _ => rfl)
    (fun a b i => by fin_cases i <;> rfl) ps hps q hq
  refine ⟨h1, le_trans ?_ h2⟩
  norm_num
  linarith

/-- C158, `vec3`, the new corners: where an edge with the kept end `a` and the lost end `b` is shared by two polygons, which go along
it in opposite directions, both get the same new corner, bit for bit.  It is on the plane up to `40 M / 2^24`, and every coordinate of
it is from that of `a` to that of `b`, passing the latter by at most `4 M / 2^24` and the former not at all. -/
theorem C158_vec3_shared (n : V3 F32) (d : F32) (M : ℝ) (g : PlaneWithin (coord n) d M) (ps qs : List (V3 F32)) (a b : V3 F32)
    (hps : (a, b) ∈ edges ps) (hqs : (b, a) ∈ edges qs) (ha : PointWithin (coord a) M) (hb : PointWithin (coord b) M)
    (ka : keeps (height3 n d) a = true) (kb : keeps (height3 n d) b = false) :
    ∃ c, c ∈ clipPolygon (height3 n d) (cut3 n d) ps ∧ c ∈ clipPolygon (height3 n d) (cut3 n d) qs ∧
      clipEdge (height3 n d) (cut3 n d) a b = [a, c] ∧ clipEdge (height3 n d) (cut3 n d) b a = [c] ∧
      |exactSide (coord n) d fun i => (coord c i).val| ≤ 40 * M / 2 ^ 24 ∧
      ∀ i, (coord a i ≤ coord b i → coord a i ≤ coord c i ∧ ((coord c i).val : ℝ) ≤ (coord b i).val + 4 * M / 2 ^ 24) ∧
        (coord b i ≤ coord a i → coord c i ≤ coord a i ∧ (coord b i).val - 4 * M / 2 ^ 24 ≤ ((coord c i).val : ℝ)) := by
  have M0 : 0 < M := lt_of_lt_of_le (by norm_num) g.le_scale
  obtain ⟨h1, h2⟩ := clip_corner coord (V3.dot n) (height3 n d) (cut3 n d) (by norm_num) g (fun p => (C81_dot_vec3 n p).1) (fun _ => rfl)
    (fun a b i => by fin_cases i <;> rfl) ha hb ka kb
  refine ⟨cut3 n d a b, cut_mem ka kb (.inl hps), cut_mem ka kb (.inr hqs), ?_, ?_, h1.trans ?_, h2⟩
  · unfold clipEdge; rw [if_pos ka, if_neg (by rw [kb]; simp)]
  · unfold clipEdge; rw [if_neg (by rw [kb]; simp), if_pos ka]
  · norm_num
    linarith

/-- C158, `vec4`: with coordinates and offset of at most `M` and a normal with components of at most 1, no corner of the result is
beyond the plane by more than `52 M / 2^24`, and none is farther out than the corners of the polygon by more than rounding. -/
theorem C158_vec4 (n : V4 F32) (d : F32) (M : ℝ) (g : PlaneWithin (coord n) d M) (ps : List (V4 F32))
    (hps : ∀ p ∈ ps, PointWithin (coord p) M) (q : V4 F32) (hq : q ∈ clipPolygon (height4 n d) (cut4 n d) ps) :
    PointWithin (coord q) ((1 + 6 / 2 ^ 24) * M) ∧ -(52 * M / 2 ^ 24) ≤ exactSide (coord n) d fun i => (coord q i).val := by
  have M0 : 0 < M := lt_of_lt_of_le (by norm_num) g.le_scale
  obtain ⟨h1, h2⟩ := clip_near coord (V4.dot n) (height4 n d) (cut4 n d) (by norm_num) g (fun p => (C81_dot_vec4 n p).1) (fun _ => rfl)
    (fun a b i => by fin_cases i <;> rfl) ps hps q hq
  refine ⟨h1, le_trans ?_ h2⟩
  norm_num
  linarith

/-- C158, `vec4`, the new corners: where an edge with the kept end `a` and the lost end `b` is shared by two polygons, which go along
it in opposite directions, both get the same new corner, bit for bit.  It is on the plane up to `52 M / 2^24`, and every coordinate of
it is from that of `a` to that of `b`, passing the latter by at most `4 M / 2^24` and the former not at all. -/
theorem C158_vec4_shared (n : V4 F32) (d : F32) (M : ℝ) (g : PlaneWithin (coord n) d M) (ps qs : List (V4 F32)) (a b : V4 F32)
    (hps : (a, b) ∈ edges ps) (hqs : (b, a) ∈ edges qs) (ha : PointWithin (coord a) M) (hb : PointWithin (coord b) M)
    (ka : keeps (height4 n d) a = true) (kb : keeps (height4 n d) b = false) :
    ∃ c, c ∈ clipPolygon (height4 n d) (cut4 n d) ps ∧ c ∈ clipPolygon (height4 n d) (cut4 n d) qs ∧
      clipEdge (height4 n d) (cut4 n d) a b = [a, c] ∧ clipEdge (height4 n d) (cut4 n d) b a = [c] ∧
      |exactSide (coord n) d fun i => (coord c i).val| ≤ 52 * M / 2 ^ 24 ∧
      ∀ i, (coord a i ≤ coord b i → coord a i ≤ coord c i ∧ ((coord c i).val : ℝ) ≤ (coord b i).val + 4 * M / 2 ^ 24) ∧
        (coord b i ≤ coord a i → coord c i ≤ coord a i ∧ (coord b i).val - 4 * M / 2 ^ 24 ≤ ((coord c i).val : ℝ)) := by
  have M0 : 0 < M := lt_of_lt_of_le (by norm_num) g.le_scale
  obtain ⟨h1, h2⟩ := clip_corner coord (V4.dot n) (height4 n d) (cut4 n d) (by norm_num) g (fun p => (C81_dot_vec4 n p).1) (fun _ => rfl)
    (fun a b i => by fin_cases i <;> rfl) ha hb ka kb
  refine ⟨cut4 n d a b, cut_mem ka kb (.inl hps), cut_mem ka kb (.inr hqs), ?_, ?_, h1.trans ?_, h2⟩
  · unfold clipEdge; rw [if_pos ka, if_neg (by rw [kb]; simp)]
  · unfold clipEdge; rw [if_neg (by rw [kb]; simp), if_pos ka]
  · norm_num
    linarith

/-- C158, why the order matters: computed from the first end of the edge to the second, the new corners of two polygons at a shared edge
can differ. -/
theorem C158_crack : ∃ (n : V3 F32) (d : F32) (a b : V3 F32), keeps (height3 n d) a = true ∧ keeps (height3 n d) b = false ∧
    (V3.eq (cut3 n d a b) (cut3 n d b a)) = false :=
  ⟨⟨lit 1, lit 0, lit 0⟩, lit 0, ⟨lit 1, lit 0, lit 1⟩, ⟨lit (-2), lit 0, lit 0⟩, by decide +kernel, by decide +kernel, by decide +kernel⟩

/-- A triangle with one corner cut off by the plane `x = 1`. -/
private def tri : List (V3 F32) := [⟨lit 0, lit 0, lit 0⟩, ⟨lit 4, lit 0, lit 0⟩, ⟨lit 4, lit 4, lit 0⟩]

/-- The hypotheses are met and the result is not trivial: the triangle above becomes a quadrangle. -/
example : PlaneWithin (coord (⟨lit 1, lit 0, lit 0⟩ : V3 F32)) (lit (-1)) 8 ∧ (∀ p ∈ tri, PointWithin (coord p) 8) ∧
    keeps (height3 ⟨lit 1, lit 0, lit 0⟩ (lit (-1))) ⟨lit 4, lit 0, lit 0⟩ = true ∧
    keeps (height3 ⟨lit 1, lit 0, lit 0⟩ (lit (-1))) ⟨lit 0, lit 0, lit 0⟩ = false ∧
    clipPolygon (height3 ⟨lit 1, lit 0, lit 0⟩ (lit (-1))) (cut3 ⟨lit 1, lit 0, lit 0⟩ (lit (-1))) tri =
      [⟨lit 1, lit 0, lit 0⟩, ⟨lit 4, lit 0, lit 0⟩, ⟨lit 4, lit 4, lit 0⟩, ⟨lit 1, lit 1, lit 0⟩] := by
  have v0 : ((lit 0 : F32).val : ℝ) = 0 := by rw [val_lit_zero]; norm_num
  have v1 : ((lit 1 : F32).val : ℝ) = 1 := by rw [val_lit_one]; norm_num
  have vm : ((lit (-1) : F32).val : ℝ) = -1 := by rw [show (lit (-1) : F32).val = -1 by decide +kernel]; norm_num
  have v4 : ((lit 4 : F32).val : ℝ) = 4 := by rw [show (lit 4 : F32).val = 4 by decide +kernel]; norm_num
  have f0 : (lit 0 : F32).IsFin = true := by decide +kernel
  have f1 : (lit 1 : F32).IsFin = true := by decide +kernel
  have f4 : (lit 4 : F32).IsFin = true := by decide +kernel
  refine ⟨⟨fun i => ?_, fun i => ?_, by decide +kernel, by rw [vm]; norm_num, by norm_num, by norm_num⟩, ?_, by decide +kernel, by decide +kernel,
    by decide +kernel⟩
  · fin_cases i <;> first | exact f0 | exact f1
  · fin_cases i
    · change |((lit 1 : F32).val : ℝ)| ≤ 1; rw [v1]; norm_num
    · change |((lit 0 : F32).val : ℝ)| ≤ 1; rw [v0]; norm_num
    · change |((lit 0 : F32).val : ℝ)| ≤ 1; rw [v0]; norm_num
  · have z : (lit 0 : F32).IsFin = true ∧ |((lit 0 : F32).val : ℝ)| ≤ 8 := ⟨f0, by rw [v0]; norm_num⟩
    have q : (lit 4 : F32).IsFin = true ∧ |((lit 4 : F32).val : ℝ)| ≤ 8 := ⟨f4, by rw [v4]; norm_num⟩
    intro p hp
    simp only [tri, List.mem_cons, List.not_mem_nil, or_false] at hp
    rcases hp with rfl | rfl | rfl <;> intro i <;> fin_cases i <;> first | exact z | exact q

end Zcm
