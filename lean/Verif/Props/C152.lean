import Verif.Spec.Coord
import Verif.Spec.Neighbour
import Verif.Model.Geometric
import Verif.Lemmas.F32Neighbour
import Verif.Props.C82
import Mathlib.Tactic.FinCases

/-!
# C152  Finding the nearest of any number of points, and bounding spheres

The loops are in `Spec/Neighbour`.
-/

namespace Zcm

open F32

theorem exactDistance_nonneg {n : ℕ} (a b : Fin n → F32) : 0 ≤ exactDistance a b := Real.sqrt_nonneg _

theorem distanceOf_v2 {a b : V2 F32} (ha : ∀ i, (coord a i).IsFin = true) (hb : ∀ i, (coord b i).IsFin = true)
    (h : FairDistance (exactDistance (coord a) (coord b))) :
    DistanceOf (V2.distance a b) (exactDistance (coord a) (coord b)) := by
  rcases h with h | h
  · have e : V2.distance a b = lit 0 := by
      have z := exactDistance_zero h
      have hx := sub_zero_cases (ha 0) (hb 0) (z 0)
      have hy := sub_zero_cases (ha 1) (hb 1) (z 1)
      have d : a - b = ⟨a.x - b.x, a.y - b.y⟩ := rfl
      unfold V2.distance
      rw [d]
      rcases hx with hx | hx <;> rcases hy with hy | hy <;> rw [show a.x - b.x = _ from hx, show a.y - b.y = _ from hy] <;> decide +kernel
    rw [e, h]
    exact ⟨isFin_lit_zero, by rw [val_lit_zero]; norm_num⟩
  · exact ⟨(C82_distance_vec2 a b ha hb h.1 h.2).1, (C82_distance_vec2 a b ha hb h.1 h.2).2⟩

theorem sqLen_nonneg_v2 {v : V2 F32} (h : V2.length2 v ≠ .nan) : lit 0 ≤ V2.length2 v := by
  have : NonnegOrNan (V2.length2 v) := add_nonneg' (sq_nonneg' _) (sq_nonneg' _)
  exact this.resolve_left h

/-- C152, the nearest of any number of `vec2` points to `q`, found with `distance`: for a first point `p` at a distance that is not
NaN and any list of further points, the loop returns the first of the points whose computed distance is smallest. -/
theorem C152_vec2_nearest (q p : V2 F32) (ps : List (V2 F32)) (hp : V2.distance q p ≠ .nan) :
    FirstSmallest (V2.distance q) (nearestBy (V2.distance q) p ps) (p :: ps) :=
  nearestBy_first _ p hp ps

/-- C152, the same found with `length2(q - p)`, without square roots: the loop returns the first of the points whose computed squared
distance is smallest, and this point is also nearest according to `distance`. -/
theorem C152_vec2_nearest_squared (q p : V2 F32) (ps : List (V2 F32)) (hp : V2.length2 (q - p) ≠ .nan) :
    FirstSmallest (fun a => V2.length2 (q - a)) (nearestBy (fun a => V2.length2 (q - a)) p ps) (p :: ps) ∧
    ∀ a ∈ p :: ps, V2.length2 (q - a) ≠ .nan →
      V2.distance q (nearestBy (fun a => V2.length2 (q - a)) p ps) ≤ V2.distance q a := by
  have f := nearestBy_first (fun a => V2.length2 (q - a)) p hp ps
  exact ⟨f, fun a ha na => sqrt_le' (f.le ha na) (sqLen_nonneg_v2 f.1)⟩

/-- C152, accuracy: for finite `vec2` points at distances from `q` that are 0 or between `2^-49` and `2^62`, the point found by either
loop is nearest up to rounding: its exact distance is at most `1 + 11 * 2^-24` times that of any of the points. -/
theorem C152_vec2_nearest_exact (q p : V2 F32) (ps : List (V2 F32)) (hq : ∀ i, (coord q i).IsFin = true)
    (h : ∀ a ∈ p :: ps, (∀ i, (coord a i).IsFin = true) ∧ FairDistance (exactDistance (coord q) (coord a))) :
    ∀ a ∈ p :: ps,
      exactDistance (coord q) (coord (nearestBy (V2.distance q) p ps)) ≤
        (1 + 11 / 2 ^ 24) * exactDistance (coord q) (coord a) ∧
      exactDistance (coord q) (coord (nearestBy (fun a => V2.length2 (q - a)) p ps)) ≤
        (1 + 11 / 2 ^ 24) * exactDistance (coord q) (coord a) := by
  have D : ∀ a ∈ p :: ps, DistanceOf (V2.distance q a) (exactDistance (coord q) (coord a)) := fun a ha =>
    distanceOf_v2 hq (h a ha).1 (h a ha).2
  have n2 : ∀ a ∈ p :: ps, V2.length2 (q - a) ≠ .nan := fun a ha e => by
    have : V2.distance q a = FloatOps.sqrt (V2.length2 (q - a)) := rfl
    have f := (D a ha).fin
    rw [this, e] at f
    exact absurd f (by decide)
  have f1 := C152_vec2_nearest q p ps (isFin_ne_nan (D p List.mem_cons_self).fin)
  have f2 := C152_vec2_nearest_squared q p ps (n2 p List.mem_cons_self)
  intro a ha
  exact ⟨(D _ f1.mem).le (D a ha) (exactDistance_nonneg _ _) (f1.le ha (isFin_ne_nan (D a ha).fin)),
    (D _ f2.1.mem).le (D a ha) (exactDistance_nonneg _ _) (f2.2 a ha (n2 a ha))⟩

/-- C152, bounding spheres of any number of `vec2` points: the radius found by the loop with `max` is the largest of the computed
distances from the centre `c`. So `distance(c, a) <= r` is true for every one of the points (whose distance is not NaN), and the radius
does not depend on the order of the points. -/
theorem C152_vec2_sphere (c p : V2 F32) (ps : List (V2 F32)) (hp : V2.distance c p ≠ .nan) :
    LargestOf (radiusBy (V2.distance c) p ps) ((p :: ps).map (V2.distance c)) ∧
    (∀ a ∈ p :: ps, V2.distance c a ≠ .nan → V2.distance c a ≤ radiusBy (V2.distance c) p ps) ∧
    ∀ p' ps', (p :: ps).Perm (p' :: ps') → V2.distance c p' ≠ .nan →
      (radiusBy (V2.distance c) p ps == radiusBy (V2.distance c) p' ps') = true := by
  have l := radiusBy_largest (V2.distance c) p hp ps
  exact ⟨l, fun a ha na => l.2.2 _ (List.mem_map_of_mem ha) na, fun p' ps' hh np =>
    l.perm (radiusBy_largest (V2.distance c) p' np ps') (hh.map _)⟩

/-- C152, accuracy of the sphere: for finite `vec2` points at distances from `c` that are 0 or between `2^-49` and `2^62`, the exact
distance of every point is at most `1 + 6 * 2^-24` times the radius, and the radius is at most `1 + 5 * 2^-24` times the exact distance
of some point. -/
theorem C152_vec2_sphere_exact (c p : V2 F32) (ps : List (V2 F32)) (hc : ∀ i, (coord c i).IsFin = true)
    (h : ∀ a ∈ p :: ps, (∀ i, (coord a i).IsFin = true) ∧ FairDistance (exactDistance (coord c) (coord a))) :
    (∀ a ∈ p :: ps, exactDistance (coord c) (coord a) ≤ (1 + 6 / 2 ^ 24) * ((radiusBy (V2.distance c) p ps).val : ℝ)) ∧
    ∃ a ∈ p :: ps, ((radiusBy (V2.distance c) p ps).val : ℝ) ≤ (1 + 5 / 2 ^ 24) * exactDistance (coord c) (coord a) := by
  have D : ∀ a ∈ p :: ps, DistanceOf (V2.distance c a) (exactDistance (coord c) (coord a)) := fun a ha =>
    distanceOf_v2 hc (h a ha).1 (h a ha).2
  obtain ⟨l1, l2, -⟩ := C152_vec2_sphere c p ps (isFin_ne_nan (D p List.mem_cons_self).fin)
  refine ⟨fun a ha => ?_, ?_⟩
  · have l := key_le_iff.1 (l2 a ha (isFin_ne_nan (D a ha).fin)).2.2
    have l' : ((V2.distance c a).val : ℝ) ≤ (radiusBy (V2.distance c) p ps).val := by exact_mod_cast l
    exact (D a ha).le_of_val l' (exactDistance_nonneg _ _)
  · obtain ⟨a, ha, e⟩ := List.mem_map.1 l1.1
    refine ⟨a, ha, ?_⟩
    rw [← e]
    have := (abs_le.1 (D a ha).err).2
    linarith

/-- Non-vacuity: three `vec2` points, one of them twice and one equal to the query. -/
example : let q : V2 F32 := ⟨lit 1, lit 1⟩
    let p : V2 F32 := ⟨lit 4, lit 1⟩
    let r : V2 F32 := ⟨lit 1, lit 3⟩
    V2.distance q p ≠ .nan ∧ nearestBy (V2.distance q) p [r, p, r] = r ∧
    nearestBy (fun a => V2.length2 (q - a)) p [r, q, q] = q ∧ radiusBy (V2.distance q) r [q, p, r] = lit 3 ∧
    FairDistance (exactDistance (coord q) (coord q)) ∧ FairDistance (exactDistance (coord q) (coord p)) := by
  refine ⟨by decide +kernel, by decide +kernel, by decide +kernel, by decide +kernel, .inl ?_, .inr ?_⟩
  · simp [exactDistance]
  · have : exactDistance (coord (⟨lit 1, lit 1⟩ : V2 F32)) (coord (⟨lit 4, lit 1⟩ : V2 F32)) = 3 := by
      unfold exactDistance
      simp only [Fin.sum_univ_two, coord_v2_0, coord_v2_1]
      rw [show (lit 1 : F32).val = 1 by decide +kernel, show (lit 4 : F32).val = 4 by decide +kernel]
      push_cast
      rw [Real.sqrt_eq_iff_mul_self_eq (by positivity) (by norm_num)]
      norm_num
    rw [this]; norm_num

theorem distanceOf_v3 {a b : V3 F32} (ha : ∀ i, (coord a i).IsFin = true) (hb : ∀ i, (coord b i).IsFin = true)
    (h : FairDistance (exactDistance (coord a) (coord b))) :
    DistanceOf (V3.distance a b) (exactDistance (coord a) (coord b)) := by
  rcases h with h | h
  · have e : V3.distance a b = lit 0 := by
      have z := exactDistance_zero h
      have hx := sub_zero_cases (ha 0) (hb 0) (z 0)
      have hy := sub_zero_cases (ha 1) (hb 1) (z 1)
      have hz := sub_zero_cases (ha 2) (hb 2) (z 2)
      have d : a - b = ⟨a.x - b.x, a.y - b.y, a.z - b.z⟩ := rfl
      unfold V3.distance
      rw [d]
      rcases hx with hx | hx <;> rcases hy with hy | hy <;> rcases hz with hz | hz <;> rw [show a.x - b.x = _ from hx, show a.y - b.y = _ from hy, show a.z - b.z = _ from hz] <;> decide +kernel
    rw [e, h]
    exact ⟨isFin_lit_zero, by rw [val_lit_zero]; norm_num⟩
  · exact ⟨(C82_distance_vec3 a b ha hb h.1 h.2).1, (C82_distance_vec3 a b ha hb h.1 h.2).2⟩

theorem sqLen_nonneg_v3 {v : V3 F32} (h : V3.length2 v ≠ .nan) : lit 0 ≤ V3.length2 v := by
  have : NonnegOrNan (V3.length2 v) := add_nonneg' (add_nonneg' (sq_nonneg' _) (sq_nonneg' _)) (sq_nonneg' _)
  exact this.resolve_left h

/-- C152, the nearest of any number of `vec3` points to `q`, found with `distance`: for a first point `p` at a distance that is not
NaN and any list of further points, the loop returns the first of the points whose computed distance is smallest. -/
theorem C152_vec3_nearest (q p : V3 F32) (ps : List (V3 F32)) (hp : V3.distance q p ≠ .nan) :
    FirstSmallest (V3.distance q) (nearestBy (V3.distance q) p ps) (p :: ps) :=
  nearestBy_first _ p hp ps

/-- C152, the same found with `length2(q - p)`, without square roots: the loop returns the first of the points whose computed squared
distance is smallest, and this point is also nearest according to `distance`. -/
theorem C152_vec3_nearest_squared (q p : V3 F32) (ps : List (V3 F32)) (hp : V3.length2 (q - p) ≠ .nan) :
    FirstSmallest (fun a => V3.length2 (q - a)) (nearestBy (fun a => V3.length2 (q - a)) p ps) (p :: ps) ∧
    ∀ a ∈ p :: ps, V3.length2 (q - a) ≠ .nan →
      V3.distance q (nearestBy (fun a => V3.length2 (q - a)) p ps) ≤ V3.distance q a := by
  have f := nearestBy_first (fun a => V3.length2 (q - a)) p hp ps
  exact ⟨f, fun a ha na => sqrt_le' (f.le ha na) (sqLen_nonneg_v3 f.1)⟩

/-- C152, accuracy: for finite `vec3` points at distances from `q` that are 0 or between `2^-49` and `2^62`, the point found by either
loop is nearest up to rounding: its exact distance is at most `1 + 11 * 2^-24` times that of any of the points. -/
theorem C152_vec3_nearest_exact (q p : V3 F32) (ps : List (V3 F32)) (hq : ∀ i, (coord q i).IsFin = true)
    (h : ∀ a ∈ p :: ps, (∀ i, (coord a i).IsFin = true) ∧ FairDistance (exactDistance (coord q) (coord a))) :
    ∀ a ∈ p :: ps,
      exactDistance (coord q) (coord (nearestBy (V3.distance q) p ps)) ≤
        (1 + 11 / 2 ^ 24) * exactDistance (coord q) (coord a) ∧
      exactDistance (coord q) (coord (nearestBy (fun a => V3.length2 (q - a)) p ps)) ≤
        (1 + 11 / 2 ^ 24) * exactDistance (coord q) (coord a) := by
  have D : ∀ a ∈ p :: ps, DistanceOf (V3.distance q a) (exactDistance (coord q) (coord a)) := fun a ha =>
    distanceOf_v3 hq (h a ha).1 (h a ha).2
  have n2 : ∀ a ∈ p :: ps, V3.length2 (q - a) ≠ .nan := fun a ha e => by
    have : V3.distance q a = FloatOps.sqrt (V3.length2 (q - a)) := rfl
    have f := (D a ha).fin
    rw [this, e] at f
    exact absurd f (by decide)
  have f1 := C152_vec3_nearest q p ps (isFin_ne_nan (D p List.mem_cons_self).fin)
  have f2 := C152_vec3_nearest_squared q p ps (n2 p List.mem_cons_self)
  intro a ha
  exact ⟨(D _ f1.mem).le (D a ha) (exactDistance_nonneg _ _) (f1.le ha (isFin_ne_nan (D a ha).fin)),
    (D _ f2.1.mem).le (D a ha) (exactDistance_nonneg _ _) (f2.2 a ha (n2 a ha))⟩

/-- C152, bounding spheres of any number of `vec3` points: the radius found by the loop with `max` is the largest of the computed
distances from the centre `c`. So `distance(c, a) <= r` is true for every one of the points (whose distance is not NaN), and the radius
does not depend on the order of the points. -/
theorem C152_vec3_sphere (c p : V3 F32) (ps : List (V3 F32)) (hp : V3.distance c p ≠ .nan) :
    LargestOf (radiusBy (V3.distance c) p ps) ((p :: ps).map (V3.distance c)) ∧
    (∀ a ∈ p :: ps, V3.distance c a ≠ .nan → V3.distance c a ≤ radiusBy (V3.distance c) p ps) ∧
    ∀ p' ps', (p :: ps).Perm (p' :: ps') → V3.distance c p' ≠ .nan →
      (radiusBy (V3.distance c) p ps == radiusBy (V3.distance c) p' ps') = true := by
  have l := radiusBy_largest (V3.distance c) p hp ps
  exact ⟨l, fun a ha na => l.2.2 _ (List.mem_map_of_mem ha) na, fun p' ps' hh np =>
    l.perm (radiusBy_largest (V3.distance c) p' np ps') (hh.map _)⟩

/-- C152, accuracy of the sphere: for finite `vec3` points at distances from `c` that are 0 or between `2^-49` and `2^62`, the exact
distance of every point is at most `1 + 6 * 2^-24` times the radius, and the radius is at most `1 + 5 * 2^-24` times the exact distance
of some point. -/
theorem C152_vec3_sphere_exact (c p : V3 F32) (ps : List (V3 F32)) (hc : ∀ i, (coord c i).IsFin = true)
    (h : ∀ a ∈ p :: ps, (∀ i, (coord a i).IsFin = true) ∧ FairDistance (exactDistance (coord c) (coord a))) :
    (∀ a ∈ p :: ps, exactDistance (coord c) (coord a) ≤ (1 + 6 / 2 ^ 24) * ((radiusBy (V3.distance c) p ps).val : ℝ)) ∧
    ∃ a ∈ p :: ps, ((radiusBy (V3.distance c) p ps).val : ℝ) ≤ (1 + 5 / 2 ^ 24) * exactDistance (coord c) (coord a) := by
  have D : ∀ a ∈ p :: ps, DistanceOf (V3.distance c a) (exactDistance (coord c) (coord a)) := fun a ha =>
    distanceOf_v3 hc (h a ha).1 (h a ha).2
  obtain ⟨l1, l2, -⟩ := C152_vec3_sphere c p ps (isFin_ne_nan (D p List.mem_cons_self).fin)
  refine ⟨fun a ha => ?_, ?_⟩
  · have l := key_le_iff.1 (l2 a ha (isFin_ne_nan (D a ha).fin)).2.2
    have l' : ((V3.distance c a).val : ℝ) ≤ (radiusBy (V3.distance c) p ps).val := by exact_mod_cast l
    exact (D a ha).le_of_val l' (exactDistance_nonneg _ _)
  · obtain ⟨a, ha, e⟩ := List.mem_map.1 l1.1
    refine ⟨a, ha, ?_⟩
    rw [← e]
    have := (abs_le.1 (D a ha).err).2
    linarith

/-- Non-vacuity: three `vec3` points, one of them twice and one equal to the query. -/
example : let q : V3 F32 := ⟨lit 1, lit 1, lit 1⟩
    let p : V3 F32 := ⟨lit 4, lit 1, lit 1⟩
    let r : V3 F32 := ⟨lit 1, lit 1, lit 3⟩
    V3.distance q p ≠ .nan ∧ nearestBy (V3.distance q) p [r, p, r] = r ∧
    nearestBy (fun a => V3.length2 (q - a)) p [r, q, q] = q ∧ radiusBy (V3.distance q) r [q, p, r] = lit 3 ∧
    FairDistance (exactDistance (coord q) (coord q)) ∧ FairDistance (exactDistance (coord q) (coord p)) := by
  refine ⟨by decide +kernel, by decide +kernel, by decide +kernel, by decide +kernel, .inl ?_, .inr ?_⟩
  · simp [exactDistance]
  · have : exactDistance (coord (⟨lit 1, lit 1, lit 1⟩ : V3 F32)) (coord (⟨lit 4, lit 1, lit 1⟩ : V3 F32)) = 3 := by
      unfold exactDistance
      simp only [Fin.sum_univ_three, coord_v3_0, coord_v3_1, coord_v3_2]
      rw [show (lit 1 : F32).val = 1 by decide +kernel, show (lit 4 : F32).val = 4 by decide +kernel]
      push_cast
      rw [Real.sqrt_eq_iff_mul_self_eq (by positivity) (by norm_num)]
      norm_num
    rw [this]; norm_num

theorem distanceOf_v4 {a b : V4 F32} (ha : ∀ i, (coord a i).IsFin = true) (hb : ∀ i, (coord b i).IsFin = true)
    (h : FairDistance (exactDistance (coord a) (coord b))) :
    DistanceOf (V4.distance a b) (exactDistance (coord a) (coord b)) := by
  rcases h with h | h
  · have e : V4.distance a b = lit 0 := by
      have z := exactDistance_zero h
      have hx := sub_zero_cases (ha 0) (hb 0) (z 0)
      have hy := sub_zero_cases (ha 1) (hb 1) (z 1)
      have hz := sub_zero_cases (ha 2) (hb 2) (z 2)
      have hw := sub_zero_cases (ha 3) (hb 3) (z 3)
      have d : a - b = ⟨a.x - b.x, a.y - b.y, a.z - b.z, a.w - b.w⟩ := rfl
      unfold V4.distance
      rw [d]
      rcases hx with hx | hx <;> rcases hy with hy | hy <;> rcases hz with hz | hz <;> rcases hw with hw | hw <;> rw [show a.x - b.x = _ from hx, show a.y - b.y = _ from hy, show a.z - b.z = _ from hz, show a.w - b.w = _ from hw] <;> decide +kernel
    rw [e, h]
    exact ⟨isFin_lit_zero, by rw [val_lit_zero]; norm_num⟩
  · exact ⟨(C82_distance_vec4 a b ha hb h.1 h.2).1, (C82_distance_vec4 a b ha hb h.1 h.2).2⟩

theorem sqLen_nonneg_v4 {v : V4 F32} (h : V4.length2 v ≠ .nan) : lit 0 ≤ V4.length2 v := by
  have : NonnegOrNan (V4.length2 v) := add_nonneg' (add_nonneg' (add_nonneg' (sq_nonneg' _) (sq_nonneg' _)) (sq_nonneg' _)) (sq_nonneg' _)
  exact this.resolve_left h

/-- C152, the nearest of any number of `vec4` points to `q`, found with `distance`: for a first point `p` at a distance that is not
NaN and any list of further points, the loop returns the first of the points whose computed distance is smallest. -/
theorem C152_vec4_nearest (q p : V4 F32) (ps : List (V4 F32)) (hp : V4.distance q p ≠ .nan) :
    FirstSmallest (V4.distance q) (nearestBy (V4.distance q) p ps) (p :: ps) :=
  nearestBy_first _ p hp ps

/-- C152, the same found with `length2(q - p)`, without square roots: the loop returns the first of the points whose computed squared
distance is smallest, and this point is also nearest according to `distance`. -/
theorem C152_vec4_nearest_squared (q p : V4 F32) (ps : List (V4 F32)) (hp : V4.length2 (q - p) ≠ .nan) :
    FirstSmallest (fun a => V4.length2 (q - a)) (nearestBy (fun a => V4.length2 (q - a)) p ps) (p :: ps) ∧
    ∀ a ∈ p :: ps, V4.length2 (q - a) ≠ .nan →
      V4.distance q (nearestBy (fun a => V4.length2 (q - a)) p ps) ≤ V4.distance q a := by
  have f := nearestBy_first (fun a => V4.length2 (q - a)) p hp ps
  exact ⟨f, fun a ha na => sqrt_le' (f.le ha na) (sqLen_nonneg_v4 f.1)⟩

/-- C152, accuracy: for finite `vec4` points at distances from `q` that are 0 or between `2^-49` and `2^62`, the point found by either
loop is nearest up to rounding: its exact distance is at most `1 + 11 * 2^-24` times that of any of the points. -/
theorem C152_vec4_nearest_exact (q p : V4 F32) (ps : List (V4 F32)) (hq : ∀ i, (coord q i).IsFin = true)
    (h : ∀ a ∈ p :: ps, (∀ i, (coord a i).IsFin = true) ∧ FairDistance (exactDistance (coord q) (coord a))) :
    ∀ a ∈ p :: ps,
      exactDistance (coord q) (coord (nearestBy (V4.distance q) p ps)) ≤
        (1 + 11 / 2 ^ 24) * exactDistance (coord q) (coord a) ∧
      exactDistance (coord q) (coord (nearestBy (fun a => V4.length2 (q - a)) p ps)) ≤
        (1 + 11 / 2 ^ 24) * exactDistance (coord q) (coord a) := by
  have D : ∀ a ∈ p :: ps, DistanceOf (V4.distance q a) (exactDistance (coord q) (coord a)) := fun a ha =>
    distanceOf_v4 hq (h a ha).1 (h a ha).2
  have n2 : ∀ a ∈ p :: ps, V4.length2 (q - a) ≠ .nan := fun a ha e => by
    have : V4.distance q a = FloatOps.sqrt (V4.length2 (q - a)) := rfl
    have f := (D a ha).fin
    rw [this, e] at f
    exact absurd f (by decide)
  have f1 := C152_vec4_nearest q p ps (isFin_ne_nan (D p List.mem_cons_self).fin)
  have f2 := C152_vec4_nearest_squared q p ps (n2 p List.mem_cons_self)
  intro a ha
  exact ⟨(D _ f1.mem).le (D a ha) (exactDistance_nonneg _ _) (f1.le ha (isFin_ne_nan (D a ha).fin)),
    (D _ f2.1.mem).le (D a ha) (exactDistance_nonneg _ _) (f2.2 a ha (n2 a ha))⟩

/-- C152, bounding spheres of any number of `vec4` points: the radius found by the loop with `max` is the largest of the computed
distances from the centre `c`. So `distance(c, a) <= r` is true for every one of the points (whose distance is not NaN), and the radius
does not depend on the order of the points. -/
theorem C152_vec4_sphere (c p : V4 F32) (ps : List (V4 F32)) (hp : V4.distance c p ≠ .nan) :
    LargestOf (radiusBy (V4.distance c) p ps) ((p :: ps).map (V4.distance c)) ∧
    (∀ a ∈ p :: ps, V4.distance c a ≠ .nan → V4.distance c a ≤ radiusBy (V4.distance c) p ps) ∧
    ∀ p' ps', (p :: ps).Perm (p' :: ps') → V4.distance c p' ≠ .nan →
      (radiusBy (V4.distance c) p ps == radiusBy (V4.distance c) p' ps') = true := by
  have l := radiusBy_largest (V4.distance c) p hp ps
  exact ⟨l, fun a ha na => l.2.2 _ (List.mem_map_of_mem ha) na, fun p' ps' hh np =>
    l.perm (radiusBy_largest (V4.distance c) p' np ps') (hh.map _)⟩

/-- C152, accuracy of the sphere: for finite `vec4` points at distances from `c` that are 0 or between `2^-49` and `2^62`, the exact
distance of every point is at most `1 + 6 * 2^-24` times the radius, and the radius is at most `1 + 5 * 2^-24` times the exact distance
of some point. -/
theorem C152_vec4_sphere_exact (c p : V4 F32) (ps : List (V4 F32)) (hc : ∀ i, (coord c i).IsFin = true)
    (h : ∀ a ∈ p :: ps, (∀ i, (coord a i).IsFin = true) ∧ FairDistance (exactDistance (coord c) (coord a))) :
    (∀ a ∈ p :: ps, exactDistance (coord c) (coord a) ≤ (1 + 6 / 2 ^ 24) * ((radiusBy (V4.distance c) p ps).val : ℝ)) ∧
    ∃ a ∈ p :: ps, ((radiusBy (V4.distance c) p ps).val : ℝ) ≤ (1 + 5 / 2 ^ 24) * exactDistance (coord c) (coord a) := by
  have D : ∀ a ∈ p :: ps, DistanceOf (V4.distance c a) (exactDistance (coord c) (coord a)) := fun a ha =>
    distanceOf_v4 hc (h a ha).1 (h a ha).2
  obtain ⟨l1, l2, -⟩ := C152_vec4_sphere c p ps (isFin_ne_nan (D p List.mem_cons_self).fin)
  refine ⟨fun a ha => ?_, ?_⟩
  · have l := key_le_iff.1 (l2 a ha (isFin_ne_nan (D a ha).fin)).2.2
    have l' : ((V4.distance c a).val : ℝ) ≤ (radiusBy (V4.distance c) p ps).val := by exact_mod_cast l
    exact (D a ha).le_of_val l' (exactDistance_nonneg _ _)
  · obtain ⟨a, ha, e⟩ := List.mem_map.1 l1.1
    refine ⟨a, ha, ?_⟩
    rw [← e]
    have := (abs_le.1 (D a ha).err).2
    linarith

/-- Non-vacuity: three `vec4` points, one of them twice and one equal to the query. -/
example : let q : V4 F32 := ⟨lit 1, lit 1, lit 1, lit 1⟩
    let p : V4 F32 := ⟨lit 4, lit 1, lit 1, lit 1⟩
    let r : V4 F32 := ⟨lit 1, lit 1, lit 1, lit 3⟩
    V4.distance q p ≠ .nan ∧ nearestBy (V4.distance q) p [r, p, r] = r ∧
    nearestBy (fun a => V4.length2 (q - a)) p [r, q, q] = q ∧ radiusBy (V4.distance q) r [q, p, r] = lit 3 ∧
    FairDistance (exactDistance (coord q) (coord q)) ∧ FairDistance (exactDistance (coord q) (coord p)) := by
  refine ⟨by decide +kernel, by decide +kernel, by decide +kernel, by decide +kernel, .inl ?_, .inr ?_⟩
  · simp [exactDistance]
  · have : exactDistance (coord (⟨lit 1, lit 1, lit 1, lit 1⟩ : V4 F32)) (coord (⟨lit 4, lit 1, lit 1, lit 1⟩ : V4 F32)) = 3 := by
      unfold exactDistance
      simp only [Fin.sum_univ_four, coord_v4_0, coord_v4_1, coord_v4_2, coord_v4_3]
      rw [show (lit 1 : F32).val = 1 by decide +kernel, show (lit 4 : F32).val = 4 by decide +kernel]
      push_cast
      rw [Real.sqrt_eq_iff_mul_self_eq (by positivity) (by norm_num)]
      norm_num
    rw [this]; norm_num

end Zcm
