import Verif.Spec.Coord
import Verif.Spec.Box
import Verif.Model.Geometric
import Verif.Lemmas.F32Box
import Verif.Props.C72
import Verif.Props.C76
import Verif.Props.C85
import Mathlib.Tactic.FinCases

/-!
# C132  Bounding boxes of any number of points, and the nearest point of a box

`lo` and `hi` are computed by a loop `lo = min(lo, p); hi = max(hi, p);` over a list of points.
-/

namespace Zcm

open F32

theorem fold_imin (l : List I32) : ∀ x : I32, LeastOf (l.foldl I.min x).toInt ((x :: l).map I32.toInt) := by
  induction l with
  | nil => exact fun x => ⟨by simp, fun a ha => by simp at ha; subst ha; exact le_rfl⟩
  | cons y l ih =>
    intro x
    obtain ⟨k1, k2⟩ := ih (I.min x y)
    rw [List.map_cons, imin_toInt] at k1 k2
    have k0 := k2 _ List.mem_cons_self
    refine ⟨?_, fun a ha => ?_⟩
    · rw [List.foldl_cons, List.map_cons, List.map_cons]
      rcases List.mem_cons.1 k1 with h | h
      · rw [h]; rcases min_choice x.toInt y.toInt with h4 | h4 <;> rw [h4] <;> simp
      · exact List.mem_cons_of_mem _ (List.mem_cons_of_mem _ h)
    · rw [List.foldl_cons]
      rw [List.map_cons, List.map_cons] at ha
      rcases List.mem_cons.1 ha with rfl | ha
      · exact k0.trans (min_le_left _ _)
      rcases List.mem_cons.1 ha with rfl | ha
      · exact k0.trans (min_le_right _ _)
      · exact k2 _ (List.mem_cons_of_mem _ ha)

theorem fold_imax (l : List I32) : ∀ x : I32, GreatestOf (l.foldl I.max x).toInt ((x :: l).map I32.toInt) := by
  induction l with
  | nil => exact fun x => ⟨by simp, fun a ha => by simp at ha; subst ha; exact le_rfl⟩
  | cons y l ih =>
    intro x
    obtain ⟨k1, k2⟩ := ih (I.max x y)
    rw [List.map_cons, imax_toInt] at k1 k2
    have k0 := k2 _ List.mem_cons_self
    refine ⟨?_, fun a ha => ?_⟩
    · rw [List.foldl_cons, List.map_cons, List.map_cons]
      rcases List.mem_cons.1 k1 with h | h
      · rw [h]; rcases max_choice x.toInt y.toInt with h4 | h4 <;> rw [h4] <;> simp
      · exact List.mem_cons_of_mem _ (List.mem_cons_of_mem _ h)
    · rw [List.foldl_cons]
      rw [List.map_cons, List.map_cons] at ha
      rcases List.mem_cons.1 ha with rfl | ha
      · exact (le_max_left _ _).trans k0
      rcases List.mem_cons.1 ha with rfl | ha
      · exact (le_max_right _ _).trans k0
      · exact k2 _ (List.mem_cons_of_mem _ ha)

/-- C132, bounding box of `vec2` points: for a first point `p` and any list `ps` of further points (infinities allowed), each
component of the result of the loop with `min` (with `max`) is the smallest (largest) of that component over all points. A
NaN in a later point is skipped. -/
theorem C132_vec2_box (p : V2 F32) (ps : List (V2 F32)) (i : Fin 2) (h : coord p i ≠ .nan) :
    SmallestOf (coord (ps.foldl V2.min p) i) ((p :: ps).map fun a => coord a i) ∧
    LargestOf (coord (ps.foldl V2.max p) i) ((p :: ps).map fun a => coord a i) := by
  constructor
  · rw [foldl_part (fun a => coord a i) V2.min F.min (by fin_cases i <;> exact fun _ _ => rfl)]
    exact fold_min _ _ h
  · rw [foldl_part (fun a => coord a i) V2.max F.max (by fin_cases i <;> exact fun _ _ => rfl)]
    exact fold_max _ _ h

/-- C132, a NaN in the first `vec2` is never removed. -/
theorem C132_vec2_box_nan (p : V2 F32) (ps : List (V2 F32)) (i : Fin 2) (h : coord p i = .nan) :
    coord (ps.foldl V2.min p) i = .nan ∧ coord (ps.foldl V2.max p) i = .nan := by
  constructor
  · rw [foldl_part (fun a => coord a i) V2.min F.min (by fin_cases i <;> exact fun _ _ => rfl), h, fold_min_nan]
  · rw [foldl_part (fun a => coord a i) V2.max F.max (by fin_cases i <;> exact fun _ _ => rfl), h, fold_max_nan]

/-- C132, the box does not depend on the order of the `vec2` points: two loops over the same points in different orders give
components that compare equal, as long as neither starts with a NaN there. -/
theorem C132_vec2_box_order (p q : V2 F32) (ps qs : List (V2 F32)) (hp : (p :: ps).Perm (q :: qs)) (i : Fin 2)
    (h : coord p i ≠ .nan) (g : coord q i ≠ .nan) :
    (coord (ps.foldl V2.min p) i == coord (qs.foldl V2.min q) i) = true ∧
    (coord (ps.foldl V2.max p) i == coord (qs.foldl V2.max q) i) = true :=
  ⟨(C132_vec2_box p ps i h).1.perm (C132_vec2_box q qs i g).1 (hp.map _),
    (C132_vec2_box p ps i h).2.perm (C132_vec2_box q qs i g).2 (hp.map _)⟩

/-- C132, every one of the `vec2` points is in the box: `clamp` returns it bit for bit. -/
theorem C132_vec2_box_member (p a : V2 F32) (ps : List (V2 F32)) (ha : a ∈ p :: ps) (h : ∀ i, coord p i ≠ .nan)
    (g : ∀ i, coord a i ≠ .nan) : V2.clamp a (ps.foldl V2.min p) (ps.foldl V2.max p) = a := by
  have e : ∀ i, F.clamp (coord a i) (coord (ps.foldl V2.min p) i) (coord (ps.foldl V2.max p) i) = coord a i := fun i =>
    clamp_inside ((C132_vec2_box p ps i (h i)).1.2.2 _ (List.mem_map_of_mem ha) (g i))
      ((C132_vec2_box p ps i (h i)).2.2.2 _ (List.mem_map_of_mem ha) (g i))
  exact V2.ext (e 0) (e 1)

/-- C132, `clamp(p, lo, hi)` is the point of the box nearest to `p`, exactly and as computed: for finite `vec2` `p`, `lo`, `hi`
and any finite `q` in the box, the exact squared distance of the clamped point is at most that of `q`, and so are the
results of `distance`, of `length2` of the difference, and the differences per component. -/
theorem C132_vec2_nearest (p lo hi q : V2 F32) (fp : ∀ i, (coord p i).IsFin = true) (fl : ∀ i, (coord lo i).IsFin = true)
    (fh : ∀ i, (coord hi i).IsFin = true) (fq : ∀ i, (coord q i).IsFin = true)
    (hq : ∀ i, InRange (coord lo i) (coord hi i) (coord q i)) :
    (∀ i, InRange (coord lo i) (coord hi i) (coord (V2.clamp p lo hi) i)) ∧
    (∀ i, |(coord (V2.clamp p lo hi) i).val - (coord p i).val| ≤ |(coord q i).val - (coord p i).val|) ∧
    ∑ i, ((coord (V2.clamp p lo hi) i).val - (coord p i).val) ^ 2 ≤ ∑ i, ((coord q i).val - (coord p i).val) ^ 2 ∧
    V2.distance (V2.clamp p lo hi) p ≤ V2.distance q p ∧
    V2.length2 (V2.clamp p lo hi - p) ≤ V2.length2 (q - p) := by
  have c : ∀ i, coord (V2.clamp p lo hi) i = F.clamp (coord p i) (coord lo i) (coord hi i) := by
    intro i; fin_cases i <;> rfl
  have hn : ∀ i, |(coord (V2.clamp p lo hi) i).val - (coord p i).val| ≤ |(coord q i).val - (coord p i).val| := fun i => by
    rw [c]; exact (clamp_nearest (fp i) (fl i) (fh i) (hq i).1 (hq i).2).2
  have hl := C85_vec2_length (V2.clamp p lo hi - p) (q - p) (fun i => by
    have e1 : coord (V2.clamp p lo hi - p) i = F.clamp (coord p i) (coord lo i) (coord hi i) - coord p i := by
      rw [← c]; fin_cases i <;> rfl
    have e2 : coord (q - p) i = coord q i - coord p i := by fin_cases i <;> rfl
    rw [e1, e2]
    exact clamp_nearest_float (fp i) (fl i) (fh i) (fq i) (hq i).1 (hq i).2)
  exact ⟨fun i => by rw [c]; exact C76_clamp _ _ _ (isFin_ne_nan (fp i)) (le_trans_f (hq i).1 (hq i).2), hn,
    Finset.sum_le_sum fun i _ => sq_le_sq.2 (hn i), hl.2, hl.1⟩

/-- C132, bounding box of `ivec2` points: exact, for any number of points. -/
theorem C132_ivec2_box (p : V2 I32) (ps : List (V2 I32)) (i : Fin 2) :
    LeastOf (icoord (ps.foldl IV2.min p) i) ((p :: ps).map fun a => icoord a i) ∧
    GreatestOf (icoord (ps.foldl IV2.max p) i) ((p :: ps).map fun a => icoord a i) := by
  have e : (p :: ps).map (fun a => icoord a i) = ((p :: ps).map fun a => coord a i).map I32.toInt := by
    rw [List.map_map]; apply List.map_congr_left; intro a _; fin_cases i <;> rfl
  have s : ∀ a : V2 I32, icoord a i = (coord a i).toInt := fun a => by fin_cases i <;> rfl
  constructor
  · rw [e, s, foldl_part (fun a => coord a i) IV2.min I.min (by fin_cases i <;> exact fun _ _ => rfl)]
    exact fold_imin _ _
  · rw [e, s, foldl_part (fun a => coord a i) IV2.max I.max (by fin_cases i <;> exact fun _ _ => rfl)]
    exact fold_imax _ _

/-- Non-vacuity for `C132_vec2_*`. -/
example : ([⟨lit (-2), lit 5⟩, ⟨lit 7, lit 2⟩] : List (V2 F32)).foldl V2.min ⟨lit 3, lit (-1)⟩ = ⟨lit (-2), lit (-1)⟩ ∧ ([⟨lit (-2), lit 5⟩, ⟨lit 7, lit 2⟩] : List (V2 F32)).foldl V2.max ⟨lit 3, lit (-1)⟩ = ⟨lit 7, lit 5⟩ := by
  decide +kernel

/-- Non-vacuity for `C132_vec2_nearest`. -/
example : let p : V2 F32 := ⟨lit 9, lit 0⟩
    let lo : V2 F32 := V2.splat (lit (-1))
    let hi : V2 F32 := V2.splat (lit 2)
    let q : V2 F32 := V2.splat (lit 1)
    (∀ i, (coord p i).IsFin = true) ∧ (∀ i, (coord lo i).IsFin = true) ∧ (∀ i, (coord hi i).IsFin = true) ∧
    (∀ i, (coord q i).IsFin = true) ∧ (∀ i, coord lo i ≤ coord q i ∧ coord q i ≤ coord hi i) ∧
    V2.clamp p lo hi ≠ p ∧ V2.clamp p lo hi ≠ q := by decide +kernel

/-- C132, bounding box of `vec3` points: for a first point `p` and any list `ps` of further points (infinities allowed), each
component of the result of the loop with `min` (with `max`) is the smallest (largest) of that component over all points. A
NaN in a later point is skipped. -/
theorem C132_vec3_box (p : V3 F32) (ps : List (V3 F32)) (i : Fin 3) (h : coord p i ≠ .nan) :
    SmallestOf (coord (ps.foldl V3.min p) i) ((p :: ps).map fun a => coord a i) ∧
    LargestOf (coord (ps.foldl V3.max p) i) ((p :: ps).map fun a => coord a i) := by
  constructor
  · rw [foldl_part (fun a => coord a i) V3.min F.min (by fin_cases i <;> exact fun _ _ => rfl)]
    exact fold_min _ _ h
  · rw [foldl_part (fun a => coord a i) V3.max F.max (by fin_cases i <;> exact fun _ _ => rfl)]
    exact fold_max _ _ h

/-- C132, a NaN in the first `vec3` is never removed. -/
theorem C132_vec3_box_nan (p : V3 F32) (ps : List (V3 F32)) (i : Fin 3) (h : coord p i = .nan) :
    coord (ps.foldl V3.min p) i = .nan ∧ coord (ps.foldl V3.max p) i = .nan := by
  constructor
  · rw [foldl_part (fun a => coord a i) V3.min F.min (by fin_cases i <;> exact fun _ _ => rfl), h, fold_min_nan]
  · rw [foldl_part (fun a => coord a i) V3.max F.max (by fin_cases i <;> exact fun _ _ => rfl), h, fold_max_nan]

/-- C132, the box does not depend on the order of the `vec3` points: two loops over the same points in different orders give
components that compare equal, as long as neither starts with a NaN there. -/
theorem C132_vec3_box_order (p q : V3 F32) (ps qs : List (V3 F32)) (hp : (p :: ps).Perm (q :: qs)) (i : Fin 3)
    (h : coord p i ≠ .nan) (g : coord q i ≠ .nan) :
    (coord (ps.foldl V3.min p) i == coord (qs.foldl V3.min q) i) = true ∧
    (coord (ps.foldl V3.max p) i == coord (qs.foldl V3.max q) i) = true :=
  ⟨(C132_vec3_box p ps i h).1.perm (C132_vec3_box q qs i g).1 (hp.map _),
    (C132_vec3_box p ps i h).2.perm (C132_vec3_box q qs i g).2 (hp.map _)⟩

/-- C132, every one of the `vec3` points is in the box: `clamp` returns it bit for bit. -/
theorem C132_vec3_box_member (p a : V3 F32) (ps : List (V3 F32)) (ha : a ∈ p :: ps) (h : ∀ i, coord p i ≠ .nan)
    (g : ∀ i, coord a i ≠ .nan) : V3.clamp a (ps.foldl V3.min p) (ps.foldl V3.max p) = a := by
  have e : ∀ i, F.clamp (coord a i) (coord (ps.foldl V3.min p) i) (coord (ps.foldl V3.max p) i) = coord a i := fun i =>
    clamp_inside ((C132_vec3_box p ps i (h i)).1.2.2 _ (List.mem_map_of_mem ha) (g i))
      ((C132_vec3_box p ps i (h i)).2.2.2 _ (List.mem_map_of_mem ha) (g i))
  exact V3.ext (e 0) (e 1) (e 2)

/-- C132, `clamp(p, lo, hi)` is the point of the box nearest to `p`, exactly and as computed: for finite `vec3` `p`, `lo`, `hi`
and any finite `q` in the box, the exact squared distance of the clamped point is at most that of `q`, and so are the
results of `distance`, of `length2` of the difference, and the differences per component. -/
theorem C132_vec3_nearest (p lo hi q : V3 F32) (fp : ∀ i, (coord p i).IsFin = true) (fl : ∀ i, (coord lo i).IsFin = true)
    (fh : ∀ i, (coord hi i).IsFin = true) (fq : ∀ i, (coord q i).IsFin = true)
    (hq : ∀ i, InRange (coord lo i) (coord hi i) (coord q i)) :
    (∀ i, InRange (coord lo i) (coord hi i) (coord (V3.clamp p lo hi) i)) ∧
    (∀ i, |(coord (V3.clamp p lo hi) i).val - (coord p i).val| ≤ |(coord q i).val - (coord p i).val|) ∧
    ∑ i, ((coord (V3.clamp p lo hi) i).val - (coord p i).val) ^ 2 ≤ ∑ i, ((coord q i).val - (coord p i).val) ^ 2 ∧
    V3.distance (V3.clamp p lo hi) p ≤ V3.distance q p ∧
    V3.length2 (V3.clamp p lo hi - p) ≤ V3.length2 (q - p) := by
  have c : ∀ i, coord (V3.clamp p lo hi) i = F.clamp (coord p i) (coord lo i) (coord hi i) := by
    intro i; fin_cases i <;> rfl
  have hn : ∀ i, |(coord (V3.clamp p lo hi) i).val - (coord p i).val| ≤ |(coord q i).val - (coord p i).val| := fun i => by
    rw [c]; exact (clamp_nearest (fp i) (fl i) (fh i) (hq i).1 (hq i).2).2
  have hl := C85_vec3_length (V3.clamp p lo hi - p) (q - p) (fun i => by
    have e1 : coord (V3.clamp p lo hi - p) i = F.clamp (coord p i) (coord lo i) (coord hi i) - coord p i := by
      rw [← c]; fin_cases i <;> rfl
    have e2 : coord (q - p) i = coord q i - coord p i := by fin_cases i <;> rfl
    rw [e1, e2]
    exact clamp_nearest_float (fp i) (fl i) (fh i) (fq i) (hq i).1 (hq i).2)
  exact ⟨fun i => by rw [c]; exact C76_clamp _ _ _ (isFin_ne_nan (fp i)) (le_trans_f (hq i).1 (hq i).2), hn,
    Finset.sum_le_sum fun i _ => sq_le_sq.2 (hn i), hl.2, hl.1⟩

/-- C132, bounding box of `ivec3` points: exact, for any number of points. -/
theorem C132_ivec3_box (p : V3 I32) (ps : List (V3 I32)) (i : Fin 3) :
    LeastOf (icoord (ps.foldl IV3.min p) i) ((p :: ps).map fun a => icoord a i) ∧
    GreatestOf (icoord (ps.foldl IV3.max p) i) ((p :: ps).map fun a => icoord a i) := by
  have e : (p :: ps).map (fun a => icoord a i) = ((p :: ps).map fun a => coord a i).map I32.toInt := by
    rw [List.map_map]; apply List.map_congr_left; intro a _; fin_cases i <;> rfl
  have s : ∀ a : V3 I32, icoord a i = (coord a i).toInt := fun a => by fin_cases i <;> rfl
  constructor
  · rw [e, s, foldl_part (fun a => coord a i) IV3.min I.min (by fin_cases i <;> exact fun _ _ => rfl)]
    exact fold_imin _ _
  · rw [e, s, foldl_part (fun a => coord a i) IV3.max I.max (by fin_cases i <;> exact fun _ _ => rfl)]
    exact fold_imax _ _

/-- Non-vacuity for `C132_vec3_*`. -/
example : ([⟨lit (-2), lit 5, .nan⟩, ⟨lit 7, lit 2, lit 4⟩] : List (V3 F32)).foldl V3.min ⟨lit 3, lit (-1), lit 0⟩ = ⟨lit (-2), lit (-1), lit 0⟩ ∧ ([⟨lit (-2), lit 5, .nan⟩, ⟨lit 7, lit 2, lit 4⟩] : List (V3 F32)).foldl V3.max ⟨lit 3, lit (-1), lit 0⟩ = ⟨lit 7, lit 5, lit 4⟩ := by
  decide +kernel

/-- Non-vacuity for `C132_vec3_nearest`. -/
example : let p : V3 F32 := ⟨lit 9, lit 0, lit (-3)⟩
    let lo : V3 F32 := V3.splat (lit (-1))
    let hi : V3 F32 := V3.splat (lit 2)
    let q : V3 F32 := V3.splat (lit 1)
    (∀ i, (coord p i).IsFin = true) ∧ (∀ i, (coord lo i).IsFin = true) ∧ (∀ i, (coord hi i).IsFin = true) ∧
    (∀ i, (coord q i).IsFin = true) ∧ (∀ i, coord lo i ≤ coord q i ∧ coord q i ≤ coord hi i) ∧
    V3.clamp p lo hi ≠ p ∧ V3.clamp p lo hi ≠ q := by decide +kernel

/-- C132, bounding box of `vec4` points: for a first point `p` and any list `ps` of further points (infinities allowed), each
component of the result of the loop with `min` (with `max`) is the smallest (largest) of that component over all points. A
NaN in a later point is skipped. -/
theorem C132_vec4_box (p : V4 F32) (ps : List (V4 F32)) (i : Fin 4) (h : coord p i ≠ .nan) :
    SmallestOf (coord (ps.foldl V4.min p) i) ((p :: ps).map fun a => coord a i) ∧
    LargestOf (coord (ps.foldl V4.max p) i) ((p :: ps).map fun a => coord a i) := by
  constructor
  · rw [foldl_part (fun a => coord a i) V4.min F.min (by fin_cases i <;> exact fun _ _ => rfl)]
    exact fold_min _ _ h
  · rw [foldl_part (fun a => coord a i) V4.max F.max (by fin_cases i <;> exact fun _ _ => rfl)]
    exact fold_max _ _ h

/-- C132, a NaN in the first `vec4` is never removed. -/
theorem C132_vec4_box_nan (p : V4 F32) (ps : List (V4 F32)) (i : Fin 4) (h : coord p i = .nan) :
    coord (ps.foldl V4.min p) i = .nan ∧ coord (ps.foldl V4.max p) i = .nan := by
  constructor
  · rw [foldl_part (fun a => coord a i) V4.min F.min (by fin_cases i <;> exact fun _ _ => rfl), h, fold_min_nan]
  · rw [foldl_part (fun a => coord a i) V4.max F.max (by fin_cases i <;> exact fun _ _ => rfl), h, fold_max_nan]

/-- C132, the box does not depend on the order of the `vec4` points: two loops over the same points in different orders give
components that compare equal, as long as neither starts with a NaN there. -/
theorem C132_vec4_box_order (p q : V4 F32) (ps qs : List (V4 F32)) (hp : (p :: ps).Perm (q :: qs)) (i : Fin 4)
    (h : coord p i ≠ .nan) (g : coord q i ≠ .nan) :
    (coord (ps.foldl V4.min p) i == coord (qs.foldl V4.min q) i) = true ∧
    (coord (ps.foldl V4.max p) i == coord (qs.foldl V4.max q) i) = true :=
  ⟨(C132_vec4_box p ps i h).1.perm (C132_vec4_box q qs i g).1 (hp.map _),
    (C132_vec4_box p ps i h).2.perm (C132_vec4_box q qs i g).2 (hp.map _)⟩

/-- C132, every one of the `vec4` points is in the box: `clamp` returns it bit for bit. -/
theorem C132_vec4_box_member (p a : V4 F32) (ps : List (V4 F32)) (ha : a ∈ p :: ps) (h : ∀ i, coord p i ≠ .nan)
    (g : ∀ i, coord a i ≠ .nan) : V4.clamp a (ps.foldl V4.min p) (ps.foldl V4.max p) = a := by
  have e : ∀ i, F.clamp (coord a i) (coord (ps.foldl V4.min p) i) (coord (ps.foldl V4.max p) i) = coord a i := fun i =>
    clamp_inside ((C132_vec4_box p ps i (h i)).1.2.2 _ (List.mem_map_of_mem ha) (g i))
      ((C132_vec4_box p ps i (h i)).2.2.2 _ (List.mem_map_of_mem ha) (g i))
  exact V4.ext (e 0) (e 1) (e 2) (e 3)

/-- C132, `clamp(p, lo, hi)` is the point of the box nearest to `p`, exactly and as computed: for finite `vec4` `p`, `lo`, `hi`
and any finite `q` in the box, the exact squared distance of the clamped point is at most that of `q`, and so are the
results of `distance`, of `length2` of the difference, and the differences per component. -/
theorem C132_vec4_nearest (p lo hi q : V4 F32) (fp : ∀ i, (coord p i).IsFin = true) (fl : ∀ i, (coord lo i).IsFin = true)
    (fh : ∀ i, (coord hi i).IsFin = true) (fq : ∀ i, (coord q i).IsFin = true)
    (hq : ∀ i, InRange (coord lo i) (coord hi i) (coord q i)) :
    (∀ i, InRange (coord lo i) (coord hi i) (coord (V4.clamp p lo hi) i)) ∧
    (∀ i, |(coord (V4.clamp p lo hi) i).val - (coord p i).val| ≤ |(coord q i).val - (coord p i).val|) ∧
    ∑ i, ((coord (V4.clamp p lo hi) i).val - (coord p i).val) ^ 2 ≤ ∑ i, ((coord q i).val - (coord p i).val) ^ 2 ∧
    V4.distance (V4.clamp p lo hi) p ≤ V4.distance q p ∧
    V4.length2 (V4.clamp p lo hi - p) ≤ V4.length2 (q - p) := by
  have c : ∀ i, coord (V4.clamp p lo hi) i = F.clamp (coord p i) (coord lo i) (coord hi i) := by
    intro i; fin_cases i <;> rfl
  have hn : ∀ i, |(coord (V4.clamp p lo hi) i).val - (coord p i).val| ≤ |(coord q i).val - (coord p i).val| := fun i => by
    rw [c]; exact (clamp_nearest (fp i) (fl i) (fh i) (hq i).1 (hq i).2).2
  have hl := C85_vec4_length (V4.clamp p lo hi - p) (q - p) (fun i => by
    have e1 : coord (V4.clamp p lo hi - p) i = F.clamp (coord p i) (coord lo i) (coord hi i) - coord p i := by
      rw [← c]; fin_cases i <;> rfl
    have e2 : coord (q - p) i = coord q i - coord p i := by fin_cases i <;> rfl
    rw [e1, e2]
    exact clamp_nearest_float (fp i) (fl i) (fh i) (fq i) (hq i).1 (hq i).2)
  exact ⟨fun i => by rw [c]; exact C76_clamp _ _ _ (isFin_ne_nan (fp i)) (le_trans_f (hq i).1 (hq i).2), hn,
    Finset.sum_le_sum fun i _ => sq_le_sq.2 (hn i), hl.2, hl.1⟩

/-- C132, bounding box of `ivec4` points: exact, for any number of points. -/
theorem C132_ivec4_box (p : V4 I32) (ps : List (V4 I32)) (i : Fin 4) :
    LeastOf (icoord (ps.foldl IV4.min p) i) ((p :: ps).map fun a => icoord a i) ∧
    GreatestOf (icoord (ps.foldl IV4.max p) i) ((p :: ps).map fun a => icoord a i) := by
  have e : (p :: ps).map (fun a => icoord a i) = ((p :: ps).map fun a => coord a i).map I32.toInt := by
    rw [List.map_map]; apply List.map_congr_left; intro a _; fin_cases i <;> rfl
  have s : ∀ a : V4 I32, icoord a i = (coord a i).toInt := fun a => by fin_cases i <;> rfl
  constructor
  · rw [e, s, foldl_part (fun a => coord a i) IV4.min I.min (by fin_cases i <;> exact fun _ _ => rfl)]
    exact fold_imin _ _
  · rw [e, s, foldl_part (fun a => coord a i) IV4.max I.max (by fin_cases i <;> exact fun _ _ => rfl)]
    exact fold_imax _ _

/-- Non-vacuity for `C132_vec4_*`. -/
example : ([⟨lit (-2), lit 5, .nan, lit 1⟩, ⟨lit 7, lit 2, lit 4, lit 2⟩] : List (V4 F32)).foldl V4.min ⟨lit 3, lit (-1), lit 0, .inf false⟩ = ⟨lit (-2), lit (-1), lit 0, lit 1⟩ ∧ ([⟨lit (-2), lit 5, .nan, lit 1⟩, ⟨lit 7, lit 2, lit 4, lit 2⟩] : List (V4 F32)).foldl V4.max ⟨lit 3, lit (-1), lit 0, .inf false⟩ = ⟨lit 7, lit 5, lit 4, .inf false⟩ := by
  decide +kernel

/-- Non-vacuity for `C132_vec4_nearest`. -/
example : let p : V4 F32 := ⟨lit 9, lit 0, lit (-3), lit 8⟩
    let lo : V4 F32 := V4.splat (lit (-1))
    let hi : V4 F32 := V4.splat (lit 2)
    let q : V4 F32 := V4.splat (lit 1)
    (∀ i, (coord p i).IsFin = true) ∧ (∀ i, (coord lo i).IsFin = true) ∧ (∀ i, (coord hi i).IsFin = true) ∧
    (∀ i, (coord q i).IsFin = true) ∧ (∀ i, coord lo i ≤ coord q i ∧ coord q i ≤ coord hi i) ∧
    V4.clamp p lo hi ≠ p ∧ V4.clamp p lo hi ≠ q := by decide +kernel

end Zcm
