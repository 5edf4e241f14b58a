import Verif.Props.C149
import Verif.Props.C41
import Verif.Spec.Frustum
import Verif.Spec.Affine

/-!
# C150: the sides of the volume seen through a matrix

Caller code. `rows = transpose(M)`; the six planes are `rows[3] + rows[i]` and `rows[3] - rows[i]`; a plane `p` has the normal
`vec3(p.x, p.y, p.z)` and the offset `p.w`. A box is culled if one of the planes has it on the negative side, tested as in C149.
-/

set_option exponentiation.threshold 300

namespace Zcm

open F32

/-- Caller code: the plane of side `i` (left and right, bottom and top, near and far). -/
def clipPlane {α : Type} [Add α] [Sub α] (M : M4 α) (plus : Bool) (i : Fin 3) : V4 α :=
  let rows := M4.transpose M
  let row : V4 α := match i with
    | 0 => rows.c0
    | 1 => rows.c1
    | 2 => rows.c2
  if plus then rows.c3 + row else rows.c3 - row

/-- Caller code: the six planes, as normals and offsets. -/
def clipPlanes {α : Type} [Add α] [Sub α] (M : M4 α) : List (V3 α × α) :=
  [(true, 0), (false, 0), (true, 1), (false, 1), (true, 2), (false, 2)].map fun q =>
    let p := clipPlane M q.1 q.2
    (⟨p.x, p.y, p.z⟩, p.w)

private theorem mem_planes {α : Type} [Add α] [Sub α] (M : M4 α) (P : V3 α × α → Prop) :
    (∀ p ∈ clipPlanes M, P p) ↔ ∀ (s : Bool) (i : Fin 3), P (⟨(clipPlane M s i).x, (clipPlane M s i).y, (clipPlane M s i).z⟩, (clipPlane M s i).w) := by
  simp only [clipPlanes, List.map_cons, List.map_nil, List.forall_mem_cons]
  constructor
  · rintro ⟨a, b, c, d, e, f, -⟩ s i
    cases s <;> fin_cases i <;> assumption
  · intro h
    exact ⟨h _ _, h _ _, h _ _, h _ _, h _ _, h _ _, fun _ m => by cases m⟩

private theorem coord_plane {α : Type} [Add α] [Sub α] (M : M4 α) (s : Bool) (i : Fin 3) (c : Fin 4) :
    coord (clipPlane M s i) c = if s then entry M c 3 + entry M c i.castSucc else entry M c 3 - entry M c i.castSucc := by
  cases s <;> fin_cases i <;> fin_cases c <;> rfl

/-- C150, exact arithmetic: a point passes the tests against the six planes exactly if its clip coordinates are in the clip volume. -/
theorem C150_exact (M : M4 ℝ) (p : V3 ℝ) :
    (∀ q ∈ clipPlanes M, 0 ≤ V3.dot q.1 p + q.2) ↔ ∀ i : Fin 3, |coord (M * hom p 1) i.castSucc| ≤ coord (M * hom p 1) 3 := by
  have v : ∀ r : Fin 4, coord (M * hom p 1) r = entry M 0 r * p.x + entry M 1 r * p.y + entry M 2 r * p.z + entry M 3 r := fun r => by
    rw [(C41_mat4 M (hom p 1) r).1, Fin.sum_univ_four, show coord (hom p 1) 3 = 1 from rfl, mul_one]
    rfl
  have w : ∀ (s : Bool) (i : Fin 3), V3.dot ⟨(clipPlane M s i).x, (clipPlane M s i).y, (clipPlane M s i).z⟩ p + (clipPlane M s i).w =
      coord (M * hom p 1) 3 + (if s then 1 else -1) * coord (M * hom p 1) i.castSucc := fun s i => by
    change coord (clipPlane M s i) 0 * p.x + coord (clipPlane M s i) 1 * p.y + coord (clipPlane M s i) 2 * p.z + coord (clipPlane M s i) 3 = _
    rw [v, v, coord_plane, coord_plane, coord_plane, coord_plane]
    cases s
    · simp only [Bool.false_eq_true, if_false]; ring
    · simp only [if_true]; ring
  rw [mem_planes]
  simp only [w]
  constructor
  · intro h i
    have a := h true i
    have b := h false i
    simp only [if_true, Bool.false_eq_true, if_false] at a b
    rw [abs_le]
    constructor <;> linarith
  · intro h s i
    have a := abs_le.1 (h i)
    cases s
    · simp only [Bool.false_eq_true, if_false]; linarith [a.1, a.2]
    · simp only [if_true]; linarith [a.1, a.2]

/-- the signed sum of which a plane coordinate is the rounding -/
private noncomputable def exactPlane (M : M4 F32) (s : Bool) (i : Fin 3) (c : Fin 4) : ℝ :=
  if s then ((entry M c 3).val : ℝ) + (entry M c i.castSucc).val else ((entry M c 3).val : ℝ) - (entry M c i.castSucc).val

private theorem near_coord (M : M4 F32) (h : ∀ c r, (entry M c r).IsFin = true ∧ |(entry M c r).val| ≤ 2 ^ 58) (s : Bool) (i : Fin 3) (c : Fin 4) :
    (coord (clipPlane M s i) c).IsFin = true ∧ |(coord (clipPlane M s i) c).val| ≤ 2 ^ 60 ∧
    |((coord (clipPlane M s i) c).val : ℝ) - exactPlane M s i c| ≤ 1 / 2 ^ 24 * |exactPlane M s i c| := by
  have a := h c 3
  have b := h c i.castSucc
  rw [coord_plane]
  unfold exactPlane
  cases s
  · simp only [Bool.false_eq_true, if_false]
    have k : |(entry M c 3).val - (entry M c i.castSucc).val| ≤ 2 ^ 59 := by
      have := abs_sub (entry M c 3).val (entry M c i.castSucc).val
      norm_num at *; linarith [a.2, b.2]
    have f : (entry M c 3 - entry M c i.castSucc).IsFin = true := by
      rw [sub_fin a.1 b.1]; exact isFin_round (k.trans (by norm_num))
    have e := sub_error_rel f
    refine ⟨f, ?_, ?_⟩
    · have := abs_sub_abs_le_abs_sub (entry M c 3 - entry M c i.castSucc).val ((entry M c 3).val - (entry M c i.castSucc).val)
      generalize |(entry M c 3 - entry M c i.castSucc).val| = z at *
      norm_num at *; linarith
    · have := (Rat.cast_le (K := ℝ)).2 e
      push_cast at this
      linarith
  · simp only [if_true]
    have k : |(entry M c 3).val + (entry M c i.castSucc).val| ≤ 2 ^ 59 := by
      have := abs_add_le (entry M c 3).val (entry M c i.castSucc).val
      norm_num at *; linarith [a.2, b.2]
    have f : (entry M c 3 + entry M c i.castSucc).IsFin = true := by
      rw [add_fin a.1 b.1]; exact isFin_round (k.trans (by norm_num))
    have e := add_error_rel f
    refine ⟨f, ?_, ?_⟩
    · have := abs_sub_abs_le_abs_sub (entry M c 3 + entry M c i.castSucc).val ((entry M c 3).val + (entry M c i.castSucc).val)
      generalize |(entry M c 3 + entry M c i.castSucc).val| = z at *
      norm_num at *; linarith
    · have := (Rat.cast_le (K := ℝ)).2 e
      push_cast at this
      linarith

private def normalOf (M : M4 F32) (s : Bool) (i : Fin 3) : V3 F32 := ⟨(clipPlane M s i).x, (clipPlane M s i).y, (clipPlane M s i).z⟩

private theorem coord_normal (M : M4 F32) (s : Bool) (i c : Fin 3) : coord (normalOf M s i) c = coord (clipPlane M s i) c.castSucc := by
  fin_cases c <;> rfl

private theorem ordinary_plane {M : M4 F32} {lo hi : V3 F32} (g : OrdinaryView M lo hi) (s : Bool) (i : Fin 3) :
    OrdinaryCull (coord lo) (coord hi) (coord (normalOf M s i)) (clipPlane M s i).w where
  fin c := ⟨(g.box c).1, (g.box c).2.1, by rw [coord_normal]; exact (near_coord M g.mat s i _).1⟩
  ordered := g.ordered
  lo_le c := (g.box c).2.2.1.trans (by norm_num)
  hi_le c := (g.box c).2.2.2.trans (by norm_num)
  nor_le c := by rw [coord_normal]; exact (near_coord M g.mat s i _).2.1
  d_fin := (near_coord M g.mat s i 3).1
  d_le := (near_coord M g.mat s i 3).2.1.trans (by norm_num)

/-- C150, IEEE arithmetic: a box that is culled contains no point that passes, and if the nearest corners pass, every point passes; a box
inside a culled box is culled. -/
theorem C150_box (M : M4 F32) (lo hi : V3 F32) (g : OrdinaryView M lo hi) :
    (∀ x : V3 F32, InsideBox (coord lo) (coord hi) (coord x) →
      (culled3 lo hi (clipPlanes M) → ∃ p ∈ clipPlanes M, side3 p.1 p.2 x < lit 0) ∧
      ((∀ p ∈ clipPlanes M, lit 0 ≤ side3 p.1 p.2 (farCorner3 hi lo p.1)) → ∀ p ∈ clipPlanes M, lit 0 ≤ side3 p.1 p.2 x)) ∧
    (∀ lo' hi' : V3 F32, InsideBox (coord lo) (coord hi) (coord lo') → InsideBox (coord lo) (coord hi) (coord hi') →
      culled3 lo hi (clipPlanes M) → culled3 lo' hi' (clipPlanes M)) := by
  have o : ∀ p ∈ clipPlanes M, OrdinaryCull (coord lo) (coord hi) (coord p.1) p.2 :=
    (mem_planes M fun p => OrdinaryCull (coord lo) (coord hi) (coord p.1) p.2).2 fun s i => ordinary_plane g s i
  exact ⟨fun x hx => C149_vec3_cull lo hi x _ o hx, fun lo' hi' h1 h2 h => C149_vec3_nested lo hi lo' hi' _ o h1 h2 h⟩

private theorem exactPlane_abs (M : M4 F32) (s : Bool) (i : Fin 3) (c : Fin 4) :
    |exactPlane M s i c| ≤ |((entry M c i.castSucc).val : ℝ)| + |((entry M c 3).val : ℝ)| := by
  unfold exactPlane
  cases s
  · simp only [Bool.false_eq_true, if_false]
    have := abs_sub ((entry M c 3).val : ℝ) (entry M c i.castSucc).val
    linarith
  · simp only [if_true]
    have := abs_add_le ((entry M c 3).val : ℝ) (entry M c i.castSucc).val
    linarith

private theorem plane_clip (M : M4 F32) (s : Bool) (i : Fin 3) (x : Fin 3 → ℝ) :
    ∑ c : Fin 3, exactPlane M s i c.castSucc * x c + exactPlane M s i 3 = clipCoord M x 3 + (if s then 1 else -1) * clipCoord M x i.castSucc := by
  unfold exactPlane clipCoord
  cases s
  · simp only [Bool.false_eq_true, if_false, Fin.sum_univ_three]; ring
  · simp only [if_true, Fin.sum_univ_three]; ring

private theorem scale_le {M : M4 F32} {lo hi : V3 F32} (g : OrdinaryView M lo hi) (s : Bool) (i : Fin 3) :
    planeScale (coord lo) (coord hi) (coord (normalOf M s i)) (clipPlane M s i).w ≤ (1 + 1 / 2 ^ 24) * clipScale M lo hi i := by
  have t : ∀ c : Fin 4, |((coord (clipPlane M s i) c).val : ℝ)| ≤ (1 + 1 / 2 ^ 24) * (|((entry M c i.castSucc).val : ℝ)| + |((entry M c 3).val : ℝ)|) := fun c => by
    have a := (near_coord M g.mat s i c).2.2
    have b := exactPlane_abs M s i c
    have := abs_sub_abs_le_abs_sub ((coord (clipPlane M s i) c).val : ℝ) (exactPlane M s i c)
    linarith
  unfold planeScale clipScale
  rw [mul_add, Finset.mul_sum]
  refine add_le_add (Finset.sum_le_sum fun c _ => ?_) (t 3)
  rw [coord_normal, ← mul_assoc]
  exact mul_le_mul_of_nonneg_right (t _) (le_max_of_le_left (abs_nonneg _))

private theorem side_clip {M : M4 F32} {lo hi : V3 F32} (g : OrdinaryView M lo hi) (s : Bool) (i : Fin 3) {x : Fin 3 → ℝ} (hx : InExactBox lo hi x) :
    |exactSide (coord (normalOf M s i)) (clipPlane M s i).w x - (clipCoord M x 3 + (if s then 1 else -1) * clipCoord M x i.castSucc)| ≤
      1 / 2 ^ 24 * clipScale M lo hi i := by
  have t : ∀ c : Fin 4, |((coord (clipPlane M s i) c).val : ℝ) - exactPlane M s i c| ≤
      1 / 2 ^ 24 * (|((entry M c i.castSucc).val : ℝ)| + |((entry M c 3).val : ℝ)|) := fun c => by
    have a := (near_coord M g.mat s i c).2.2
    have b := exactPlane_abs M s i c
    linarith
  rw [← plane_clip]
  unfold exactSide clipScale
  rw [add_sub_add_comm, ← Finset.sum_sub_distrib, mul_add, Finset.mul_sum]
  refine (abs_add_le _ _).trans (add_le_add ((Finset.abs_sum_le_sum_abs _ _).trans (Finset.sum_le_sum fun c _ => ?_)) (t 3))
  rw [coord_normal, ← sub_mul, abs_mul, ← mul_assoc]
  exact mul_le_mul (t _) (abs_le_max_abs_abs (hx c).1 (hx c).2) (abs_nonneg _) (by positivity)

/-- C150, IEEE arithmetic: culling is right up to rounding. A box that is culled contains no exact point that is seen by more than the
error; a box all of whose exact points are beyond one of the sides by more than the error is culled. -/
theorem C150_decision (M : M4 F32) (lo hi : V3 F32) (g : OrdinaryView M lo hi) :
    let E : Fin 3 → ℝ := fun i => 6.2 / 2 ^ 24 * clipScale M lo hi i + 1 / 2 ^ 146
    (culled3 lo hi (clipPlanes M) → ∀ x, InExactBox lo hi x → ¬ SeenBy M E x) ∧
    (∀ i : Fin 3, (∀ x, InExactBox lo hi x → clipCoord M x 3 + E i < clipCoord M x i.castSucc) ∨
      (∀ x, InExactBox lo hi x → clipCoord M x i.castSucc < -(clipCoord M x 3 + E i)) → culled3 lo hi (clipPlanes M)) := by
  intro E
  have S0 : ∀ i, 0 ≤ clipScale M lo hi i := fun i => by
    unfold clipScale
    exact add_nonneg (Finset.sum_nonneg fun c _ => mul_nonneg (by positivity) (le_max_of_le_left (abs_nonneg _))) (by positivity)
  have big : ∀ (s : Bool) (i : Fin 3), 5.1 / 2 ^ 24 * planeScale (coord lo) (coord hi) (coord (normalOf M s i)) (clipPlane M s i).w + 1 / 2 ^ 146 +
      1 / 2 ^ 24 * clipScale M lo hi i ≤ E i := fun s i => by
    have a := scale_le g s i
    have b := S0 i
    simp only [E]
    generalize planeScale (coord lo) (coord hi) (coord (normalOf M s i)) (clipPlane M s i).w = P at *
    generalize clipScale M lo hi i = S at *
    norm_num at *
    linarith
  have mem : ∀ s i, (normalOf M s i, (clipPlane M s i).w) ∈ clipPlanes M := fun s i => (mem_planes M fun p => p ∈ clipPlanes M).1 (fun _ h => h) s i
  constructor
  · rintro ⟨p, m, h⟩ x hx hs
    revert h
    refine (mem_planes M fun p => ¬ side3 p.1 p.2 (farCorner3 lo hi p.1) < lit 0).2 (fun s i h => ?_) p m
    have k := (C149_vec3_decision lo hi (normalOf M s i) (clipPlane M s i).w (ordinary_plane g s i)).1 h x hx
    have b := abs_le.1 (side_clip g s i hx)
    have e := big s i
    have q := hs i
    cases s
    · simp only [Bool.false_eq_true, if_false] at b
      have := le_abs_self (clipCoord M x i.castSucc)
      linarith [b.1, b.2]
    · simp only [if_true] at b
      have := neg_abs_le (clipCoord M x i.castSucc)
      linarith [b.1, b.2]
  · intro i h
    rcases h with h | h
    · refine ⟨_, mem false i, (C149_vec3_decision lo hi (normalOf M false i) (clipPlane M false i).w (ordinary_plane g false i)).2 fun x hx => ?_⟩
      have b := abs_le.1 (side_clip g false i hx)
      have e := big false i
      have := h x hx
      simp only [Bool.false_eq_true, if_false] at b
      linarith [b.1, b.2]
    · refine ⟨_, mem true i, (C149_vec3_decision lo hi (normalOf M true i) (clipPlane M true i).w (ordinary_plane g true i)).2 fun x hx => ?_⟩
      have b := abs_le.1 (side_clip g true i hx)
      have e := big true i
      have := h x hx
      simp only [if_true] at b
      linarith [b.1, b.2]

/-- A perspective matrix and a box behind the far plane meet the hypotheses, and the box is culled; a box in view is not. -/
example : let M : M4 F32 := ⟨⟨lit 1, lit 0, lit 0, lit 0⟩, ⟨lit 0, lit 2, lit 0, lit 0⟩, ⟨lit 0, lit 0, lit (-1.5), lit (-1)⟩, ⟨lit 0, lit 0, lit (-2.5), lit 0⟩⟩
    let lo : V3 F32 := ⟨lit (-1), lit (-1), lit (-9)⟩
    let hi : V3 F32 := ⟨lit 1, lit 1, lit (-8)⟩
    let lo' : V3 F32 := ⟨lit (-1), lit (-1), lit (-4)⟩
    let hi' : V3 F32 := ⟨lit 1, lit 1, lit (-3)⟩
    OrdinaryView M lo hi ∧ culled3 lo hi (clipPlanes M) ∧ OrdinaryView M lo' hi' ∧ ¬ culled3 lo' hi' (clipPlanes M) := by
  unfold culled3
  refine ⟨⟨?_, ?_, ?_⟩, ?_, ⟨?_, ?_, ?_⟩, ?_⟩ <;> decide +kernel

end Zcm
