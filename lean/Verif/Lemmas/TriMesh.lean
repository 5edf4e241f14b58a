import Verif.Spec.TriMesh
import Verif.Lemmas.Raster
import Mathlib.Algebra.BigOperators.Group.List.Basic
import Mathlib.Data.List.Count
import Mathlib.Tactic.NormNum

/-!
# Drawing a mesh of triangles
-/

namespace Zcm

open I32

/-- what an edge adds to the winding number, on integers -/
def turnZ (p : V2 I32) (e : V2 I32 × V2 I32) : ℤ :=
  if e.1.y.toInt ≤ p.y.toInt ∧ p.y.toInt < e.2.y.toInt ∧ 0 < areaZ e.1 e.2 p then 1
  else if e.2.y.toInt ≤ p.y.toInt ∧ p.y.toInt < e.1.y.toInt ∧ areaZ e.1 e.2 p < 0 then -1 else 0

theorem turn_ok {a b p : V2 I32} (ha : SmallPixel a) (hb : SmallPixel b) (hp : SmallPixel p) : turn a b p = .ok (turnZ p (a, b)) := by
  obtain ⟨e, h1, h2, -⟩ := ownsEdge_ok ha hb hp
  have z : (I32.lit 0).toInt = 0 := by decide
  have lt1 : ∀ x y : I32, (x < y) ↔ x.toInt < y.toInt := fun _ _ => Iff.rfl
  unfold turn turnZ
  simp only [lt1, z]
  by_cases c1 : p.y.toInt < a.y.toInt
  · rw [if_neg (not_not.2 c1)]
    by_cases c2 : p.y.toInt < b.y.toInt
    · rw [if_neg (not_not.2 c2), if_neg (by omega), if_neg (by omega)]; rfl
    · rw [if_pos c2]
      refine ok_step h1 ?_
      rw [h2]
      by_cases c3 : areaZ a b p < 0
      · rw [if_pos c3, if_neg (by omega), if_pos (by omega)]; rfl
      · rw [if_neg c3, if_neg (by omega), if_neg (by omega)]; rfl
  · rw [if_pos c1]
    by_cases c2 : p.y.toInt < b.y.toInt
    · rw [if_pos c2]
      refine ok_step h1 ?_
      rw [h2]
      by_cases c3 : 0 < areaZ a b p
      · rw [if_pos c3, if_pos (by omega)]; rfl
      · rw [if_neg c3, if_neg (by omega), if_neg (by omega)]; rfl
    · rw [if_neg c2, if_neg (by omega), if_neg (by omega)]; rfl

theorem turnZ_swap (p a b : V2 I32) : turnZ p (b, a) = -turnZ p (a, b) := by
  unfold turnZ
  simp only [areaZ_swap a b p]
  split_ifs <;> omega

theorem winding_ok {p : V2 I32} (hp : SmallPixel p) : ∀ l : List (V2 I32 × V2 I32), (∀ e ∈ l, SmallPixel e.1 ∧ SmallPixel e.2) →
    winding l p = .ok (l.map (turnZ p)).sum
  | [], _ => rfl
  | e :: l, h => by
    have he := h e (by simp)
    have ih := winding_ok hp l fun x hx => h x (List.mem_cons_of_mem _ hx)
    rw [winding]
    refine ok_step (turn_ok he.1 he.2 hp) (ok_step ih ?_)
    show Res.ok _ = _
    rw [List.map_cons, List.sum_cons, add_comm]

/-! ## Cancelling edges -/

theorem sum_of_boundary {f : V2 I32 × V2 I32 → ℤ} (hf : ∀ a b, f (b, a) = -f (a, b)) {l m : List (V2 I32 × V2 I32)} (h : SameBoundary l m) :
    (l.map f).sum = (m.map f).sum := by
  have cs : ∀ (k : List (V2 I32 × V2 I32)) (a b : V2 I32), (k.map Prod.swap).count (a, b) = k.count (b, a) := by
    intro k a b
    exact List.count_map_of_injective k Prod.swap Prod.swap_injective (b, a)
  have fs : ∀ k : List (V2 I32 × V2 I32), ((k.map Prod.swap).map f).sum = -(k.map f).sum := by
    intro k
    induction k with
    | nil => rfl
    | cons e k ih =>
      simp only [List.map_cons, List.sum_cons] at ih ⊢
      rw [ih, show f e.swap = -f e from hf e.1 e.2]
      ring
  have perm : (l ++ m.map Prod.swap).Perm ((l ++ m.map Prod.swap).map Prod.swap) := by
    rw [List.perm_iff_count]
    rintro ⟨a, b⟩
    rw [cs, List.count_append, List.count_append, cs, cs]
    have := h a b
    omega
  have s := (perm.map f).sum_eq
  rw [fs, List.map_append, List.sum_append, fs] at s
  omega

/-! ## A triangle is drawn exactly if its boundary turns around the pixel -/

/-- positivity in the lexicographic order is positivity at a point slightly to the right and up -/
theorem ownsZ_iff (a b p : V2 I32) :
    ownsZ a b p ↔ 0 < areaZ a b p * 2 ^ 80 - (b.y.toInt - a.y.toInt) * 2 ^ 40 + (b.x.toInt - a.x.toInt) := by
  have := a.x.toInt_range; have := a.y.toInt_range; have := b.x.toInt_range; have := b.y.toInt_range
  unfold ownsZ
  generalize areaZ a b p = e
  omega

theorem tri_turns {w1 w2 w3 a12 a23 a31 : ℤ} (h1 : w1 ≠ 0) (h2 : w2 ≠ 0) (h3 : w3 ≠ 0) (n31 : a31 ≠ 0) (n12 : a12 ≠ 0) (n23 : a23 ≠ 0)
    (hs : 0 < a12 + a23 + a31) (hi : w3 * a12 + w1 * a23 + w2 * a31 = 0) :
    (if 0 < a12 ∧ 0 < a23 ∧ 0 < a31 then (1 : ℤ) else 0) =
      (if w1 < 0 ∧ 0 < w2 ∧ 0 < a12 then 1 else if w2 < 0 ∧ 0 < w1 ∧ a12 < 0 then -1 else 0) +
      ((if w2 < 0 ∧ 0 < w3 ∧ 0 < a23 then 1 else if w3 < 0 ∧ 0 < w2 ∧ a23 < 0 then -1 else 0) +
      (if w3 < 0 ∧ 0 < w1 ∧ 0 < a31 then 1 else if w1 < 0 ∧ 0 < w3 ∧ a31 < 0 then -1 else 0)) := by
  have pp : ∀ {x y : ℤ}, 0 < x → 0 < y → 0 < x * y := mul_pos
  have nn : ∀ {x y : ℤ}, x < 0 → y < 0 → 0 < x * y := mul_pos_of_neg_of_neg
  have pn : ∀ {x y : ℤ}, 0 < x → y < 0 → x * y < 0 := mul_neg_of_pos_of_neg
  have np : ∀ {x y : ℤ}, x < 0 → 0 < y → x * y < 0 := mul_neg_of_neg_of_pos
  rcases lt_or_gt_of_ne h1 with s1 | s1 <;> rcases lt_or_gt_of_ne h2 with s2 | s2 <;> rcases lt_or_gt_of_ne h3 with s3 | s3 <;>
    rcases lt_or_gt_of_ne n12 with t1 | t1 <;> rcases lt_or_gt_of_ne n23 with t2 | t2 <;> rcases lt_or_gt_of_ne n31 with t3 | t3 <;>
    first
    | omega
    | (exfalso
       have q1 := by first | exact pp s3 t1 | exact nn s3 t1 | exact pn s3 t1 | exact np s3 t1
       have q2 := by first | exact pp s1 t2 | exact nn s1 t2 | exact pn s1 t2 | exact np s1 t2
       have q3 := by first | exact pp s2 t3 | exact nn s2 t3 | exact pn s2 t3 | exact np s2 t3
       omega)

theorem triangle_turns {a b c p : V2 I32} (h : 0 < areaZ a b c) :
    (if ownsZ a b p ∧ ownsZ b c p ∧ ownsZ c a p then (1 : ℤ) else 0) = turnZ p (a, b) + (turnZ p (b, c) + turnZ p (c, a)) := by
  have key : ∀ a b : V2 I32, a ≠ b → (areaZ a b p * 2 ^ 80 - (b.y.toInt - a.y.toInt) * 2 ^ 40 + (b.x.toInt - a.x.toInt) ≠ 0) ∧
      turnZ p (a, b) =
      if (a.y.toInt - p.y.toInt) * 2 ^ 80 - 1 < 0 ∧ 0 < (b.y.toInt - p.y.toInt) * 2 ^ 80 - 1 ∧
        0 < areaZ a b p * 2 ^ 80 - (b.y.toInt - a.y.toInt) * 2 ^ 40 + (b.x.toInt - a.x.toInt) then 1
      else if (b.y.toInt - p.y.toInt) * 2 ^ 80 - 1 < 0 ∧ 0 < (a.y.toInt - p.y.toInt) * 2 ^ 80 - 1 ∧
        areaZ a b p * 2 ^ 80 - (b.y.toInt - a.y.toInt) * 2 ^ 40 + (b.x.toInt - a.x.toInt) < 0 then -1 else 0 := by
    intro a b ne
    have := a.x.toInt_range; have := a.y.toInt_range; have := b.x.toInt_range; have := b.y.toInt_range
    have ne : b.x.toInt - a.x.toInt ≠ 0 ∨ b.y.toInt - a.y.toInt ≠ 0 := by
      by_contra hc
      push Not at hc
      apply ne
      have h1 : a.x = b.x := I32.toInt_inj.1 (by omega)
      have h2 : a.y = b.y := I32.toInt_inj.1 (by omega)
      cases a; cases b; simp_all
    unfold turnZ
    dsimp only
    generalize areaZ a b p = e
    constructor
    · omega
    · refine if_congr ?_ rfl (if_congr ?_ rfl rfl) <;> omega
  have n1 : a ≠ b := by rintro rfl; unfold areaZ at h; ring_nf at h; omega
  have n2 : b ≠ c := by rintro rfl; unfold areaZ at h; ring_nf at h; omega
  have n3 : c ≠ a := by rintro rfl; unfold areaZ at h; ring_nf at h; omega
  obtain ⟨z1, k1⟩ := key a b n1
  obtain ⟨z2, k2⟩ := key b c n2
  obtain ⟨z3, k3⟩ := key c a n3
  rw [k1, k2, k3, if_congr (and_congr (ownsZ_iff a b p) (and_congr (ownsZ_iff b c p) (ownsZ_iff c a p))) rfl rfl]
  refine tri_turns ?_ ?_ ?_ z3 z1 z2 ?_ ?_
  · omega
  · omega
  · omega
  · have : areaZ a b p + areaZ b c p + areaZ c a p = areaZ a b c := by unfold areaZ; ring
    omega
  · unfold areaZ; ring

theorem meshDraws_ok {p : V2 I32} (hp : SmallPixel p) : ∀ ts, GoodMesh ts →
    ∃ n : ℕ, meshDraws ts p = .ok n ∧ (n : ℤ) = ((meshEdges ts).map (turnZ p)).sum
  | [], _ => ⟨0, rfl, rfl⟩
  | t :: ts, h => by
    obtain ⟨ha, hb, hc, hm⟩ := h t (by simp)
    obtain ⟨n, n1, n2⟩ := meshDraws_ok hp ts fun x hx => h x (List.mem_cons_of_mem _ hx)
    obtain ⟨-, -, -, o1⟩ := ownsEdge_ok ha hb hp
    obtain ⟨-, -, -, o2⟩ := ownsEdge_ok hb hc hp
    obtain ⟨-, -, -, o3⟩ := ownsEdge_ok hc ha hp
    have d : drawsTriangle t.1 t.2.1 t.2.2 p = .ok (decide (ownsZ t.1 t.2.1 p) && decide (ownsZ t.2.1 t.2.2 p) && decide (ownsZ t.2.2 t.1 p)) := by
      unfold drawsTriangle
      exact ok_step o1 (ok_step o2 (ok_step o3 rfl))
    refine ⟨n + if ownsZ t.1 t.2.1 p ∧ ownsZ t.2.1 t.2.2 p ∧ ownsZ t.2.2 t.1 p then 1 else 0, ?_, ?_⟩
    · rw [meshDraws]
      refine ok_step d (ok_step n1 ?_)
      show Res.ok _ = _
      congr 2
      simp only [Bool.and_eq_true, decide_eq_true_iff, and_assoc]
    · have e : meshEdges (t :: ts) = (t.1, t.2.1) :: (t.2.1, t.2.2) :: (t.2.2, t.1) :: meshEdges ts := rfl
      rw [e]
      simp only [List.map_cons, List.sum_cons]
      rw [← n2]
      have := triangle_turns (p := p) hm
      push_cast
      rw [this]
      ring

/-- a way to check on examples that the boundary is the same -/
theorem sameBoundary_of_perm {l m : List (V2 I32 × V2 I32)} (h : (l ++ m.map Prod.swap).Perm ((l ++ m.map Prod.swap).map Prod.swap)) :
    SameBoundary l m := by
  intro a b
  have cs : ∀ (k : List (V2 I32 × V2 I32)) (a b : V2 I32), (k.map Prod.swap).count (a, b) = k.count (b, a) := fun k a b =>
    List.count_map_of_injective k Prod.swap Prod.swap_injective (b, a)
  have := List.perm_iff_count.1 h (a, b)
  rw [cs, List.count_append, List.count_append, cs, cs] at this
  omega

theorem fan_turns {v p : V2 I32} : ∀ (a : V2 I32) (l : List (V2 I32)), (a :: l).Pairwise (fun a b => 0 < areaZ v a b) →
    (fanZ v (a :: l) p : ℤ) = turnZ p (v, a) + (((a :: l).zip (l ++ [v])).map (turnZ p)).sum
  | a, [], _ => by
    have := turnZ_swap p v a
    simp [fanZ, this]
  | a, b :: l, h => by
    have h' := List.pairwise_cons.1 h
    have ih := fan_turns (p := p) b l h'.2
    have t := triangle_turns (p := p) (h'.1 b (by simp))
    have s := turnZ_swap p v b
    rw [fanZ]
    push_cast
    rw [ih, t, s]
    simp only [List.cons_append, List.zip_cons_cons, List.map_cons, List.sum_cons]
    ring

theorem polygon_turns {v p : V2 I32} (l : List (V2 I32)) (h : l.Pairwise (fun a b => 0 < areaZ v a b)) :
    (fanZ v l p : ℤ) = ((polygonEdges v l).map (turnZ p)).sum := by
  cases l with
  | nil =>
    have := turnZ_swap p v v
    simp only [fanZ, polygonEdges, List.nil_append, List.zip_cons_cons, List.zip_nil_right, List.map_cons, List.map_nil, List.sum_cons, List.sum_nil]
    push_cast
    omega
  | cons a l =>
    rw [fan_turns a l h]
    simp only [polygonEdges, List.cons_append, List.zip_cons_cons, List.map_cons, List.sum_cons]

end Zcm
