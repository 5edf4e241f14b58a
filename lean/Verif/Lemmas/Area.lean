import Verif.Spec.Area
import Verif.Lemmas.TriMesh
import Verif.Lemmas.Line

/-!
# The area of a polygon and of a mesh
-/

namespace Zcm

open I32

/-- cross product of the ends of an edge -/
def crossZ (e : V2 I32 × V2 I32) : ℤ := e.1.x.toInt * e.2.y.toInt - e.1.y.toInt * e.2.x.toInt

theorem exactArea_eq (es : List (V2 I32 × V2 I32)) : exactArea es = (es.map crossZ).sum := rfl

theorem areaLoop_ok {r : ℕ} : ∀ (es : List (V2 I32 × V2 I32)) (s : I32),
    (∀ e ∈ es, |e.1.x.toInt| ≤ r ∧ |e.1.y.toInt| ≤ r ∧ |e.2.x.toInt| ≤ r ∧ |e.2.y.toInt| ≤ r) →
    |s.toInt| + es.length * (2 * r * r) < 2 ^ 31 → ∃ t, areaLoop s es = .ok t ∧ t.toInt = s.toInt + (es.map crossZ).sum
  | [], s, _, _ => ⟨s, rfl, by simp⟩
  | e :: es, s, h, hs => by
    obtain ⟨h1, h2, h3, h4⟩ := h e (by simp)
    have r0 : (0 : ℤ) ≤ r := Int.natCast_nonneg r
    have m : ∀ {x y : ℤ}, |x| ≤ r → |y| ≤ r → |x * y| ≤ r * r := fun hx hy => by
      rw [abs_mul]; exact mul_le_mul hx hy (abs_nonneg _) r0
    have b1 := m h1 h4
    have b2 := m h2 h3
    rw [List.length_cons] at hs
    have hl : (0 : ℤ) ≤ es.length * (2 * r * r) := by positivity
    have hs' : |s.toInt| + es.length * (2 * r * r) + 2 * (r * r) < 2 ^ 31 := by
      push_cast at hs
      linarith
    have sn := abs_nonneg s.toInt
    have rr : (0 : ℤ) ≤ r * r := mul_nonneg r0 r0
    have b1' := abs_le.1 b1
    have b2' := abs_le.1 b2
    have sb := abs_le.1 (le_refl |s.toInt|)
    obtain ⟨k, hkd⟩ : ∃ k, (es.length : ℤ) * (2 * r * r) = k := ⟨_, rfl⟩
    rw [hkd] at hs' hl
    generalize (r : ℤ) * r = q at hs' b1' b2' rr b1 b2
    obtain ⟨m1, c1, c2⟩ := I32.mul_ok (a := e.1.x) (b := e.2.y) (by constructor <;> omega)
    obtain ⟨m2, d1, d2⟩ := I32.mul_ok (a := e.1.y) (b := e.2.x) (by constructor <;> omega)
    obtain ⟨c, e1, e2⟩ := I32.sub_ok (a := m1) (b := m2) (by constructor <;> omega)
    obtain ⟨s', f1, f2⟩ := I32.add_ok (a := s) (b := c) (by constructor <;> omega)
    have hc : c.toInt = crossZ e := by rw [e2, c2, d2]; rfl
    have hk : |s'.toInt| + es.length * (2 * r * r) < 2 ^ 31 := by
      rw [hkd]
      have : |s'.toInt| ≤ |s.toInt| + 2 * q := by rw [abs_le]; constructor <;> omega
      omega
    obtain ⟨t, t1, t2⟩ := areaLoop_ok es s' (fun x hx => h x (List.mem_cons_of_mem _ hx)) hk
    refine ⟨t, ?_, ?_⟩
    · have M : IV2.mul e.1 ⟨e.2.y, e.2.x⟩ = .ok ⟨m1, m2⟩ := by
        unfold IV2.mul V2.macroVV
        exact ok_step c1 (ok_step d1 rfl)
      rw [areaLoop]
      exact ok_step M (ok_step e1 (ok_step f1 t1))
    · rw [t2, f2, hc, List.map_cons, List.sum_cons]
      ring

theorem pathArea_ok {r : ℕ} {es : List (V2 I32 × V2 I32)} (h : FitsArea r es) :
    ∃ t, pathArea es = .ok t ∧ t.toInt = exactArea es ∧ |exactArea es| < 2 ^ 31 := by
  have z : (I32.lit 0).toInt = 0 := by decide
  obtain ⟨t, t1, t2⟩ := areaLoop_ok es (I32.lit 0) h.1 (by rw [z, abs_zero, zero_add]; exact_mod_cast h.2)
  have t3 : t.toInt = exactArea es := by rw [t2, z, zero_add, exactArea_eq]
  refine ⟨t, t1, t3, ?_⟩
  have b : ∀ (es : List (V2 I32 × V2 I32)),
      (∀ e ∈ es, |e.1.x.toInt| ≤ r ∧ |e.1.y.toInt| ≤ r ∧ |e.2.x.toInt| ≤ r ∧ |e.2.y.toInt| ≤ r) → |(es.map crossZ).sum| ≤ es.length * (2 * r * r) := by
    intro es
    induction es with
    | nil => intro _; simp
    | cons e es ih =>
      intro h
      have ih := ih fun x hx => h x (List.mem_cons_of_mem _ hx)
      obtain ⟨h1, h2, h3, h4⟩ := h e (by simp)
      have r0 : (0 : ℤ) ≤ r := Int.natCast_nonneg r
      have m : ∀ {x y : ℤ}, |x| ≤ r → |y| ≤ r → |x * y| ≤ r * r := fun hx hy => by
        rw [abs_mul]; exact mul_le_mul hx hy (abs_nonneg _) r0
      have b1 := m h1 h4
      have b2 := m h2 h3
      have c : |crossZ e| ≤ 2 * r * r := by
        unfold crossZ
        have := abs_sub (e.1.x.toInt * e.2.y.toInt) (e.1.y.toInt * e.2.x.toInt)
        linarith
      rw [List.map_cons, List.sum_cons, List.length_cons]
      have := abs_add_le (crossZ e) (es.map crossZ).sum
      push_cast
      linarith
  have := b es h.1
  have h2 : (es.length : ℤ) * (2 * r * r) < 2 ^ 31 := by exact_mod_cast h.2
  rw [exactArea_eq]
  omega

theorem areaZ_cross (a b c : V2 I32) : areaZ a b c = crossZ (a, b) + (crossZ (b, c) + crossZ (c, a)) := by
  unfold areaZ crossZ; ring

theorem crossZ_swap (a b : V2 I32) : crossZ (b, a) = -crossZ (a, b) := by unfold crossZ; ring

theorem mesh_sum : ∀ ts : List (V2 I32 × V2 I32 × V2 I32),
    (ts.map fun t => areaZ t.1 t.2.1 t.2.2).sum = ((meshEdges ts).map crossZ).sum
  | [] => rfl
  | t :: ts => by
    have e : meshEdges (t :: ts) = (t.1, t.2.1) :: (t.2.1, t.2.2) :: (t.2.2, t.1) :: meshEdges ts := rfl
    rw [e]
    simp only [List.map_cons, List.sum_cons]
    rw [mesh_sum ts, areaZ_cross]
    ring

theorem meshAreaLoop_ok : ∀ (ts : List (V2 I32 × V2 I32 × V2 I32)) (s : I32), GoodMesh ts → 0 ≤ s.toInt →
    s.toInt + (ts.map fun t => areaZ t.1 t.2.1 t.2.2).sum < 2 ^ 31 →
    ∃ t, meshAreaLoop s ts = .ok t ∧ t.toInt = s.toInt + (ts.map fun t => areaZ t.1 t.2.1 t.2.2).sum
  | [], s, _, _, _ => ⟨s, rfl, by simp⟩
  | t :: ts, s, h, h0, hs => by
    obtain ⟨ha, hb, hc, hm⟩ := h t (by simp)
    have h' : GoodMesh ts := fun x hx => h x (List.mem_cons_of_mem _ hx)
    have pos : 0 ≤ (ts.map fun t => areaZ t.1 t.2.1 t.2.2).sum := by
      apply List.sum_nonneg
      intro x hx
      obtain ⟨y, hy, rfl⟩ := List.mem_map.1 hx
      exact (h' y hy).2.2.2.le
    obtain ⟨e, e1, e2, -⟩ := ownsEdge_ok ha hb hc
    rw [List.map_cons, List.sum_cons] at hs ⊢
    obtain ⟨s', f1, f2⟩ := I32.add_ok (a := s) (b := e) (by rw [e2]; constructor <;> omega)
    rw [e2] at f2
    obtain ⟨u, u1, u2⟩ := meshAreaLoop_ok ts s' h' (by omega) (by omega)
    refine ⟨u, ?_, by omega⟩
    rw [meshAreaLoop]
    exact ok_step e1 (ok_step f1 u1)

/-- the sum over a closed path of a difference of the ends vanishes -/
theorem closed_sum (g : V2 I32 → ℤ) (v : V2 I32) (l : List (V2 I32)) : ((polygonEdges v l).map fun e => g e.2 - g e.1).sum = 0 := by
  have s : ∀ (l m : List (V2 I32)), l.length = m.length → ((l.zip m).map fun e => g e.2 - g e.1).sum = (m.map g).sum - (l.map g).sum := by
    intro l
    induction l with
    | nil => intro m h; cases m with
      | nil => rfl
      | cons => simp at h
    | cons a l ih =>
      intro m h
      cases m with
      | nil => simp at h
      | cons b m =>
        simp only [List.zip_cons_cons, List.map_cons, List.sum_cons]
        rw [ih m (by simpa using h)]
        ring
  unfold polygonEdges
  rw [s _ _ (by simp)]
  simp only [List.map_append, List.map_cons, List.map_nil, List.sum_append, List.sum_cons, List.sum_nil]
  ring

/-- moving all corners of a closed path does not change its area -/
theorem moved_area (x y : ℤ) {v v' : V2 I32} {l l' : List (V2 I32)} (hv : v'.x.toInt = v.x.toInt + x ∧ v'.y.toInt = v.y.toInt + y)
    (hl : List.Forall₂ (fun a a' : V2 I32 => a'.x.toInt = a.x.toInt + x ∧ a'.y.toInt = a.y.toInt + y) l l') :
    exactArea (polygonEdges v' l') = exactArea (polygonEdges v l) := by
  have key : ∀ (l l' m m' : List (V2 I32)),
      List.Forall₂ (fun a a' : V2 I32 => a'.x.toInt = a.x.toInt + x ∧ a'.y.toInt = a.y.toInt + y) l l' →
      List.Forall₂ (fun a a' : V2 I32 => a'.x.toInt = a.x.toInt + x ∧ a'.y.toInt = a.y.toInt + y) m m' →
      ((l'.zip m').map crossZ).sum = ((l.zip m).map crossZ).sum +
        ((l.zip m).map fun e => (x * e.2.y.toInt - y * e.2.x.toInt) - (x * e.1.y.toInt - y * e.1.x.toInt)).sum := by
    intro l l' m m' h
    induction h generalizing m m' with
    | nil => intro _; simp
    | @cons a a' l l' ha hl ih =>
      intro hm
      cases hm with
      | nil => simp
      | @cons b b' m m' hb hm =>
        simp only [List.zip_cons_cons, List.map_cons, List.sum_cons]
        rw [ih m m' hm]
        have : crossZ (a', b') = crossZ (a, b) + ((x * b.y.toInt - y * b.x.toInt) - (x * a.y.toInt - y * a.x.toInt)) := by
          unfold crossZ
          dsimp only
          rw [ha.1, ha.2, hb.1, hb.2]
          ring
        rw [this]
        ring
  rw [exactArea_eq, exactArea_eq]
  have c := closed_sum (fun a => x * a.y.toInt - y * a.x.toInt) v l
  unfold polygonEdges at c ⊢
  rw [key _ _ _ _ (List.Forall₂.cons hv hl) (List.rel_append hl (List.Forall₂.cons hv List.Forall₂.nil)), c, add_zero]

theorem rotated_edges (v a : V2 I32) (l : List (V2 I32)) : (polygonEdges v (a :: l)).Perm (polygonEdges a (l ++ [v])) := by
  have e : polygonEdges a (l ++ [v]) = (a :: l).zip (l ++ [v]) ++ [(v, a)] := by
    unfold polygonEdges
    have : a :: (l ++ [v]) = (a :: l) ++ [v] := rfl
    rw [this, List.zip_append (by simp)]
    rfl
  rw [e]
  exact (List.perm_append_singleton _ _).symm

/-- the area of a polygon whose corners turn left as seen from the first one is positive -/
theorem left_area {v : V2 I32} : ∀ (a : V2 I32) (l : List (V2 I32)), (a :: l).Pairwise (fun a b => 0 < areaZ v a b) →
    0 ≤ crossZ (v, a) + (((a :: l).zip (l ++ [v])).map crossZ).sum ∧
      (l ≠ [] → 0 < crossZ (v, a) + (((a :: l).zip (l ++ [v])).map crossZ).sum)
  | a, [], _ => by
    have := crossZ_swap v a
    simp [this]
  | a, b :: l, h => by
    have h' := List.pairwise_cons.1 h
    have ih := left_area b l h'.2
    have t := h'.1 b (by simp)
    rw [areaZ_cross, crossZ_swap v b] at t
    simp only [List.cons_append, List.zip_cons_cons, List.map_cons, List.sum_cons]
    have := ih.1
    constructor
    · linarith
    · intro _; linarith

end Zcm
