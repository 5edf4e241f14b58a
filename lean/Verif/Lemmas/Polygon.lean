import Verif.Spec.Polygon
import Mathlib.Data.List.Rotate

/-!
# Cutting polygons: what does not depend on numbers
-/

namespace Zcm

variable {P : Type} (height : P → F32) (cut : P → P → P)

theorem edges_map_fst (ps : List P) : (edges ps).map Prod.fst = ps := by
  unfold edges
  rw [List.map_fst_zip]
  rw [List.length_rotate]

theorem edges_map_snd (ps : List P) : (edges ps).map Prod.snd = ps.rotate 1 := by
  unfold edges
  rw [List.map_snd_zip]
  rw [List.length_rotate]

theorem edges_length (ps : List P) : (edges ps).length = ps.length := by
  unfold edges
  rw [List.length_zip, List.length_rotate, min_self]

theorem edges_get (ps : List P) (i : ℕ) (h : i < ps.length) :
    (edges ps)[i]? = some (ps[i], ps[(i + 1) % ps.length]'(Nat.mod_lt _ (by omega))) := by
  rw [List.getElem?_eq_getElem (by rw [edges_length]; exact h)]
  unfold edges
  rw [List.getElem_zip, List.getElem_rotate]

theorem mem_edges {ps : List P} {e : P × P} (h : e ∈ edges ps) : e.1 ∈ ps ∧ e.2 ∈ ps := by
  constructor
  · have := List.mem_map_of_mem (f := Prod.fst) h
    rwa [edges_map_fst] at this
  · have := List.mem_map_of_mem (f := Prod.snd) h
    rwa [edges_map_snd, List.mem_rotate] at this

theorem clip_all (ps : List P) (h : ∀ p ∈ ps, keeps height p = true) : clipPolygon height cut ps = ps := by
  have e : clipPolygon height cut ps = (edges ps).flatMap fun e => [e.1] := by
    refine List.flatMap_congr fun e m => ?_
    obtain ⟨h1, h2⟩ := mem_edges m
    unfold clipEdge
    rw [if_pos (h _ h1), if_pos (h _ h2)]
  rw [e, ← List.map_eq_flatMap, edges_map_fst]

theorem clip_none (ps : List P) (h : ∀ p ∈ ps, keeps height p = false) : clipPolygon height cut ps = [] := by
  unfold clipPolygon
  rw [List.flatMap_eq_nil_iff]
  intro e m
  obtain ⟨h1, h2⟩ := mem_edges m
  unfold clipEdge
  rw [if_neg (by rw [h _ h1]; simp), if_neg (by rw [h _ h2]; simp)]

theorem clip_sublist (ps : List P) : (ps.filter (keeps height)).Sublist (clipPolygon height cut ps) := by
  conv_lhs => rw [← edges_map_fst ps]
  unfold clipPolygon
  generalize edges ps = es
  induction es with
  | nil => simp
  | cons e es ih =>
    rw [List.map_cons, List.flatMap_cons, List.filter_cons]
    unfold clipEdge
    by_cases h1 : keeps height e.1 = true
    · rw [if_pos h1, if_pos h1]
      by_cases h2 : keeps height e.2 = true
      · rw [if_pos h2]; exact ih.cons_cons _
      · rw [if_neg h2]; exact (List.Sublist.cons _ ih).cons_cons _
    · rw [if_neg h1, if_neg h1]
      by_cases h2 : keeps height e.2 = true
      · rw [if_pos h2]; exact List.Sublist.cons _ ih
      · rw [if_neg h2]; exact ih

theorem clip_mem (ps : List P) (x : P) (hx : x ∈ clipPolygon height cut ps) :
    (x ∈ ps ∧ keeps height x = true) ∨
    ∃ a b, ((a, b) ∈ edges ps ∨ (b, a) ∈ edges ps) ∧ keeps height a = true ∧ keeps height b = false ∧ x = cut a b := by
  unfold clipPolygon at hx
  obtain ⟨e, m, h⟩ := List.mem_flatMap.1 hx
  obtain ⟨a, b⟩ := e
  unfold clipEdge at h
  by_cases h1 : keeps height a = true
  · rw [if_pos h1] at h
    by_cases h2 : keeps height b = true
    · rw [if_pos h2] at h
      simp only [List.mem_singleton] at h
      left; rw [h]; exact ⟨(mem_edges m).1, h1⟩
    · rw [if_neg h2] at h
      simp only [List.mem_cons, List.not_mem_nil, or_false] at h
      rcases h with h | h
      · left; rw [h]; exact ⟨(mem_edges m).1, h1⟩
      · exact .inr ⟨a, b, .inl m, h1, by simpa using h2, h⟩
  · rw [if_neg h1] at h
    by_cases h2 : keeps height b = true
    · rw [if_pos h2] at h
      simp only [List.mem_singleton] at h
      exact .inr ⟨b, a, .inr m, h2, by simpa using h1, h⟩
    · rw [if_neg h2] at h
      exact absurd h List.not_mem_nil

theorem count_balance (es : List (P × P)) :
    (es.countP fun e => keeps height e.1 && !keeps height e.2) + (es.map Prod.snd).countP (keeps height) =
    (es.countP fun e => !keeps height e.1 && keeps height e.2) + (es.map Prod.fst).countP (keeps height) := by
  induction es with
  | nil => rfl
  | cons e es ih =>
    simp only [List.map_cons, List.countP_cons]
    rcases keeps height e.1 <;> rcases keeps height e.2 <;>
      simp only [Bool.not_true, Bool.not_false, Bool.and_true, Bool.and_false, Bool.false_and, Bool.true_and, if_true, if_false,
        Bool.false_eq_true] <;> omega

theorem leaving_eq_entering (ps : List P) : leaving height ps = entering height ps := by
  have h := count_balance height (edges ps)
  rw [edges_map_fst, edges_map_snd, (List.rotate_perm ps 1).countP_eq] at h
  unfold leaving entering
  omega

theorem clip_length (ps : List P) : (clipPolygon height cut ps).length = ps.countP (keeps height) + 2 * leaving height ps := by
  have e : (clipPolygon height cut ps).length = ps.countP (keeps height) + leaving height ps + entering height ps := by
    conv_rhs => arg 1; arg 1; rw [← edges_map_fst ps]
    unfold clipPolygon leaving entering
    generalize edges ps = es
    induction es with
    | nil => rfl
    | cons e es ih =>
      rw [List.flatMap_cons, List.length_append, ih, List.map_cons, List.countP_cons, List.countP_cons, List.countP_cons]
      unfold clipEdge
      rcases keeps height e.1 <;> rcases keeps height e.2 <;> simp <;> omega
  have := leaving_eq_entering height ps
  omega

end Zcm
