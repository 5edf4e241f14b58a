import Verif.Spec.Names
import Mathlib.Data.List.FinRange
import Mathlib.Data.List.Pairwise
import Mathlib.Tactic.IntervalCases

/-!
# Helper lemmas about the swizzle tables
-/

namespace Zcm

/-- all index packs of length `k`, in the order in which the headers list them -/
def tuples (n : ℕ) : ℕ → List (List (Fin n))
  | 0 => [[]]
  | k + 1 => (List.finRange n).flatMap fun j => (tuples n k).map (· ++ [j])

theorem mem_tuples {n : ℕ} : ∀ {k : ℕ} {t : List (Fin n)}, t ∈ tuples n k ↔ t.length = k
  | 0, t => by simp [tuples]
  | k + 1, t => by
    simp only [tuples, List.mem_flatMap, List.mem_finRange, true_and, List.mem_map]
    constructor
    · rintro ⟨j, a, ha, rfl⟩
      simp [mem_tuples.1 ha]
    · intro h
      have hne : t ≠ [] := by rintro rfl; simp at h
      refine ⟨t.getLast hne, t.dropLast, mem_tuples.2 (by simp [h]), List.dropLast_append_getLast hne⟩

/-- the `i`-th letter of naming set `s` -/
def letterOf {n : ℕ} (s : Fin 3) (i : Fin n) : Letter :=
  ((namingSets[s.val]?.getD [])[i.val]?).getD .x

/-- the table the headers should contain -/
def table (n : ℕ) : List (Swizzle n) :=
  (List.range (n - 1)).flatMap fun k => (tuples n (k + 2)).flatMap fun t =>
    (List.finRange 3).map fun s => ⟨t.map (letterOf s), k + 2, t⟩

theorem mem_table {n : ℕ} {sw : Swizzle n} : sw ∈ table n ↔
    ∃ t : List (Fin n), 2 ≤ t.length ∧ t.length ≤ n ∧
      ∃ s : Fin 3, sw = ⟨t.map (letterOf s), t.length, t⟩ := by
  simp only [table, List.mem_flatMap, List.mem_range, List.mem_map, List.mem_finRange, true_and,
    mem_tuples]
  constructor
  · rintro ⟨k, hk, t, ht, s, rfl⟩
    exact ⟨t, by omega, by omega, s, by rw [ht]⟩
  · rintro ⟨t, h1, h2, s, rfl⟩
    exact ⟨t.length - 2, by omega, t, by omega, s, by congr; omega⟩

theorem letterIndex_letterOf {n : ℕ} (hn : n ≤ 4) (s : Fin 3) (i : Fin n) :
    letterIndex (letterOf s i) = i := by
  obtain ⟨i, hi⟩ := i
  have : i < 4 := by omega
  interval_cases i <;> fin_cases s <;> rfl

theorem letterOf_mem {n : ℕ} (hn : n ≤ 4) (s : Fin 3) (i : Fin n) :
    ∃ set, namingSets[s.val]? = some set ∧ letterOf s i ∈ set := by
  obtain ⟨i, hi⟩ := i
  have : i < 4 := by omega
  interval_cases i <;> fin_cases s <;> exact ⟨_, rfl, by simp [letterOf, namingSets]⟩

theorem letterOf_letterIndex {n : ℕ} {set : List Letter} (s : Fin 3)
    (hs : namingSets[s.val]? = some set) {l : Letter} (hl : l ∈ set) (h : letterIndex l < n) :
    letterOf s (⟨letterIndex l, h⟩ : Fin n) = l := by
  fin_cases s <;> (simp [namingSets] at hs; subst hs) <;> cases l <;> simp at hl <;> rfl

theorem names_table {n : ℕ} (hn : n ≤ 4) (name : List Letter) :
    (∃ sw ∈ table n, sw.name = name) ↔ SwizzleName n name := by
  constructor
  · rintro ⟨sw, hsw, rfl⟩
    obtain ⟨t, h1, h2, s, rfl⟩ := mem_table.1 hsw
    refine ⟨by simpa using h1, by simpa using h2, ?_, ?_⟩
    · obtain ⟨set, hs⟩ : ∃ set, namingSets[s.val]? = some set := by
        fin_cases s <;> exact ⟨_, rfl⟩
      refine ⟨set, List.mem_of_getElem? hs, ?_⟩
      simp only [List.mem_map]
      rintro l ⟨i, -, rfl⟩
      obtain ⟨set', h, h'⟩ := letterOf_mem hn s i
      rw [hs] at h
      cases h
      exact h'
    · simp only [List.mem_map]
      rintro l ⟨i, -, rfl⟩
      rw [letterIndex_letterOf hn]
      exact i.2
  · rintro ⟨h1, h2, ⟨set, hset, hin⟩, hlt⟩
    obtain ⟨s, hs, hs'⟩ := List.mem_iff_getElem.1 hset
    have hs3 : s < 3 := hs
    let t : List (Fin n) := name.attach.map fun l => ⟨letterIndex l.1, hlt l.1 l.2⟩
    have ht : t.map (letterOf ⟨s, hs3⟩) = name := by
      simp only [t, List.map_map]
      conv_rhs => rw [← List.attach_map_subtype_val name]
      refine List.map_congr_left fun l _ => ?_
      exact letterOf_letterIndex ⟨s, hs3⟩ (by simpa using List.getElem?_eq_some_iff.2 ⟨hs, hs'⟩)
        (hin l.1 l.2) _
    refine ⟨⟨t.map (letterOf ⟨s, hs3⟩), t.length, t⟩, mem_table.2 ⟨t, ?_, ?_, _, rfl⟩, ht⟩
    · simpa [t] using h1
    · simpa [t] using h2

theorem read_table {n : ℕ} (hn : n ≤ 4) {β : Type} {sw : Swizzle n} (h : sw ∈ table n)
    (data : Fin n → β) :
    ∃ r, sw.read data = some r ∧
      r.toList.map some = sw.name.map fun l =>
        if h : letterIndex l < n then some (data ⟨letterIndex l, h⟩) else none := by
  obtain ⟨t, h1, h2, s, rfl⟩ := mem_table.1 h
  have key : ∀ i : Fin n, (if h : letterIndex (letterOf s i) < n then
      some (data ⟨letterIndex (letterOf s i), h⟩) else none) = some (data i) := by
    intro i
    have hi := letterIndex_letterOf hn s i
    simp [hi]
  have ht4 : t.length ≤ 4 := by omega
  match t, h1, ht4 with
  | [i, j], _, _ => exact ⟨_, rfl, by simp [AnyV.toList, key]⟩
  | [i, j, k], _, _ => exact ⟨_, rfl, by simp [AnyV.toList, key]⟩
  | [i, j, k, l], _, _ => exact ⟨_, rfl, by simp [AnyV.toList, key]⟩

/-- a number that grows along the tables -/
def nameKey (name : List Letter) : ℕ :=
  name.length * 10000 + (name.foldr (fun l a => a * 4 + letterIndex l) 0) * 3 +
    match name with
    | .x :: _ | .y :: _ | .z :: _ | .w :: _ => 0
    | .r :: _ | .g :: _ | .b :: _ | .a :: _ => 1
    | _ => 2

theorem nodup_of_key {l : List (List Letter)} (h : (l.map nameKey).IsChain (· < ·)) : l.Nodup := by
  have := h.pairwise
  rw [List.pairwise_map] at this
  exact this.imp fun hab e => by subst e; exact lt_irrefl _ hab

theorem V2_swizzles : V2.swizzles = table 2 := by decide +kernel
theorem V3_swizzles : V3.swizzles = table 3 := by decide +kernel
theorem V4_swizzles : V4.swizzles = table 4 := by decide +kernel
theorem IV2_swizzles : IV2.swizzles = table 2 := by decide +kernel
theorem IV3_swizzles : IV3.swizzles = table 3 := by decide +kernel
theorem IV4_swizzles : IV4.swizzles = table 4 := by decide +kernel

end Zcm
