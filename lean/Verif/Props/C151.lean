import Verif.Spec.Coord
import Verif.Spec.Table
import Verif.Model.Hash
import Verif.Model.IVec
import Verif.Model.BVec
import Verif.Lemmas.Table
import Verif.Lemmas.F32Bits
import Verif.Props.C09
import Verif.Props.C10
import Verif.Props.C70
import Mathlib.Tactic.FinCases

/-!
# C151  Hash tables and ordered maps keyed by values of the library

A hash table uses `std::hash` and `==` of its keys, an ordered map uses `<` (`Spec/Table`).
-/

set_option exponentiation.threshold 300

namespace Zcm

open F32

/-- Floats that make a good key: not NaN and not the negative zero. -/
def PlainKey (x : F32) : Prop := x ≠ .nan ∧ x ≠ negZero

theorem plain_beq {a b : F32} (ha : PlainKey a) (hb : PlainKey b) : (a == b) = true ↔ a = b := by
  constructor
  · intro h
    rw [beq_iff] at h
    by_cases hk : a.key = 0
    · have z : ∀ c : F32, PlainKey c → c.key = 0 → c = lit 0 := by
        rintro c hc h0
        rcases c with _ | s | ⟨s, k, hr⟩
        · exact absurd rfl hc.1
        · cases s
          · rw [key_inf_false] at h0; exact absurd h0 (by norm_num)
          · rw [key_inf_true] at h0; exact absurd h0 (by norm_num)
        · cases s
          · have : k = 0 := by simpa [key] using h0
            subst this
            change F32.fin false 0 (by decide : Rep 0) = lit 0
            decide +kernel
          · have : k = 0 := by simpa [key] using h0
            subst this
            refine absurd ?_ hc.2
            change F32.fin true 0 (by decide : Rep 0) = negZero
            decide +kernel
      exact (z a ha hk).trans (z b hb (h.2.2 ▸ hk)).symm
    · exact eq_of_key h.1 h.2.1 h.2.2 hk
  · rintro rfl
    rw [beq_iff]
    exact ⟨ha.1, ha.1, rfl⟩

theorem beq_nan_right (a : F32) : (a == (F32.nan : F32)) = false := by
  rw [← Bool.not_eq_true, beq_iff]; exact fun h => h.2.1 rfl

/-- C151, hash tables with `ivec2` keys: after any updates, with the table rehashed at any moments, `find` returns the value last put
under exactly this key and not erased since; the table stores each such key once, and nothing else. -/
theorem C151_ivec2_hash {V : Type} {ops : List (MapOp (V2 I32) V)} {t : HashTable (V2 I32) V}
    (h : HashRuns IV2.eq IV2.hash ops t) :
    (∀ k, t.find IV2.eq IV2.hash k = MapAfter ops k) ∧
    (t.entries.map Prod.fst).Nodup ∧ ∀ k v, (k, v) ∈ t.entries ↔ MapAfter ops k = some v := by
  have e : ∀ a b : V2 I32, True → True → (IV2.eq a b = true ↔ a = b) := fun a b _ _ => (C09_ivec2 a b).2.1
  exact ⟨fun k => hashRuns_find e h (fun _ _ => trivial) trivial, hashRuns_entries e h fun _ _ => trivial⟩

/-- C151, the same with `bvec2` keys. -/
theorem C151_bvec2_hash {V : Type} {ops : List (MapOp (V2 Bool) V)} {t : HashTable (V2 Bool) V}
    (h : HashRuns BV2.eq BV2.hash ops t) :
    (∀ k, t.find BV2.eq BV2.hash k = MapAfter ops k) ∧
    (t.entries.map Prod.fst).Nodup ∧ ∀ k v, (k, v) ∈ t.entries ↔ MapAfter ops k = some v := by
  have e : ∀ a b : V2 Bool, True → True → (BV2.eq a b = true ↔ a = b) := fun a b _ _ => (C09_bvec2 a b).2.1
  exact ⟨fun k => hashRuns_find e h (fun _ _ => trivial) trivial, hashRuns_entries e h fun _ _ => trivial⟩

/-- C151, ordered maps with `ivec2` keys: after any updates, with the tree rebalanced at any moments in any way, `find` returns the
value last put under exactly this key and not erased since, and an iterator visits exactly these keys, each once, in increasing
lexicographic order of their components. -/
theorem C151_ivec2_ordered {V : Type} {ops : List (MapOp (V2 I32) V)} {t : SearchTree (V2 I32) V}
    (h : TreeRuns IV2.lt ops t) :
    (∀ k, t.find IV2.lt k = MapAfter ops k) ∧
    (∀ k v, (k, v) ∈ t.visit ↔ MapAfter ops k = some v) ∧ t.visit.Pairwise fun a b => ints a.1 < ints b.1 := by
  have l : ∀ a b : V2 I32, IV2.lt a b = true ↔ ints a < ints b := fun a b => (C10_ivec2 a b).1
  have i : Function.Injective (ints : V2 I32 → List ℤ) := fun a b e =>
    ((C09_ivec2 a b).2.1).1 ((C10_ivec2 a b).2.2.2.2.2 e)
  exact ⟨treeRuns_find l i h, (treeRuns_visit l i h).2, (treeRuns_visit l i h).1⟩

/-- C151, sorting `ivec2` values by `<` has exactly one result, whatever algorithm is used. -/
theorem C151_ivec2_sort (l : List (V2 I32)) :
    ∃! s : List (V2 I32), s.Perm l ∧ s.Pairwise fun a b => IV2.lt b a = false :=
  sort_unique (fun a b => (C10_ivec2 a b).1)
    (fun a b e => ((C09_ivec2 a b).2.1).1 ((C10_ivec2 a b).2.2.2.2.2 e)) l

/-- C151, hash tables with `ivec3` keys: after any updates, with the table rehashed at any moments, `find` returns the value last put
under exactly this key and not erased since; the table stores each such key once, and nothing else. -/
theorem C151_ivec3_hash {V : Type} {ops : List (MapOp (V3 I32) V)} {t : HashTable (V3 I32) V}
    (h : HashRuns IV3.eq IV3.hash ops t) :
    (∀ k, t.find IV3.eq IV3.hash k = MapAfter ops k) ∧
    (t.entries.map Prod.fst).Nodup ∧ ∀ k v, (k, v) ∈ t.entries ↔ MapAfter ops k = some v := by
  have e : ∀ a b : V3 I32, True → True → (IV3.eq a b = true ↔ a = b) := fun a b _ _ => (C09_ivec3 a b).2.1
  exact ⟨fun k => hashRuns_find e h (fun _ _ => trivial) trivial, hashRuns_entries e h fun _ _ => trivial⟩

/-- C151, the same with `bvec3` keys. -/
theorem C151_bvec3_hash {V : Type} {ops : List (MapOp (V3 Bool) V)} {t : HashTable (V3 Bool) V}
    (h : HashRuns BV3.eq BV3.hash ops t) :
    (∀ k, t.find BV3.eq BV3.hash k = MapAfter ops k) ∧
    (t.entries.map Prod.fst).Nodup ∧ ∀ k v, (k, v) ∈ t.entries ↔ MapAfter ops k = some v := by
  have e : ∀ a b : V3 Bool, True → True → (BV3.eq a b = true ↔ a = b) := fun a b _ _ => (C09_bvec3 a b).2.1
  exact ⟨fun k => hashRuns_find e h (fun _ _ => trivial) trivial, hashRuns_entries e h fun _ _ => trivial⟩

/-- C151, ordered maps with `ivec3` keys: after any updates, with the tree rebalanced at any moments in any way, `find` returns the
value last put under exactly this key and not erased since, and an iterator visits exactly these keys, each once, in increasing
lexicographic order of their components. -/
theorem C151_ivec3_ordered {V : Type} {ops : List (MapOp (V3 I32) V)} {t : SearchTree (V3 I32) V}
    (h : TreeRuns IV3.lt ops t) :
    (∀ k, t.find IV3.lt k = MapAfter ops k) ∧
    (∀ k v, (k, v) ∈ t.visit ↔ MapAfter ops k = some v) ∧ t.visit.Pairwise fun a b => ints a.1 < ints b.1 := by
  have l : ∀ a b : V3 I32, IV3.lt a b = true ↔ ints a < ints b := fun a b => (C10_ivec3 a b).1
  have i : Function.Injective (ints : V3 I32 → List ℤ) := fun a b e =>
    ((C09_ivec3 a b).2.1).1 ((C10_ivec3 a b).2.2.2.2.2 e)
  exact ⟨treeRuns_find l i h, (treeRuns_visit l i h).2, (treeRuns_visit l i h).1⟩

/-- C151, sorting `ivec3` values by `<` has exactly one result, whatever algorithm is used. -/
theorem C151_ivec3_sort (l : List (V3 I32)) :
    ∃! s : List (V3 I32), s.Perm l ∧ s.Pairwise fun a b => IV3.lt b a = false :=
  sort_unique (fun a b => (C10_ivec3 a b).1)
    (fun a b e => ((C09_ivec3 a b).2.1).1 ((C10_ivec3 a b).2.2.2.2.2 e)) l

/-- C151, hash tables with `ivec4` keys: after any updates, with the table rehashed at any moments, `find` returns the value last put
under exactly this key and not erased since; the table stores each such key once, and nothing else. -/
theorem C151_ivec4_hash {V : Type} {ops : List (MapOp (V4 I32) V)} {t : HashTable (V4 I32) V}
    (h : HashRuns IV4.eq IV4.hash ops t) :
    (∀ k, t.find IV4.eq IV4.hash k = MapAfter ops k) ∧
    (t.entries.map Prod.fst).Nodup ∧ ∀ k v, (k, v) ∈ t.entries ↔ MapAfter ops k = some v := by
  have e : ∀ a b : V4 I32, True → True → (IV4.eq a b = true ↔ a = b) := fun a b _ _ => (C09_ivec4 a b).2.1
  exact ⟨fun k => hashRuns_find e h (fun _ _ => trivial) trivial, hashRuns_entries e h fun _ _ => trivial⟩

/-- C151, the same with `bvec4` keys. -/
theorem C151_bvec4_hash {V : Type} {ops : List (MapOp (V4 Bool) V)} {t : HashTable (V4 Bool) V}
    (h : HashRuns BV4.eq BV4.hash ops t) :
    (∀ k, t.find BV4.eq BV4.hash k = MapAfter ops k) ∧
    (t.entries.map Prod.fst).Nodup ∧ ∀ k v, (k, v) ∈ t.entries ↔ MapAfter ops k = some v := by
  have e : ∀ a b : V4 Bool, True → True → (BV4.eq a b = true ↔ a = b) := fun a b _ _ => (C09_bvec4 a b).2.1
  exact ⟨fun k => hashRuns_find e h (fun _ _ => trivial) trivial, hashRuns_entries e h fun _ _ => trivial⟩

/-- C151, ordered maps with `ivec4` keys: after any updates, with the tree rebalanced at any moments in any way, `find` returns the
value last put under exactly this key and not erased since, and an iterator visits exactly these keys, each once, in increasing
lexicographic order of their components. -/
theorem C151_ivec4_ordered {V : Type} {ops : List (MapOp (V4 I32) V)} {t : SearchTree (V4 I32) V}
    (h : TreeRuns IV4.lt ops t) :
    (∀ k, t.find IV4.lt k = MapAfter ops k) ∧
    (∀ k v, (k, v) ∈ t.visit ↔ MapAfter ops k = some v) ∧ t.visit.Pairwise fun a b => ints a.1 < ints b.1 := by
  have l : ∀ a b : V4 I32, IV4.lt a b = true ↔ ints a < ints b := fun a b => (C10_ivec4 a b).1
  have i : Function.Injective (ints : V4 I32 → List ℤ) := fun a b e =>
    ((C09_ivec4 a b).2.1).1 ((C10_ivec4 a b).2.2.2.2.2 e)
  exact ⟨treeRuns_find l i h, (treeRuns_visit l i h).2, (treeRuns_visit l i h).1⟩

/-- C151, sorting `ivec4` values by `<` has exactly one result, whatever algorithm is used. -/
theorem C151_ivec4_sort (l : List (V4 I32)) :
    ∃! s : List (V4 I32), s.Perm l ∧ s.Pairwise fun a b => IV4.lt b a = false :=
  sort_unique (fun a b => (C10_ivec4 a b).1)
    (fun a b e => ((C09_ivec4 a b).2.1).1 ((C10_ivec4 a b).2.2.2.2.2 e)) l

/-- C151, hash tables with `vec2` keys without NaN and without negative zeros. -/
theorem C151_vec2_hash {V : Type} {ops : List (MapOp (V2 F32) V)} {t : HashTable (V2 F32) V}
    (h : HashRuns V2.eq V2.hash ops t) (hp : ∀ o ∈ ops, ∀ i, PlainKey (coord o.key i)) :
    (∀ k : V2 F32, (∀ i, PlainKey (coord k i)) → t.find V2.eq V2.hash k = MapAfter ops k) ∧
    (t.entries.map Prod.fst).Nodup ∧ ∀ k v, (k, v) ∈ t.entries ↔ MapAfter ops k = some v := by
  have e : ∀ a b : V2 F32, (∀ i, PlainKey (coord a i)) → (∀ i, PlainKey (coord b i)) →
      (V2.eq a b = true ↔ a = b) := fun a b ha hb => by
    rw [(C09_vec2 a b).1, ← coord_inj2]
    exact forall_congr' fun i => plain_beq (ha i) (hb i)
  exact ⟨fun k hk => hashRuns_find e h hp hk, hashRuns_entries e h hp⟩

/-- C151, the excluded `vec2` keys. A key with a NaN is never found, whatever was put. The key of zeros and the same key with one
negative zero compare equal, but what was put under the first is not found under the second in a table with 1000 lists. -/
theorem C151_vec2_excluded :
    (∀ (V : Type) (t : HashTable (V2 F32) V) (k : V2 F32) (i), coord k i = .nan → t.find V2.eq V2.hash k = none) ∧
    V2.eq (⟨lit 0, lit 0⟩ : V2 F32) ⟨negZero, lit 0⟩ = true ∧
    ∃ pos, ((HashTable.empty 1000 pos : HashTable (V2 F32) ℕ).put V2.eq V2.hash ⟨lit 0, lit 0⟩ 7).find V2.eq V2.hash
      ⟨negZero, lit 0⟩ = none := by
  refine ⟨fun V t k i hk => find_of_ne fun a => ?_, by decide +kernel, by decide, by decide +kernel⟩
  rw [← Bool.not_eq_true, (C09_vec2 a k).1]
  intro h
  have := h i
  rw [hk, beq_nan_right] at this
  exact absurd this (by simp)

/-- C151, hash tables with `vec3` keys without NaN and without negative zeros. -/
theorem C151_vec3_hash {V : Type} {ops : List (MapOp (V3 F32) V)} {t : HashTable (V3 F32) V}
    (h : HashRuns V3.eq V3.hash ops t) (hp : ∀ o ∈ ops, ∀ i, PlainKey (coord o.key i)) :
    (∀ k : V3 F32, (∀ i, PlainKey (coord k i)) → t.find V3.eq V3.hash k = MapAfter ops k) ∧
    (t.entries.map Prod.fst).Nodup ∧ ∀ k v, (k, v) ∈ t.entries ↔ MapAfter ops k = some v := by
  have e : ∀ a b : V3 F32, (∀ i, PlainKey (coord a i)) → (∀ i, PlainKey (coord b i)) →
      (V3.eq a b = true ↔ a = b) := fun a b ha hb => by
    rw [(C09_vec3 a b).1, ← coord_inj3]
    exact forall_congr' fun i => plain_beq (ha i) (hb i)
  exact ⟨fun k hk => hashRuns_find e h hp hk, hashRuns_entries e h hp⟩

/-- C151, the excluded `vec3` keys. A key with a NaN is never found, whatever was put. The key of zeros and the same key with one
negative zero compare equal, but what was put under the first is not found under the second in a table with 1000 lists. -/
theorem C151_vec3_excluded :
    (∀ (V : Type) (t : HashTable (V3 F32) V) (k : V3 F32) (i), coord k i = .nan → t.find V3.eq V3.hash k = none) ∧
    V3.eq (⟨lit 0, lit 0, lit 0⟩ : V3 F32) ⟨negZero, lit 0, lit 0⟩ = true ∧
    ∃ pos, ((HashTable.empty 1000 pos : HashTable (V3 F32) ℕ).put V3.eq V3.hash ⟨lit 0, lit 0, lit 0⟩ 7).find V3.eq V3.hash
      ⟨negZero, lit 0, lit 0⟩ = none := by
  refine ⟨fun V t k i hk => find_of_ne fun a => ?_, by decide +kernel, by decide, by decide +kernel⟩
  rw [← Bool.not_eq_true, (C09_vec3 a k).1]
  intro h
  have := h i
  rw [hk, beq_nan_right] at this
  exact absurd this (by simp)

/-- C151, hash tables with `vec4` keys without NaN and without negative zeros. -/
theorem C151_vec4_hash {V : Type} {ops : List (MapOp (V4 F32) V)} {t : HashTable (V4 F32) V}
    (h : HashRuns V4.eq V4.hash ops t) (hp : ∀ o ∈ ops, ∀ i, PlainKey (coord o.key i)) :
    (∀ k : V4 F32, (∀ i, PlainKey (coord k i)) → t.find V4.eq V4.hash k = MapAfter ops k) ∧
    (t.entries.map Prod.fst).Nodup ∧ ∀ k v, (k, v) ∈ t.entries ↔ MapAfter ops k = some v := by
  have e : ∀ a b : V4 F32, (∀ i, PlainKey (coord a i)) → (∀ i, PlainKey (coord b i)) →
      (V4.eq a b = true ↔ a = b) := fun a b ha hb => by
    rw [(C09_vec4 a b).1, ← coord_inj4]
    exact forall_congr' fun i => plain_beq (ha i) (hb i)
  exact ⟨fun k hk => hashRuns_find e h hp hk, hashRuns_entries e h hp⟩

/-- C151, the excluded `vec4` keys. A key with a NaN is never found, whatever was put. The key of zeros and the same key with one
negative zero compare equal, but what was put under the first is not found under the second in a table with 1000 lists. -/
theorem C151_vec4_excluded :
    (∀ (V : Type) (t : HashTable (V4 F32) V) (k : V4 F32) (i), coord k i = .nan → t.find V4.eq V4.hash k = none) ∧
    V4.eq (⟨lit 0, lit 0, lit 0, lit 0⟩ : V4 F32) ⟨negZero, lit 0, lit 0, lit 0⟩ = true ∧
    ∃ pos, ((HashTable.empty 1000 pos : HashTable (V4 F32) ℕ).put V4.eq V4.hash ⟨lit 0, lit 0, lit 0, lit 0⟩ 7).find V4.eq V4.hash
      ⟨negZero, lit 0, lit 0, lit 0⟩ = none := by
  refine ⟨fun V t k i hk => find_of_ne fun a => ?_, by decide +kernel, by decide, by decide +kernel⟩
  rw [← Bool.not_eq_true, (C09_vec4 a k).1]
  intro h
  have := h i
  rw [hk, beq_nan_right] at this
  exact absurd this (by simp)

/-- C151, hash tables with `quat` keys without NaN and without negative zeros. -/
theorem C151_quat_hash {V : Type} {ops : List (MapOp (Quat F32) V)} {t : HashTable (Quat F32) V}
    (h : HashRuns Quat.eq Quat.hash ops t) (hp : ∀ o ∈ ops, ∀ i, PlainKey (coord o.key i)) :
    (∀ k : Quat F32, (∀ i, PlainKey (coord k i)) → t.find Quat.eq Quat.hash k = MapAfter ops k) ∧
    (t.entries.map Prod.fst).Nodup ∧ ∀ k v, (k, v) ∈ t.entries ↔ MapAfter ops k = some v := by
  have e : ∀ a b : Quat F32, (∀ i, PlainKey (coord a i)) → (∀ i, PlainKey (coord b i)) →
      (Quat.eq a b = true ↔ a = b) := fun a b ha hb => by
    rw [(C09_quat a b).1, ← coord_injQ]
    exact forall_congr' fun i => plain_beq (ha i) (hb i)
  exact ⟨fun k hk => hashRuns_find e h hp hk, hashRuns_entries e h hp⟩

/-- C151, the excluded `quat` keys. A key with a NaN is never found, whatever was put. The key of zeros and the same key with one
negative zero compare equal, but what was put under the first is not found under the second in a table with 1000 lists. -/
theorem C151_quat_excluded :
    (∀ (V : Type) (t : HashTable (Quat F32) V) (k : Quat F32) (i), coord k i = .nan → t.find Quat.eq Quat.hash k = none) ∧
    Quat.eq (⟨lit 0, lit 0, lit 0, lit 0⟩ : Quat F32) ⟨negZero, lit 0, lit 0, lit 0⟩ = true ∧
    ∃ pos, ((HashTable.empty 1000 pos : HashTable (Quat F32) ℕ).put Quat.eq Quat.hash ⟨lit 0, lit 0, lit 0, lit 0⟩ 7).find Quat.eq Quat.hash
      ⟨negZero, lit 0, lit 0, lit 0⟩ = none := by
  refine ⟨fun V t k i hk => find_of_ne fun a => ?_, by decide +kernel, by decide, by decide +kernel⟩
  rw [← Bool.not_eq_true, (C09_quat a k).1]
  intro h
  have := h i
  rw [hk, beq_nan_right] at this
  exact absurd this (by simp)

/-- C151, hash tables with `mat2` keys without NaN and without negative zeros. -/
theorem C151_mat2_hash {V : Type} {ops : List (MapOp (M2 F32) V)} {t : HashTable (M2 F32) V}
    (h : HashRuns M2.eq M2.hash ops t) (hp : ∀ o ∈ ops, ∀ c r, PlainKey (entry o.key c r)) :
    (∀ k : M2 F32, (∀ c r, PlainKey (entry k c r)) → t.find M2.eq M2.hash k = MapAfter ops k) ∧
    (t.entries.map Prod.fst).Nodup ∧ ∀ k v, (k, v) ∈ t.entries ↔ MapAfter ops k = some v := by
  have e : ∀ a b : M2 F32, (∀ c r, PlainKey (entry a c r)) → (∀ c r, PlainKey (entry b c r)) →
      (M2.eq a b = true ↔ a = b) := fun a b ha hb => by
    rw [(C09_mat2 a b).1, ← entry_inj2]
    exact forall_congr' fun c => forall_congr' fun r => plain_beq (ha c r) (hb c r)
  exact ⟨fun k hk => hashRuns_find e h hp hk, hashRuns_entries e h hp⟩

/-- C151, the excluded `mat2` keys. A key with a NaN is never found, whatever was put. The key of zeros and the same key with one
negative zero compare equal, but what was put under the first is not found under the second in a table with 1000 lists. -/
theorem C151_mat2_excluded :
    (∀ (V : Type) (t : HashTable (M2 F32) V) (k : M2 F32) (c r), entry k c r = .nan → t.find M2.eq M2.hash k = none) ∧
    M2.eq (⟨⟨lit 0, lit 0⟩, ⟨lit 0, lit 0⟩⟩ : M2 F32) ⟨⟨negZero, lit 0⟩, ⟨lit 0, lit 0⟩⟩ = true ∧
    ∃ pos, ((HashTable.empty 1000 pos : HashTable (M2 F32) ℕ).put M2.eq M2.hash ⟨⟨lit 0, lit 0⟩, ⟨lit 0, lit 0⟩⟩ 7).find M2.eq M2.hash
      ⟨⟨negZero, lit 0⟩, ⟨lit 0, lit 0⟩⟩ = none := by
  refine ⟨fun V t k c r hk => find_of_ne fun a => ?_, by decide +kernel, by decide, by decide +kernel⟩
  rw [← Bool.not_eq_true, (C09_mat2 a k).1]
  intro h
  have := h c r
  rw [hk, beq_nan_right] at this
  exact absurd this (by simp)

/-- C151, hash tables with `mat3` keys without NaN and without negative zeros. -/
theorem C151_mat3_hash {V : Type} {ops : List (MapOp (M3 F32) V)} {t : HashTable (M3 F32) V}
    (h : HashRuns M3.eq M3.hash ops t) (hp : ∀ o ∈ ops, ∀ c r, PlainKey (entry o.key c r)) :
    (∀ k : M3 F32, (∀ c r, PlainKey (entry k c r)) → t.find M3.eq M3.hash k = MapAfter ops k) ∧
    (t.entries.map Prod.fst).Nodup ∧ ∀ k v, (k, v) ∈ t.entries ↔ MapAfter ops k = some v := by
  have e : ∀ a b : M3 F32, (∀ c r, PlainKey (entry a c r)) → (∀ c r, PlainKey (entry b c r)) →
      (M3.eq a b = true ↔ a = b) := fun a b ha hb => by
    rw [(C09_mat3 a b).1, ← entry_inj3]
    exact forall_congr' fun c => forall_congr' fun r => plain_beq (ha c r) (hb c r)
  exact ⟨fun k hk => hashRuns_find e h hp hk, hashRuns_entries e h hp⟩

/-- C151, the excluded `mat3` keys. A key with a NaN is never found, whatever was put. The key of zeros and the same key with one
negative zero compare equal, but what was put under the first is not found under the second in a table with 1000 lists. -/
theorem C151_mat3_excluded :
    (∀ (V : Type) (t : HashTable (M3 F32) V) (k : M3 F32) (c r), entry k c r = .nan → t.find M3.eq M3.hash k = none) ∧
    M3.eq (⟨⟨lit 0, lit 0, lit 0⟩, ⟨lit 0, lit 0, lit 0⟩, ⟨lit 0, lit 0, lit 0⟩⟩ : M3 F32) ⟨⟨negZero, lit 0, lit 0⟩, ⟨lit 0, lit 0, lit 0⟩, ⟨lit 0, lit 0, lit 0⟩⟩ = true ∧
    ∃ pos, ((HashTable.empty 1000 pos : HashTable (M3 F32) ℕ).put M3.eq M3.hash ⟨⟨lit 0, lit 0, lit 0⟩, ⟨lit 0, lit 0, lit 0⟩, ⟨lit 0, lit 0, lit 0⟩⟩ 7).find M3.eq M3.hash
      ⟨⟨negZero, lit 0, lit 0⟩, ⟨lit 0, lit 0, lit 0⟩, ⟨lit 0, lit 0, lit 0⟩⟩ = none := by
  refine ⟨fun V t k c r hk => find_of_ne fun a => ?_, by decide +kernel, by decide, by decide +kernel⟩
  rw [← Bool.not_eq_true, (C09_mat3 a k).1]
  intro h
  have := h c r
  rw [hk, beq_nan_right] at this
  exact absurd this (by simp)

/-- C151, hash tables with `mat4` keys without NaN and without negative zeros. -/
theorem C151_mat4_hash {V : Type} {ops : List (MapOp (M4 F32) V)} {t : HashTable (M4 F32) V}
    (h : HashRuns M4.eq M4.hash ops t) (hp : ∀ o ∈ ops, ∀ c r, PlainKey (entry o.key c r)) :
    (∀ k : M4 F32, (∀ c r, PlainKey (entry k c r)) → t.find M4.eq M4.hash k = MapAfter ops k) ∧
    (t.entries.map Prod.fst).Nodup ∧ ∀ k v, (k, v) ∈ t.entries ↔ MapAfter ops k = some v := by
  have e : ∀ a b : M4 F32, (∀ c r, PlainKey (entry a c r)) → (∀ c r, PlainKey (entry b c r)) →
      (M4.eq a b = true ↔ a = b) := fun a b ha hb => by
    rw [(C09_mat4 a b).1, ← entry_inj4]
    exact forall_congr' fun c => forall_congr' fun r => plain_beq (ha c r) (hb c r)
  exact ⟨fun k hk => hashRuns_find e h hp hk, hashRuns_entries e h hp⟩

/-- C151, the excluded `mat4` keys. A key with a NaN is never found, whatever was put. The key of zeros and the same key with one
negative zero compare equal, but what was put under the first is not found under the second in a table with 1000 lists. -/
theorem C151_mat4_excluded :
    (∀ (V : Type) (t : HashTable (M4 F32) V) (k : M4 F32) (c r), entry k c r = .nan → t.find M4.eq M4.hash k = none) ∧
    M4.eq (⟨⟨lit 0, lit 0, lit 0, lit 0⟩, ⟨lit 0, lit 0, lit 0, lit 0⟩, ⟨lit 0, lit 0, lit 0, lit 0⟩, ⟨lit 0, lit 0, lit 0, lit 0⟩⟩ : M4 F32) ⟨⟨negZero, lit 0, lit 0, lit 0⟩, ⟨lit 0, lit 0, lit 0, lit 0⟩, ⟨lit 0, lit 0, lit 0, lit 0⟩, ⟨lit 0, lit 0, lit 0, lit 0⟩⟩ = true ∧
    ∃ pos, ((HashTable.empty 1000 pos : HashTable (M4 F32) ℕ).put M4.eq M4.hash ⟨⟨lit 0, lit 0, lit 0, lit 0⟩, ⟨lit 0, lit 0, lit 0, lit 0⟩, ⟨lit 0, lit 0, lit 0, lit 0⟩, ⟨lit 0, lit 0, lit 0, lit 0⟩⟩ 7).find M4.eq M4.hash
      ⟨⟨negZero, lit 0, lit 0, lit 0⟩, ⟨lit 0, lit 0, lit 0, lit 0⟩, ⟨lit 0, lit 0, lit 0, lit 0⟩, ⟨lit 0, lit 0, lit 0, lit 0⟩⟩ = none := by
  refine ⟨fun V t k c r hk => find_of_ne fun a => ?_, by decide +kernel, by decide, by decide +kernel⟩
  rw [← Bool.not_eq_true, (C09_mat4 a k).1]
  intro h
  have := h c r
  rw [hk, beq_nan_right] at this
  exact absurd this (by simp)

/-- Non-vacuity: a table of 2 lists with three `ivec2` keys, rehashed to 5 lists, one key overwritten and one erased; a tree with the
same updates; and a table of `vec2` keys with an infinity and a zero. -/
example : (∃ t : HashTable (V2 I32) ℕ, HashRuns IV2.eq IV2.hash
      [.put ⟨I32.lit 1, I32.lit 2⟩ 10, .put ⟨I32.lit (-3), I32.lit 4⟩ 20, .put ⟨I32.lit 1, I32.lit 2⟩ 30,
        .erase ⟨I32.lit (-3), I32.lit 4⟩] t ∧
      t.find IV2.eq IV2.hash ⟨I32.lit 1, I32.lit 2⟩ = some 30 ∧ t.find IV2.eq IV2.hash ⟨I32.lit (-3), I32.lit 4⟩ = none) ∧
    (∃ t : SearchTree (V2 I32) ℕ, TreeRuns IV2.lt
      [.put ⟨I32.lit 1, I32.lit 2⟩ 10, .put ⟨I32.lit (-3), I32.lit 4⟩ 20, .put ⟨I32.lit 1, I32.lit 3⟩ 30,
        .erase ⟨I32.lit 1, I32.lit 2⟩] t ∧
      t.visit = [(⟨I32.lit (-3), I32.lit 4⟩, 20), (⟨I32.lit 1, I32.lit 3⟩, 30)]) ∧
    ∃ t : HashTable (V2 F32) ℕ, HashRuns V2.eq V2.hash [.put ⟨.inf false, lit 0⟩ 10, .put ⟨lit 0.5, lit (-2)⟩ 20] t ∧
      (∀ o ∈ ([.put ⟨.inf false, lit 0⟩ 10, .put ⟨lit 0.5, lit (-2)⟩ 20] : List (MapOp (V2 F32) ℕ)), ∀ i,
        PlainKey (coord o.key i)) ∧ t.find V2.eq V2.hash ⟨.inf false, lit 0⟩ = some 10 := by
  refine ⟨⟨_, .erase _ (.rehash 5 (by decide) (.put _ _ (.put _ _ (.put _ _ (.start 2 (by decide)))))), by decide +kernel,
    by decide +kernel⟩, ⟨_, .erase _ (.put _ _ (.put _ _ (.put _ _ .start))), by decide +kernel⟩,
    ⟨_, .put _ _ (.put _ _ (.start 3 (by decide))), ?_, by decide +kernel⟩⟩
  unfold PlainKey
  simp only [List.mem_cons, List.not_mem_nil, or_false, forall_eq_or_imp, forall_eq]
  constructor <;> intro i <;> fin_cases i <;> decide +kernel

end Zcm
