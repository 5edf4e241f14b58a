import Verif.Spec.Table
import Mathlib.Order.Defs.LinearOrder
import Mathlib.Tactic.Tauto

/-!
# Lemmas: associative containers hold what they should
-/

namespace Zcm

variable {K V : Type}

theorem mapAfter_nil (k : K) : MapAfter ([] : List (MapOp K V)) k = none := rfl

open Classical in
theorem mapAfter_put (ops : List (MapOp K V)) (a : K) (v : V) :
    MapAfter (ops ++ [.put a v]) = Function.update (MapAfter ops) a (some v) := by
  funext k
  simp only [MapAfter, List.reverse_append, List.reverse_cons, List.reverse_nil, List.nil_append, List.cons_append,
    List.find?_cons, MapOp.key]
  by_cases h : a = k
  · subst h; simp
  · simp [h, Function.update_of_ne (Ne.symm h)]; rfl

open Classical in
theorem mapAfter_erase (ops : List (MapOp K V)) (a : K) :
    MapAfter (ops ++ [.erase a]) = Function.update (MapAfter ops) a none := by
  funext k
  simp only [MapAfter, List.reverse_append, List.reverse_cons, List.reverse_nil, List.nil_append, List.cons_append,
    List.find?_cons, MapOp.key]
  by_cases h : a = k
  · subst h; simp
  · simp [h, Function.update_of_ne (Ne.symm h)]; rfl

section hash

variable {eq : K → K → Bool} {hash : K → BitVec 64} {P : K → Prop}

/-- The table holds exactly `f`, each pair in its list, all keys with `P`. -/
structure Holds (hash : K → BitVec 64) (P : K → Prop) (t : HashTable K V) (f : K → Option V) : Prop where
  place : ∀ i, ∀ e ∈ t.bucket i, t.index hash e.1 = i ∧ f e.1 = some e.2 ∧ P e.1
  all : ∀ k v, f k = some v → (k, v) ∈ t.bucket (t.index hash k)
  once : ∀ i, ((t.bucket i).map Prod.fst).Nodup

theorem chainFind_eq (heq : ∀ a b, P a → P b → (eq a b = true ↔ a = b)) {k : K} (hk : P k) :
    ∀ {l : List (K × V)}, (∀ e ∈ l, P e.1) → (l.map Prod.fst).Nodup → ∀ v, (chainFind eq k l = some v ↔ (k, v) ∈ l)
  | [], _, _, v => by simp [chainFind]
  | (a, x) :: l, hl, nd, v => by
    have ha := hl _ List.mem_cons_self
    have ih := chainFind_eq heq hk (fun e h => hl e (List.mem_cons_of_mem _ h)) (List.nodup_cons.1 nd).2 v
    have na : ∀ y, (a, y) ∉ l := fun y hy => (List.nodup_cons.1 nd).1 (List.mem_map.2 ⟨_, hy, rfl⟩)
    unfold chainFind
    by_cases e : eq a k = true
    · have := (heq a k ha hk).1 e
      subst this
      simp only [e, if_true, Option.some.injEq, List.mem_cons, Prod.mk.injEq, true_and]
      constructor
      · rintro rfl; exact .inl rfl
      · rintro (h | h)
        · exact h.symm
        · exact absurd h (na v)
    · have hne : a ≠ k := fun h => e ((heq a k ha hk).2 h)
      simp only [if_neg e, List.mem_cons, Prod.mk.injEq]
      rw [ih]
      exact ⟨.inr, fun h => h.resolve_left fun h => hne h.1.symm⟩

theorem mem_chainPut (heq : ∀ a b, P a → P b → (eq a b = true ↔ a = b)) {k : K} (hk : P k) (v : V) :
    ∀ {l : List (K × V)}, (∀ e ∈ l, P e.1) → (l.map Prod.fst).Nodup →
      (∀ e, e ∈ chainPut eq k v l ↔ e = (k, v) ∨ (e.1 ≠ k ∧ e ∈ l)) ∧ ((chainPut eq k v l).map Prod.fst).Nodup
  | [], _, _ => by simp [chainPut]
  | (a, x) :: l, hl, nd => by
    have ha := hl _ List.mem_cons_self
    obtain ⟨i1, i2⟩ := mem_chainPut heq hk v (fun e h => hl e (List.mem_cons_of_mem _ h)) (List.nodup_cons.1 nd).2
    have na : ∀ y, (a, y) ∉ l := fun y hy => (List.nodup_cons.1 nd).1 (List.mem_map.2 ⟨_, hy, rfl⟩)
    unfold chainPut
    by_cases e : eq a k = true
    · have := (heq a k ha hk).1 e
      subst this
      simp only [e, if_true]
      refine ⟨fun ⟨b, y⟩ => ?_, nd⟩
      simp only [List.mem_cons, Prod.mk.injEq]
      constructor
      · rintro (h | h)
        · exact .inl h
        · exact .inr ⟨fun hb => na y (hb ▸ h), .inr h⟩
      · rintro (h | ⟨h, h' | h'⟩)
        · exact .inl h
        · exact absurd h'.1 h
        · exact .inr h'
    · have hne : a ≠ k := fun h => e ((heq a k ha hk).2 h)
      simp only [if_neg e]
      refine ⟨fun ⟨b, y⟩ => ?_, ?_⟩
      · rw [List.mem_cons, i1, List.mem_cons]
        simp only [Prod.mk.injEq]
        constructor
        · rintro (⟨rfl, rfl⟩ | h | h)
          · exact .inr ⟨hne, .inl ⟨rfl, rfl⟩⟩
          · exact .inl h
          · exact .inr ⟨h.1, .inr h.2⟩
        · rintro (h | ⟨h, h' | h'⟩)
          · exact .inr (.inl h)
          · exact .inl h'
          · exact .inr (.inr ⟨h, h'⟩)
      · rw [List.map_cons, List.nodup_cons]
        refine ⟨fun h => ?_, i2⟩
        obtain ⟨⟨b, y⟩, h1, h2⟩ := List.mem_map.1 h
        simp only at h2
        subst h2
        rcases (i1 _).1 h1 with h3 | h3
        · exact hne (Prod.mk.inj h3).1
        · exact na y h3.2

theorem mem_chainErase (heq : ∀ a b, P a → P b → (eq a b = true ↔ a = b)) {k : K} (hk : P k) :
    ∀ {l : List (K × V)}, (∀ e ∈ l, P e.1) → (l.map Prod.fst).Nodup →
      (∀ e, e ∈ chainErase eq k l ↔ (e.1 ≠ k ∧ e ∈ l)) ∧ ((chainErase eq k l).map Prod.fst).Nodup
  | [], _, _ => by simp [chainErase]
  | (a, x) :: l, hl, nd => by
    have ha := hl _ List.mem_cons_self
    obtain ⟨i1, i2⟩ := mem_chainErase heq hk (fun e h => hl e (List.mem_cons_of_mem _ h)) (List.nodup_cons.1 nd).2
    have na : ∀ y, (a, y) ∉ l := fun y hy => (List.nodup_cons.1 nd).1 (List.mem_map.2 ⟨_, hy, rfl⟩)
    unfold chainErase
    by_cases e : eq a k = true
    · have := (heq a k ha hk).1 e
      subst this
      simp only [e, if_true]
      refine ⟨fun ⟨b, y⟩ => ?_, (List.nodup_cons.1 nd).2⟩
      simp only [List.mem_cons, Prod.mk.injEq]
      exact ⟨fun h => ⟨fun hb => na y (hb ▸ h), .inr h⟩, fun h => h.2.resolve_left fun h' => h.1 h'.1⟩
    · have hne : a ≠ k := fun h => e ((heq a k ha hk).2 h)
      simp only [if_neg e]
      refine ⟨fun ⟨b, y⟩ => ?_, ?_⟩
      · rw [List.mem_cons, i1, List.mem_cons]
        simp only [Prod.mk.injEq]
        constructor
        · rintro (⟨rfl, rfl⟩ | h)
          · exact ⟨hne, .inl ⟨rfl, rfl⟩⟩
          · exact ⟨h.1, .inr h.2⟩
        · rintro ⟨h, h' | h'⟩
          · exact .inl h'
          · exact .inr ⟨h, h'⟩
      · rw [List.map_cons, List.nodup_cons]
        refine ⟨fun h => ?_, i2⟩
        obtain ⟨⟨b, y⟩, h1, h2⟩ := List.mem_map.1 h
        simp only at h2
        subst h2
        exact na y ((i1 _).1 h1).2

open Classical in
theorem Holds.put (heq : ∀ a b, P a → P b → (eq a b = true ↔ a = b)) {t : HashTable K V} {f : K → Option V}
    (h : Holds hash P t f) {k : K} (hk : P k) (v : V) :
    Holds hash P (t.put eq hash k v) (Function.update f k (some v)) := by
  obtain ⟨m, nd⟩ := mem_chainPut heq hk v (fun e he => (h.place _ e he).2.2) (h.once (t.index hash k))
  refine ⟨fun (i : Fin t.n) e he => ?_, fun a x hx => ?_, fun (i : Fin t.n) => ?_⟩
  · change e ∈ Function.update t.bucket (t.index hash k) _ i at he
    change t.index hash e.1 = i ∧ _
    by_cases hi : i = t.index hash k
    · subst hi
      rw [Function.update_self, m] at he
      rcases he with rfl | ⟨h1, h2⟩
      · exact ⟨rfl, by rw [Function.update_self], hk⟩
      · rw [Function.update_of_ne h1]; exact h.place _ e h2
    · rw [Function.update_of_ne hi] at he
      have p := h.place _ e he
      have : e.1 ≠ k := fun hc => hi (by rw [← p.1, hc])
      rw [Function.update_of_ne this]; exact p
  · change (a, x) ∈ Function.update t.bucket (t.index hash k) _ (t.index hash a)
    by_cases ha : a = k
    · subst ha
      rw [Function.update_self] at hx ⊢
      rw [m]; exact .inl (by rw [Option.some.inj hx])
    · rw [Function.update_of_ne ha] at hx
      have p := h.all a x hx
      by_cases hi : t.index hash a = t.index hash k
      · rw [hi, Function.update_self, m]
        exact .inr ⟨ha, hi ▸ p⟩
      · rw [Function.update_of_ne hi]; exact p
  · change ((Function.update t.bucket (t.index hash k) _ i).map Prod.fst).Nodup
    by_cases hi : i = t.index hash k
    · subst hi; rw [Function.update_self]; exact nd
    · rw [Function.update_of_ne hi]; exact h.once i

open Classical in
theorem Holds.erase (heq : ∀ a b, P a → P b → (eq a b = true ↔ a = b)) {t : HashTable K V} {f : K → Option V}
    (h : Holds hash P t f) {k : K} (hk : P k) :
    Holds hash P (t.erase eq hash k) (Function.update f k none) := by
  obtain ⟨m, nd⟩ := mem_chainErase heq hk (fun e he => (h.place _ e he).2.2) (h.once (t.index hash k))
  refine ⟨fun (i : Fin t.n) e he => ?_, fun a x hx => ?_, fun (i : Fin t.n) => ?_⟩
  · change e ∈ Function.update t.bucket (t.index hash k) _ i at he
    change t.index hash e.1 = i ∧ _
    by_cases hi : i = t.index hash k
    · subst hi
      rw [Function.update_self, m] at he
      rw [Function.update_of_ne he.1]; exact h.place _ e he.2
    · rw [Function.update_of_ne hi] at he
      have p := h.place _ e he
      have : e.1 ≠ k := fun hc => hi (by rw [← p.1, hc])
      rw [Function.update_of_ne this]; exact p
  · change (a, x) ∈ Function.update t.bucket (t.index hash k) _ (t.index hash a)
    by_cases ha : a = k
    · subst ha
      rw [Function.update_self] at hx
      exact absurd hx (by simp)
    · rw [Function.update_of_ne ha] at hx
      have p := h.all a x hx
      by_cases hi : t.index hash a = t.index hash k
      · rw [hi, Function.update_self, m]
        exact ⟨ha, hi ▸ p⟩
      · rw [Function.update_of_ne hi]; exact p
  · change ((Function.update t.bucket (t.index hash k) _ i).map Prod.fst).Nodup
    by_cases hi : i = t.index hash k
    · subst hi; rw [Function.update_self]; exact nd
    · rw [Function.update_of_ne hi]; exact h.once i

theorem Holds.empty (n : ℕ) (pos : 0 < n) : Holds hash P (HashTable.empty n pos : HashTable K V) fun _ => none :=
  ⟨fun i e he => absurd he (by simp [HashTable.empty]), fun k v h => absurd h (by simp), fun i => by simp [HashTable.empty]⟩

open Classical in
theorem Holds.puts (heq : ∀ a b, P a → P b → (eq a b = true ↔ a = b)) : ∀ (l : List (K × V)) {t : HashTable K V}
    {f : K → Option V}, Holds hash P t f → (∀ e ∈ l, P e.1) →
    Holds hash P (l.foldl (fun s e => s.put eq hash e.1 e.2) t) (l.foldl (fun g e => Function.update g e.1 (some e.2)) f)
  | [], _, _, h, _ => h
  | e :: l, _, _, h, hl =>
    Holds.puts heq l (h.put heq (hl e List.mem_cons_self) e.2) fun x hx => hl x (List.mem_cons_of_mem _ hx)

open Classical in
theorem foldl_update {f : K → Option V} : ∀ (l : List (K × V)) (g : K → Option V), (∀ e ∈ l, f e.1 = some e.2) →
    (∀ k, (∀ v, (k, v) ∉ l) → g k = f k) → l.foldl (fun (g : K → Option V) e => Function.update g e.1 (some e.2)) g = f
  | [], g, _, h => funext fun k => h k (by simp)
  | (a, x) :: l, g, h1, h2 => by
    refine foldl_update l _ (fun e he => h1 e (List.mem_cons_of_mem _ he)) fun k hk => ?_
    by_cases e : k = a
    · subst e
      change Function.update g k _ k = _
      rw [Function.update_self]; exact (h1 _ List.mem_cons_self).symm
    · change Function.update g a _ k = _
      rw [Function.update_of_ne e]
      refine h2 k fun v hv => ?_
      rcases List.mem_cons.1 hv with h | h
      · exact e (Prod.mk.inj h).1
      · exact hk v h

theorem Holds.rehash (heq : ∀ a b, P a → P b → (eq a b = true ↔ a = b)) {t : HashTable K V} {f : K → Option V}
    (h : Holds hash P t f) (n : ℕ) (pos : 0 < n) : Holds hash P (t.rehash eq hash n pos) f := by
  have m : ∀ e, e ∈ t.entries ↔ ∃ i, e ∈ t.bucket i := fun e => by simp [HashTable.entries]
  have p : ∀ e ∈ t.entries, f e.1 = some e.2 ∧ P e.1 := fun e he => by
    obtain ⟨i, hi⟩ := (m e).1 he
    exact (h.place i e hi).2
  have r := Holds.puts (hash := hash) heq t.entries (Holds.empty n pos) fun e he => (p e he).2
  rwa [foldl_update t.entries _ (fun e he => (p e he).1) fun k hk => ?_] at r
  rcases e : f k with _ | v
  · rfl
  · exact absurd ((m _).2 ⟨_, h.all k v e⟩) (hk v)

theorem Holds.find (heq : ∀ a b, P a → P b → (eq a b = true ↔ a = b)) {t : HashTable K V} {f : K → Option V}
    (h : Holds hash P t f) {k : K} (hk : P k) : t.find eq hash k = f k := by
  have c := chainFind_eq heq hk (fun e he => (h.place _ e he).2.2) (h.once (t.index hash k))
  refine Option.ext fun v => ?_
  rw [HashTable.find, c]
  exact ⟨fun m => (h.place _ _ m).2.1, h.all k v⟩

theorem hashRuns_holds (heq : ∀ a b, P a → P b → (eq a b = true ↔ a = b)) {ops : List (MapOp K V)} {t : HashTable K V}
    (h : HashRuns eq hash ops t) (hP : ∀ o ∈ ops, P o.key) : Holds hash P t (MapAfter ops) := by
  induction h with
  | start n pos => exact .empty n pos
  | put k v h ih =>
    rw [mapAfter_put]
    exact (ih fun o ho => hP o (List.mem_append_left _ ho)).put heq (hP (.put k v) (by simp)) v
  | erase k h ih =>
    rw [mapAfter_erase]
    exact (ih fun o ho => hP o (List.mem_append_left _ ho)).erase heq (hP (.erase k) (by simp))
  | rehash n pos h ih => exact (ih hP).rehash heq n pos

/-- A hash table whose keys are compared exactly holds what was put there. -/
theorem hashRuns_find (heq : ∀ a b, P a → P b → (eq a b = true ↔ a = b)) {ops : List (MapOp K V)} {t : HashTable K V}
    (h : HashRuns eq hash ops t) (hP : ∀ o ∈ ops, P o.key) {k : K} (hk : P k) : t.find eq hash k = MapAfter ops k :=
  (hashRuns_holds heq h hP).find heq hk

/-- A key that compares equal to nothing is never found. -/
theorem find_of_ne {t : HashTable K V} {k : K} (h : ∀ a, eq a k = false) : t.find eq hash k = none := by
  have : ∀ l : List (K × V), chainFind eq k l = none := by
    intro l
    induction l with
    | nil => rfl
    | cons e l ih => rw [chainFind, h, if_neg (by simp), ih]
  exact this _

/-- Each key is stored once. -/
theorem hashRuns_entries (heq : ∀ a b, P a → P b → (eq a b = true ↔ a = b)) {ops : List (MapOp K V)} {t : HashTable K V}
    (h : HashRuns eq hash ops t) (hP : ∀ o ∈ ops, P o.key) :
    (t.entries.map Prod.fst).Nodup ∧ ∀ k v, (k, v) ∈ t.entries ↔ MapAfter ops k = some v := by
  have H := hashRuns_holds heq h hP
  have m : ∀ e, e ∈ t.entries ↔ ∃ i, e ∈ t.bucket i := fun e => by simp [HashTable.entries]
  refine ⟨?_, fun k v => ⟨fun e => ?_, fun e => (m _).2 ⟨_, H.all k v e⟩⟩⟩
  · rw [HashTable.entries, List.map_flatMap, List.nodup_flatMap]
    refine ⟨fun i _ => H.once i, ?_⟩
    refine (List.nodup_finRange t.n).imp fun {i j} hij => ?_
    rw [Function.onFun, List.disjoint_left]
    intro a ha hb
    obtain ⟨e, he, rfl⟩ := List.mem_map.1 ha
    obtain ⟨e', he', h'⟩ := List.mem_map.1 hb
    exact hij ((H.place i e he).1.symm.trans (h' ▸ (H.place j e' he').1))
  · obtain ⟨i, hi⟩ := (m _).1 e
    exact (H.place i _ hi).2.1

end hash

section tree

variable {L : Type} [LinearOrder L] {lt : K → K → Bool} {key : K → L}

/-- The pairs in strictly increasing order. -/
abbrev Increasing (key : K → L) (l : List (K × V)) : Prop := l.Pairwise fun a b => key a.1 < key b.1

theorem find_visit (hlt : ∀ a b, lt a b = true ↔ key a < key b) (inj : Function.Injective key) (k : K) :
    ∀ {t : SearchTree K V}, Increasing key t.visit → ∀ v, (t.find lt k = some v ↔ (k, v) ∈ t.visit)
  | .leaf, _, v => by simp [SearchTree.find, SearchTree.visit]
  | .node l a x r, s, v => by
    simp only [SearchTree.visit, Increasing, List.pairwise_append, List.pairwise_cons] at s
    obtain ⟨sl, ⟨sr1, sr⟩, sa⟩ := s
    have il := find_visit hlt inj k (t := l) sl v
    have ir := find_visit hlt inj k (t := r) sr v
    simp only [SearchTree.find, SearchTree.visit, List.mem_append, List.mem_cons, Prod.mk.injEq]
    by_cases h1 : lt k a = true
    · rw [if_pos h1, il]
      have h1 := (hlt _ _).1 h1
      refine ⟨.inl, fun h => h.resolve_right ?_⟩
      rintro (h | h)
      · rw [h.1] at h1; exact lt_irrefl _ h1
      · exact lt_asymm h1 (sr1 _ h)
    · rw [if_neg h1]
      by_cases h2 : lt a k = true
      · rw [if_pos h2, ir]
        have h2 := (hlt _ _).1 h2
        refine ⟨fun h => .inr (.inr h), ?_⟩
        rintro (h | h | h)
        · exact absurd h2 (lt_asymm (sa _ h _ (List.mem_cons_self)))
        · rw [h.1] at h2; exact absurd h2 (lt_irrefl _)
        · exact h
      · rw [if_neg h2]
        rw [hlt] at h1 h2
        have e : k = a := inj (le_antisymm (not_lt.1 h2) (not_lt.1 h1))
        subst e
        constructor
        · intro h; exact .inr (.inl ⟨rfl, (Option.some.inj h).symm⟩)
        · rintro (h | h | h)
          · exact absurd (sa _ h _ (List.mem_cons_self)) (lt_irrefl _)
          · rw [h.2]
          · exact absurd (sr1 _ h) (lt_irrefl _)

theorem put_visit (hlt : ∀ a b, lt a b = true ↔ key a < key b) (inj : Function.Injective key) (k : K) (v : V) :
    ∀ {t : SearchTree K V}, Increasing key t.visit → Increasing key (t.put lt k v).visit ∧
      ∀ e, e ∈ (t.put lt k v).visit ↔ e = (k, v) ∨ (e.1 ≠ k ∧ e ∈ t.visit)
  | .leaf, _ => by simp [SearchTree.put, SearchTree.visit, Increasing]
  | .node l a x r, s => by
    simp only [SearchTree.visit, Increasing, List.pairwise_append, List.pairwise_cons] at s
    obtain ⟨sl, ⟨sr1, sr⟩, sa⟩ := s
    obtain ⟨il1, il2⟩ := put_visit hlt inj k v (t := l) sl
    obtain ⟨ir1, ir2⟩ := put_visit hlt inj k v (t := r) sr
    have la : ∀ e ∈ l.visit, key e.1 < key a := fun e he => sa e he _ List.mem_cons_self
    simp only [SearchTree.put]
    by_cases h1 : lt k a = true
    · rw [if_pos h1]
      have h1 := (hlt _ _).1 h1
      simp only [SearchTree.visit, Increasing, List.pairwise_append, List.pairwise_cons]
      refine ⟨⟨il1, ⟨sr1, sr⟩, fun e he f hf => ?_⟩, fun e => ?_⟩
      · have : key e.1 < key a := by
          rcases (il2 e).1 he with rfl | h
          · exact h1
          · exact la e h.2
        rcases List.mem_cons.1 hf with rfl | hf
        · exact this
        · exact this.trans (sr1 f hf)
      · rw [List.mem_append, il2, List.mem_append]
        have : e ∈ (a, x) :: r.visit → e.1 ≠ k := fun he hk => by
          rcases List.mem_cons.1 he with rfl | he
          · exact lt_irrefl _ (hk ▸ h1)
          · exact lt_asymm h1 (hk ▸ sr1 e he)
        tauto
    · rw [if_neg h1]
      by_cases h2 : lt a k = true
      · rw [if_pos h2]
        have h2 := (hlt _ _).1 h2
        simp only [SearchTree.visit, Increasing, List.pairwise_append, List.pairwise_cons]
        have ra : ∀ f ∈ (r.put lt k v).visit, key a < key f.1 := fun f hf => by
          rcases (ir2 f).1 hf with rfl | h
          · exact h2
          · exact sr1 f h.2
        refine ⟨⟨sl, ⟨ra, ir1⟩, fun e he f hf => ?_⟩, fun e => ?_⟩
        · rcases List.mem_cons.1 hf with rfl | hf
          · exact la e he
          · exact (la e he).trans (ra f hf)
        · rw [List.mem_append, List.mem_cons, ir2, List.mem_append, List.mem_cons]
          have t1 : e ∈ l.visit → e.1 ≠ k := fun he hk => lt_asymm h2 (hk ▸ la e he)
          have t2 : e = (a, x) → e.1 ≠ k := fun he hk => lt_irrefl (key a) (by subst he; simp only at hk; subst hk; exact h2)
          tauto
      · rw [if_neg h2]
        rw [hlt] at h1 h2
        have e : k = a := inj (le_antisymm (not_lt.1 h2) (not_lt.1 h1))
        subst e
        simp only [SearchTree.visit, Increasing, List.pairwise_append, List.pairwise_cons]
        refine ⟨⟨sl, ⟨sr1, sr⟩, fun e he f hf => ?_⟩, fun e => ?_⟩
        · rcases List.mem_cons.1 hf with rfl | hf
          · exact la e he
          · exact (la e he).trans (sr1 f hf)
        · rw [List.mem_append, List.mem_cons, List.mem_append, List.mem_cons]
          have t1 : e ∈ l.visit → e.1 ≠ k := fun he hk => lt_irrefl (key k) (hk ▸ la e he)
          have t3 : e ∈ r.visit → e.1 ≠ k := fun he hk => lt_irrefl (key k) (hk ▸ sr1 e he)
          have t2 : e = (k, x) → e.1 = k := fun h => by rw [h]
          tauto

theorem join_visit : ∀ (t s : SearchTree K V), (t.join s).visit = t.visit ++ s.visit
  | .leaf, s => rfl
  | .node l a x r, s => by simp [SearchTree.join, SearchTree.visit, join_visit r s]

theorem erase_visit (hlt : ∀ a b, lt a b = true ↔ key a < key b) (inj : Function.Injective key) (k : K) :
    ∀ {t : SearchTree K V}, Increasing key t.visit → Increasing key (t.erase lt k).visit ∧
      ∀ e, e ∈ (t.erase lt k).visit ↔ (e.1 ≠ k ∧ e ∈ t.visit)
  | .leaf, _ => by simp [SearchTree.erase, SearchTree.visit, Increasing]
  | .node l a x r, s => by
    simp only [SearchTree.visit, Increasing, List.pairwise_append, List.pairwise_cons] at s
    obtain ⟨sl, ⟨sr1, sr⟩, sa⟩ := s
    obtain ⟨il1, il2⟩ := erase_visit hlt inj k (t := l) sl
    obtain ⟨ir1, ir2⟩ := erase_visit hlt inj k (t := r) sr
    have la : ∀ e ∈ l.visit, key e.1 < key a := fun e he => sa e he _ List.mem_cons_self
    simp only [SearchTree.erase]
    by_cases h1 : lt k a = true
    · rw [if_pos h1]
      have h1 := (hlt _ _).1 h1
      simp only [SearchTree.visit, Increasing, List.pairwise_append, List.pairwise_cons]
      refine ⟨⟨il1, ⟨sr1, sr⟩, fun e he f hf => sa e ((il2 e).1 he).2 f hf⟩, fun e => ?_⟩
      rw [List.mem_append, il2, List.mem_append]
      have : e ∈ (a, x) :: r.visit → e.1 ≠ k := fun he hk => by
        rcases List.mem_cons.1 he with rfl | he
        · exact lt_irrefl _ (hk ▸ h1)
        · exact lt_asymm h1 (hk ▸ sr1 e he)
      tauto
    · rw [if_neg h1]
      by_cases h2 : lt a k = true
      · rw [if_pos h2]
        have h2 := (hlt _ _).1 h2
        simp only [SearchTree.visit, Increasing, List.pairwise_append, List.pairwise_cons]
        have ra : ∀ f ∈ (r.erase lt k).visit, key a < key f.1 := fun f hf => sr1 f ((ir2 f).1 hf).2
        refine ⟨⟨sl, ⟨ra, ir1⟩, fun e he f hf => ?_⟩, fun e => ?_⟩
        · rcases List.mem_cons.1 hf with rfl | hf
          · exact la e he
          · exact (la e he).trans (ra f hf)
        · rw [List.mem_append, List.mem_cons, ir2, List.mem_append, List.mem_cons]
          have t1 : e ∈ l.visit → e.1 ≠ k := fun he hk => lt_asymm h2 (hk ▸ la e he)
          have t2 : e = (a, x) → e.1 ≠ k := fun he hk => lt_irrefl (key a) (by subst he; simp only at hk; subst hk; exact h2)
          tauto
      · rw [if_neg h2]
        rw [hlt] at h1 h2
        have e : k = a := inj (le_antisymm (not_lt.1 h2) (not_lt.1 h1))
        subst e
        rw [join_visit]
        simp only [SearchTree.visit, Increasing, List.pairwise_append]
        refine ⟨⟨sl, sr, fun e he f hf => (la e he).trans (sr1 f hf)⟩, fun e => ?_⟩
        rw [List.mem_append, List.mem_append, List.mem_cons]
        have t1 : e ∈ l.visit → e.1 ≠ k := fun he hk => lt_irrefl (key k) (hk ▸ la e he)
        have t3 : e ∈ r.visit → e.1 ≠ k := fun he hk => lt_irrefl (key k) (hk ▸ sr1 e he)
        have t2 : e = (k, x) → e.1 = k := fun h => by rw [h]
        tauto

/-- A search tree keeps its keys in order and holds what was put there. -/
theorem treeRuns_visit (hlt : ∀ a b, lt a b = true ↔ key a < key b) (inj : Function.Injective key) {ops : List (MapOp K V)}
    {t : SearchTree K V} (h : TreeRuns lt ops t) :
    Increasing key t.visit ∧ ∀ k v, ((k, v) ∈ t.visit ↔ MapAfter ops k = some v) := by
  classical
  induction h with
  | start => exact ⟨.nil, fun k v => by simp [SearchTree.visit, mapAfter_nil]⟩
  | @put ops t a x h ih =>
    obtain ⟨p1, p2⟩ := put_visit hlt inj a x ih.1
    refine ⟨p1, fun k v => ?_⟩
    rw [p2, mapAfter_put, ih.2]
    by_cases e : k = a
    · subst e; simp [eq_comm]
    · simp [e, Function.update_of_ne e]
  | @erase ops t a h ih =>
    obtain ⟨p1, p2⟩ := erase_visit hlt inj a ih.1
    refine ⟨p1, fun k v => ?_⟩
    rw [p2, mapAfter_erase, ih.2]
    by_cases e : k = a
    · subst e; simp
    · simp [e, Function.update_of_ne e]
  | rebalance h e ih => rw [e]; exact ih

theorem treeRuns_find (hlt : ∀ a b, lt a b = true ↔ key a < key b) (inj : Function.Injective key) {ops : List (MapOp K V)}
    {t : SearchTree K V} (h : TreeRuns lt ops t) (k : K) : t.find lt k = MapAfter ops k := by
  obtain ⟨h1, h2⟩ := treeRuns_visit hlt inj h
  exact Option.ext fun v => (find_visit hlt inj k h1 v).trans (h2 k v)

/-- There is exactly one way to sort a list. -/
theorem sort_unique (hlt : ∀ a b, lt a b = true ↔ key a < key b) (inj : Function.Injective key) (l : List K) :
    ∃! s : List K, s.Perm l ∧ s.Pairwise fun a b => lt b a = false := by
  have hle : ∀ a b, lt b a = false ↔ key a ≤ key b := fun a b => by rw [← Bool.not_eq_true, hlt, not_lt]
  refine ⟨l.mergeSort fun a b => !lt b a, ⟨List.mergeSort_perm _ _, ?_⟩, fun s hs => ?_⟩
  · have := List.pairwise_mergeSort (le := fun a b => !lt b a)
      (fun a b c h1 h2 => by
        simp only [Bool.not_eq_true', hle] at *; exact h1.trans h2)
      (fun a b => by
        rcases le_total (key a) (key b) with h | h
        · simp [(hle a b).2 h]
        · simp [(hle b a).2 h]) l
    simpa using this
  · refine List.Perm.eq_of_pairwise (le := fun a b => lt b a = false) (fun a b _ _ h1 h2 => ?_) hs.2 ?_
      (hs.1.trans (List.mergeSort_perm _ _).symm)
    · exact inj (le_antisymm ((hle a b).1 h1) ((hle b a).1 h2))
    · have := List.pairwise_mergeSort (le := fun a b => !lt b a)
        (fun a b c h1 h2 => by
          simp only [Bool.not_eq_true', hle] at *; exact h1.trans h2)
        (fun a b => by
          rcases le_total (key a) (key b) with h | h
          · simp [(hle a b).2 h]
          · simp [(hle b a).2 h]) l
      simpa using this

end tree

end Zcm
