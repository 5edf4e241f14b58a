import Mathlib.Logic.Function.Basic
import Mathlib.Data.Fintype.Basic
import Mathlib.Data.List.FinRange

/-!
# Specification: associative containers that a caller keys by values of the library

Not a file of /repo: `std::unordered_map` calls `std::hash` and `==` of its keys, `std::map` calls `<`. Both are written here
as a user understands them. `MapAfter` says what a map should contain.
-/

namespace Zcm

/-- One update of a map. -/
inductive MapOp (K V : Type) where
  /-- `m[k] = v;` -/
  | put (k : K) (v : V)
  /-- `m.erase(k);` -/
  | erase (k : K)

/-- The key of an update. -/
def MapOp.key {K V : Type} : MapOp K V → K
  | .put k _ => k
  | .erase k => k

open Classical in
/-- What a map holds under the key `k` after the updates `ops` (first to last): the last value put under exactly this key and not
erased since. -/
noncomputable def MapAfter {K V : Type} (ops : List (MapOp K V)) (k : K) : Option V :=
  match ops.reverse.find? (fun o => decide (o.key = k)) with
  | some (.put _ v) => some v
  | _ => none

/-! ## A hash table with chaining -/

/-- `n` lists of key-value pairs. -/
structure HashTable (K V : Type) where
  /-- the number of lists -/
  n : ℕ
  /-- there is at least one -/
  pos : 0 < n
  /-- the lists -/
  bucket : Fin n → List (K × V)

/-- No pairs, `n` lists. -/
def HashTable.empty {K V : Type} (n : ℕ) (pos : 0 < n) : HashTable K V := ⟨n, pos, fun _ => []⟩

/-- The list that a key belongs to: the hash modulo the number of lists. -/
def HashTable.index {K V : Type} (hash : K → BitVec 64) (t : HashTable K V) (k : K) : Fin t.n :=
  ⟨(hash k).toNat % t.n, Nat.mod_lt _ t.pos⟩

/-- Search one list: the first pair whose key compares equal. -/
def chainFind {K V : Type} (eq : K → K → Bool) (k : K) : List (K × V) → Option V
  | [] => none
  | e :: l => if eq e.1 k then some e.2 else chainFind eq k l

/-- Update one list: overwrite the value of the first pair whose key compares equal, or append a pair. -/
def chainPut {K V : Type} (eq : K → K → Bool) (k : K) (v : V) : List (K × V) → List (K × V)
  | [] => [(k, v)]
  | e :: l => if eq e.1 k then (e.1, v) :: l else e :: chainPut eq k v l

/-- Remove the first pair whose key compares equal. -/
def chainErase {K V : Type} (eq : K → K → Bool) (k : K) : List (K × V) → List (K × V)
  | [] => []
  | e :: l => if eq e.1 k then l else e :: chainErase eq k l

/-- `m.find(k)` -/
def HashTable.find {K V : Type} (eq : K → K → Bool) (hash : K → BitVec 64) (t : HashTable K V) (k : K) : Option V :=
  chainFind eq k (t.bucket (t.index hash k))

/-- `m[k] = v` -/
def HashTable.put {K V : Type} (eq : K → K → Bool) (hash : K → BitVec 64) (t : HashTable K V) (k : K) (v : V) :
    HashTable K V :=
  ⟨t.n, t.pos, Function.update t.bucket (t.index hash k) (chainPut eq k v (t.bucket (t.index hash k)))⟩

/-- `m.erase(k)` -/
def HashTable.erase {K V : Type} (eq : K → K → Bool) (hash : K → BitVec 64) (t : HashTable K V) (k : K) : HashTable K V :=
  ⟨t.n, t.pos, Function.update t.bucket (t.index hash k) (chainErase eq k (t.bucket (t.index hash k)))⟩

/-- All pairs, list by list. -/
def HashTable.entries {K V : Type} (t : HashTable K V) : List (K × V) := (List.finRange t.n).flatMap t.bucket

/-- `m.rehash(n)`: all pairs are put into a new table with `n` lists. -/
def HashTable.rehash {K V : Type} (eq : K → K → Bool) (hash : K → BitVec 64) (t : HashTable K V) (n : ℕ) (pos : 0 < n) :
    HashTable K V :=
  t.entries.foldl (fun s e => s.put eq hash e.1 e.2) (HashTable.empty n pos)

/-- `HashRuns eq hash ops t`: a table, created empty with some number of lists, is `t` after the updates `ops` if it is rehashed at
any moments to any numbers of lists. -/
inductive HashRuns {K V : Type} (eq : K → K → Bool) (hash : K → BitVec 64) : List (MapOp K V) → HashTable K V → Prop
  | start (n : ℕ) (pos : 0 < n) : HashRuns eq hash [] (.empty n pos)
  | put {ops t} (k : K) (v : V) (h : HashRuns eq hash ops t) : HashRuns eq hash (ops ++ [.put k v]) (t.put eq hash k v)
  | erase {ops t} (k : K) (h : HashRuns eq hash ops t) : HashRuns eq hash (ops ++ [.erase k]) (t.erase eq hash k)
  | rehash {ops t} (n : ℕ) (pos : 0 < n) (h : HashRuns eq hash ops t) : HashRuns eq hash ops (t.rehash eq hash n pos)

/-! ## A search tree -/

/-- A binary tree with a key and a value at each node. -/
inductive SearchTree (K V : Type) where
  | leaf
  | node (l : SearchTree K V) (k : K) (v : V) (r : SearchTree K V)

/-- The pairs in the order in which an iterator visits them. -/
def SearchTree.visit {K V : Type} : SearchTree K V → List (K × V)
  | leaf => []
  | node l k v r => l.visit ++ (k, v) :: r.visit

/-- `m.find(k)`: left if `k < a`, right if `a < k`, found otherwise. -/
def SearchTree.find {K V : Type} (lt : K → K → Bool) (k : K) : SearchTree K V → Option V
  | leaf => none
  | node l a v r => if lt k a then l.find lt k else if lt a k then r.find lt k else some v

/-- `m[k] = v` -/
def SearchTree.put {K V : Type} (lt : K → K → Bool) (k : K) (v : V) : SearchTree K V → SearchTree K V
  | leaf => node leaf k v leaf
  | node l a x r =>
    if lt k a then node (l.put lt k v) a x r else if lt a k then node l a x (r.put lt k v) else node l a v r

/-- The second tree hung below the last node of the first one. -/
def SearchTree.join {K V : Type} : SearchTree K V → SearchTree K V → SearchTree K V
  | leaf, s => s
  | node l a x r, s => node l a x (r.join s)

/-- `m.erase(k)` -/
def SearchTree.erase {K V : Type} (lt : K → K → Bool) (k : K) : SearchTree K V → SearchTree K V
  | leaf => leaf
  | node l a x r =>
    if lt k a then node (l.erase lt k) a x r else if lt a k then node l a x (r.erase lt k) else l.join r

/-- `TreeRuns lt ops t`: a tree, created empty, can be `t` after the updates `ops` if it is rebalanced at any moments, in any way that
keeps the order of its nodes. -/
inductive TreeRuns {K V : Type} (lt : K → K → Bool) : List (MapOp K V) → SearchTree K V → Prop
  | start : TreeRuns lt [] .leaf
  | put {ops t} (k : K) (v : V) (h : TreeRuns lt ops t) : TreeRuns lt (ops ++ [.put k v]) (t.put lt k v)
  | erase {ops t} (k : K) (h : TreeRuns lt ops t) : TreeRuns lt (ops ++ [.erase k]) (t.erase lt k)
  | rebalance {ops t s} (h : TreeRuns lt ops t) (e : s.visit = t.visit) : TreeRuns lt ops s

end Zcm
