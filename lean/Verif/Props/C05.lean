import Verif.Spec.Coord

/-!
# C05: subscripting is exact and out-of-range indices are stopped

The full claim is `SubscriptSpec` / `MatSubscriptSpec`.  It holds for vec3, vec4, ivec3, ivec4,
bvec3, bvec4, quat, mat3, mat4.  It is **false** for vec2, ivec2 and bvec2 (and for the rows of
mat2): their assertion is `val < 3` (src/vec2.cpp:104,110, src/ivec2.cpp:108,114,
src/bvec2.cpp:135,147), so index 2 passes it in a debug build.  For these types the negation is
proved together with a `_partial` theorem that covers every other index.
-/

namespace Zcm

/-- Claim C05 for a type with components `coord` and subscript operators `at` / `set`. -/
def SubscriptSpec {V : Type → Type} {n : ℕ} [Coords V n] {β : Type}
    (at' : Build → V β → UInt32 → Res β) (set' : Build → V β → UInt32 → β → Res (V β)) : Prop :=
  (∀ b v (i : UInt32) (h : i.toNat < n), at' b v i = .ok (coord v ⟨i.toNat, h⟩)) ∧
  (∀ b v (i : UInt32) (h : i.toNat < n) a, ∃ r, set' b v i a = .ok r ∧
    ∀ j, coord r j = if j = ⟨i.toNat, h⟩ then a else coord v j) ∧
  (∀ v (i : UInt32) a, n ≤ i.toNat →
    at' .debug v i = .abort ∧ set' .debug v i a = .abort)

/-- What is left of it when indices from `n` up to `m - 1` are let through by the assertion. -/
def SubscriptSpecFrom {V : Type → Type} {n : ℕ} [Coords V n] {β : Type} (m : ℕ)
    (at' : Build → V β → UInt32 → Res β) (set' : Build → V β → UInt32 → β → Res (V β)) : Prop :=
  (∀ b v (i : UInt32) (h : i.toNat < n), at' b v i = .ok (coord v ⟨i.toNat, h⟩)) ∧
  (∀ b v (i : UInt32) (h : i.toNat < n) a, ∃ r, set' b v i a = .ok r ∧
    ∀ j, coord r j = if j = ⟨i.toNat, h⟩ then a else coord v j) ∧
  (∀ v (i : UInt32) a, m ≤ i.toNat →
    at' .debug v i = .abort ∧ set' .debug v i a = .abort)

/-- Claim C05 for matrices, where `at` yields a column. -/
def MatSubscriptSpec {M V : Type → Type} {n : ℕ} [Entries M n] [Coords V n] {β : Type}
    (at' : Build → M β → UInt32 → Res (V β))
    (set' : Build → M β → UInt32 → V β → Res (M β)) : Prop :=
  (∀ b m (i : UInt32) (h : i.toNat < n), ∃ col, at' b m i = .ok col ∧
    ∀ r, coord col r = entry m ⟨i.toNat, h⟩ r) ∧
  (∀ b m (i : UInt32) (h : i.toNat < n) v, ∃ m', set' b m i v = .ok m' ∧
    ∀ c r, entry m' c r = if c = ⟨i.toNat, h⟩ then coord v r else entry m c r) ∧
  (∀ m (i : UInt32), n ≤ i.toNat →
    at' .debug m i = .abort ∧ ∀ v, set' .debug m i v = .abort)

/-- Claim C05 for single matrix entries `m[c][r]`; rows from `m` on must be stopped. -/
def EntrySpecFrom {M : Type → Type} {n : ℕ} [Entries M n] {β : Type} (rows : ℕ)
    (get' : Build → M β → UInt32 → UInt32 → Res β)
    (set' : Build → M β → UInt32 → UInt32 → β → Res (M β)) : Prop :=
  (∀ b m (c r : UInt32) (hc : c.toNat < n) (hr : r.toNat < n),
    get' b m c r = .ok (entry m ⟨c.toNat, hc⟩ ⟨r.toNat, hr⟩)) ∧
  (∀ b m (c r : UInt32) (hc : c.toNat < n) (hr : r.toNat < n) a, ∃ m',
    set' b m c r a = .ok m' ∧
    ∀ c' r', entry m' c' r' =
      if c' = ⟨c.toNat, hc⟩ ∧ r' = ⟨r.toNat, hr⟩ then a else entry m c' r') ∧
  (∀ m (c r : UInt32) a, n ≤ c.toNat ∨ rows ≤ r.toNat →
    get' .debug m c r = .abort ∧ set' .debug m c r a = .abort)

private theorem eq_of_toNat {i : UInt32} {k : ℕ} (h : i.toNat = k) : i = UInt32.ofNat k := by
  subst h; simp

private theorem cases2 {i : UInt32} (h : i.toNat < 2) : i = 0 ∨ i = 1 := by
  have : i.toNat = 0 ∨ i.toNat = 1 := by omega
  rcases this with h | h
  · exact Or.inl (eq_of_toNat h)
  · exact Or.inr (eq_of_toNat h)

private theorem cases3 {i : UInt32} (h : i.toNat < 3) : i = 0 ∨ i = 1 ∨ i = 2 := by
  have : i.toNat = 0 ∨ i.toNat = 1 ∨ i.toNat = 2 := by omega
  rcases this with h | h | h
  · exact Or.inl (eq_of_toNat h)
  · exact Or.inr (Or.inl (eq_of_toNat h))
  · exact Or.inr (Or.inr (eq_of_toNat h))

private theorem cases4 {i : UInt32} (h : i.toNat < 4) : i = 0 ∨ i = 1 ∨ i = 2 ∨ i = 3 := by
  have : i.toNat = 0 ∨ i.toNat = 1 ∨ i.toNat = 2 ∨ i.toNat = 3 := by omega
  rcases this with h | h | h | h
  · exact Or.inl (eq_of_toNat h)
  · exact Or.inr (Or.inl (eq_of_toNat h))
  · exact Or.inr (Or.inr (Or.inl (eq_of_toNat h)))
  · exact Or.inr (Or.inr (Or.inr (eq_of_toNat h)))

private theorem stop3 {i : UInt32} (h : 3 ≤ i.toNat) : cassert .debug (i < 3) = .abort := by
  have : ¬ i < 3 := by rw [UInt32.lt_iff_toNat_lt]; simpa [Nat.succ_le_iff] using h
  simp [cassert, this]

private theorem stop2 {i : UInt32} (h : 2 ≤ i.toNat) : cassert .debug (i < 2) = .abort := by
  have : ¬ i < 2 := by rw [UInt32.lt_iff_toNat_lt]; simpa [Nat.succ_le_iff] using h
  simp [cassert, this]

private theorem stop4 {i : UInt32} (h : 4 ≤ i.toNat) : cassert .debug (i < 4) = .abort := by
  have : ¬ i < 4 := by rw [UInt32.lt_iff_toNat_lt]; simpa [Nat.succ_le_iff] using h
  simp [cassert, this]

variable {α : Type}

private theorem SubscriptSpec.from {V : Type → Type} {n : ℕ} [Coords V n] {β : Type}
    {at' : Build → V β → UInt32 → Res β} {set' : Build → V β → UInt32 → β → Res (V β)}
    (h : SubscriptSpec at' set') : SubscriptSpecFrom n at' set' := h

private theorem entry_of_columns {M V : Type → Type} {n k : ℕ} [Entries M n] [Coords V n]
    {β : Type} {at' : Build → M β → UInt32 → Res (V β)}
    {set' : Build → M β → UInt32 → V β → Res (M β)}
    {atV : Build → V β → UInt32 → Res β} {setV : Build → V β → UInt32 → β → Res (V β)}
    {get : Build → M β → UInt32 → UInt32 → Res β}
    {put : Build → M β → UInt32 → UInt32 → β → Res (M β)}
    (hm : MatSubscriptSpec at' set') (hv : SubscriptSpecFrom k atV setV)
    (hg : ∀ b m c r, get b m c r = (at' b m c >>= fun col => atV b col r))
    (hp : ∀ b m c r a, put b m c r a =
      (at' b m c >>= fun col => setV b col r a >>= fun col' => set' b m c col')) :
    EntrySpecFrom k get put := by
  obtain ⟨m1, m2, m3⟩ := hm
  obtain ⟨v1, v2, v3⟩ := hv
  refine ⟨fun b m c r hc hr => ?_, fun b m c r hc hr a => ?_, fun m c r a h => ?_⟩
  · obtain ⟨col, h1, h2⟩ := m1 b m c hc
    rw [hg, h1, Res.ok_bind, v1 b col r hr, h2]
  · obtain ⟨col, h1, h2⟩ := m1 b m c hc
    obtain ⟨col', h3, h4⟩ := v2 b col r hr a
    obtain ⟨m', h5, h6⟩ := m2 b m c hc col'
    refine ⟨m', by rw [hp, h1, Res.ok_bind, h3, Res.ok_bind, h5], fun c' r' => ?_⟩
    rw [h6, h4, h2]
    by_cases e : c' = ⟨c.toNat, hc⟩
    · subst e; simp
    · simp [e]
  · rw [hg, hp]
    by_cases hc : n ≤ c.toNat
    · rw [(m3 m c hc).1]
      exact ⟨rfl, rfl⟩
    · obtain ⟨col, h1, h2⟩ := m1 .debug m c (by omega)
      have hr : k ≤ r.toNat := by omega
      rw [h1, Res.ok_bind, Res.ok_bind, (v3 col r a hr).1, (v3 col r a hr).2, Res.abort_bind]
      exact ⟨rfl, rfl⟩

/-- C05 for `vec3` -/
theorem C05_vec3 : SubscriptSpec (@V3.at α) (@V3.set α) := by
  refine ⟨fun b v i h => ?_, fun b v i h a => ?_, fun v i a h => ?_⟩
  · rcases cases3 h with rfl | rfl | rfl <;> cases b <;> rfl
  · rcases cases3 h with rfl | rfl | rfl <;> cases b <;>
      exact ⟨_, rfl, fun j => by fin_cases j <;> rfl⟩
  · simp [V3.at, V3.set, stop3 h]

/-- C05 for `vec4` -/
theorem C05_vec4 : SubscriptSpec (@V4.at α) (@V4.set α) := by
  refine ⟨fun b v i h => ?_, fun b v i h a => ?_, fun v i a h => ?_⟩
  · rcases cases4 h with rfl | rfl | rfl | rfl <;> cases b <;> rfl
  · rcases cases4 h with rfl | rfl | rfl | rfl <;> cases b <;>
      exact ⟨_, rfl, fun j => by fin_cases j <;> rfl⟩
  · simp [V4.at, V4.set, stop4 h]

/-- C05 for `ivec3` -/
theorem C05_ivec3 : SubscriptSpec (@IV3.at) (@IV3.set) := by
  refine ⟨fun b v i h => ?_, fun b v i h a => ?_, fun v i a h => ?_⟩
  · rcases cases3 h with rfl | rfl | rfl <;> cases b <;> rfl
  · rcases cases3 h with rfl | rfl | rfl <;> cases b <;>
      exact ⟨_, rfl, fun j => by fin_cases j <;> rfl⟩
  · simp [IV3.at, IV3.set, stop3 h]

/-- C05 for `ivec4` -/
theorem C05_ivec4 : SubscriptSpec (@IV4.at) (@IV4.set) := by
  refine ⟨fun b v i h => ?_, fun b v i h a => ?_, fun v i a h => ?_⟩
  · rcases cases4 h with rfl | rfl | rfl | rfl <;> cases b <;> rfl
  · rcases cases4 h with rfl | rfl | rfl | rfl <;> cases b <;>
      exact ⟨_, rfl, fun j => by fin_cases j <;> rfl⟩
  · simp [IV4.at, IV4.set, stop4 h]

/-- C05 for `bvec3` -/
theorem C05_bvec3 : SubscriptSpec (@BV3.at) (@BV3.set) := by
  refine ⟨fun b v i h => ?_, fun b v i h a => ?_, fun v i a h => ?_⟩
  · rcases cases3 h with rfl | rfl | rfl <;> cases b <;> rfl
  · rcases cases3 h with rfl | rfl | rfl <;> cases b <;>
      exact ⟨_, rfl, fun j => by fin_cases j <;> rfl⟩
  · simp [BV3.at, BV3.set, stop3 h]

/-- C05 for `bvec4` -/
theorem C05_bvec4 : SubscriptSpec (@BV4.at) (@BV4.set) := by
  refine ⟨fun b v i h => ?_, fun b v i h a => ?_, fun v i a h => ?_⟩
  · rcases cases4 h with rfl | rfl | rfl | rfl <;> cases b <;> rfl
  · rcases cases4 h with rfl | rfl | rfl | rfl <;> cases b <;>
      exact ⟨_, rfl, fun j => by fin_cases j <;> rfl⟩
  · simp [BV4.at, BV4.set, stop4 h]

/-- C05 for `quat` -/
theorem C05_quat : SubscriptSpec (@Quat.at α) (@Quat.set α) := by
  refine ⟨fun b v i h => ?_, fun b v i h a => ?_, fun v i a h => ?_⟩
  · rcases cases4 h with rfl | rfl | rfl | rfl <;> cases b <;> rfl
  · rcases cases4 h with rfl | rfl | rfl | rfl <;> cases b <;>
      exact ⟨_, rfl, fun j => by fin_cases j <;> rfl⟩
  · simp [Quat.at, Quat.set, stop4 h]

/-- C05 for `vec2`: every index except 2. -/
theorem C05_vec2_partial : SubscriptSpecFrom 3 (@V2.at α) (@V2.set α) := by
  refine ⟨fun b v i h => ?_, fun b v i h a => ?_, fun v i a h => ?_⟩
  · rcases cases2 h with rfl | rfl <;> cases b <;> rfl
  · rcases cases2 h with rfl | rfl <;> cases b <;>
      exact ⟨_, rfl, fun j => by fin_cases j <;> rfl⟩
  · simp [V2.at, V2.set, stop3 h]

/-- The full claim is false for `vec2`: index 2 passes the assertion of a debug build. -/
theorem C05_vec2_false [Nonempty α] : ¬ SubscriptSpec (@V2.at α) (@V2.set α) := by
  obtain ⟨x⟩ := ‹Nonempty α›
  rintro ⟨-, -, h⟩
  have := (h ⟨x, x⟩ 2 x (by decide)).1
  exact absurd this (by simp [V2.at, cassert])

/-- What really happens at index 2, in every build: memory outside the vector is accessed. -/
theorem C05_vec2_index2 (b : Build) (v : V2 α) (a : α) :
    V2.at b v 2 = .ub ∧ V2.set b v 2 a = .ub := by cases b <;> exact ⟨rfl, rfl⟩

/-- C05 for `ivec2`: every index except 2. -/
theorem C05_ivec2_partial : SubscriptSpecFrom 3 (@IV2.at) (@IV2.set) := by
  refine ⟨fun b v i h => ?_, fun b v i h a => ?_, fun v i a h => ?_⟩
  · rcases cases2 h with rfl | rfl <;> cases b <;> rfl
  · rcases cases2 h with rfl | rfl <;> cases b <;>
      exact ⟨_, rfl, fun j => by fin_cases j <;> rfl⟩
  · simp [IV2.at, IV2.set, stop3 h]

/-- The full claim is false for `ivec2`: index 2 passes the assertion of a debug build. -/
theorem C05_ivec2_false : ¬ SubscriptSpec IV2.at IV2.set := by
  rintro ⟨-, -, h⟩
  have := (h ⟨I32.lit 0, I32.lit 0⟩ 2 (I32.lit 0) (by decide)).1
  exact absurd this (by simp [IV2.at, cassert])

/-- What really happens at index 2, in every build: memory outside the vector is accessed. -/
theorem C05_ivec2_index2 (b : Build) (v : V2 I32) (a : I32) :
    IV2.at b v 2 = .ub ∧ IV2.set b v 2 a = .ub := by cases b <;> exact ⟨rfl, rfl⟩

/-- C05 for `bvec2`: every index except 2. -/
theorem C05_bvec2_partial : SubscriptSpecFrom 3 (@BV2.at) (@BV2.set) := by
  refine ⟨fun b v i h => ?_, fun b v i h a => ?_, fun v i a h => ?_⟩
  · rcases cases2 h with rfl | rfl <;> cases b <;> rfl
  · rcases cases2 h with rfl | rfl <;> cases b <;>
      exact ⟨_, rfl, fun j => by fin_cases j <;> rfl⟩
  · simp [BV2.at, BV2.set, stop3 h]

/-- The full claim is false for `bvec2`: index 2 passes the assertion of a debug build. -/
theorem C05_bvec2_false : ¬ SubscriptSpec BV2.at BV2.set := by
  rintro ⟨-, -, h⟩
  have := (h ⟨false, false⟩ 2 false (by decide)).1
  exact absurd this (by decide)

/-- What really happens at index 2, in every build: the last component is accessed. -/
theorem C05_bvec2_index2 (b : Build) (v : V2 Bool) (a : Bool) :
    BV2.at b v 2 = .ok (coord v 1) ∧ BV2.set b v 2 a = .ok ⟨coord v 0, a⟩ := by
  cases b <;> exact ⟨rfl, rfl⟩

/-- C05 for the columns of `mat2`. -/
theorem C05_mat2 : MatSubscriptSpec (@M2.at α) (@M2.set α) := by
  refine ⟨fun b v i h => ?_, fun b v i h a => ?_, fun v i h => ?_⟩
  · rcases cases2 h with rfl | rfl <;> cases b <;> exact ⟨_, rfl, fun j => rfl⟩
  · rcases cases2 h with rfl | rfl <;> cases b <;>
      exact ⟨_, rfl, fun j k => by fin_cases j <;> rfl⟩
  · simp [M2.at, M2.set, stop2 h]

/-- C05 for the columns of `mat3`. -/
theorem C05_mat3 : MatSubscriptSpec (@M3.at α) (@M3.set α) := by
  refine ⟨fun b v i h => ?_, fun b v i h a => ?_, fun v i h => ?_⟩
  · rcases cases3 h with rfl | rfl | rfl <;> cases b <;> exact ⟨_, rfl, fun j => rfl⟩
  · rcases cases3 h with rfl | rfl | rfl <;> cases b <;>
      exact ⟨_, rfl, fun j k => by fin_cases j <;> rfl⟩
  · simp [M3.at, M3.set, stop3 h]

/-- C05 for the columns of `mat4`. -/
theorem C05_mat4 : MatSubscriptSpec (@M4.at α) (@M4.set α) := by
  refine ⟨fun b v i h => ?_, fun b v i h a => ?_, fun v i h => ?_⟩
  · rcases cases4 h with rfl | rfl | rfl | rfl <;> cases b <;> exact ⟨_, rfl, fun j => rfl⟩
  · rcases cases4 h with rfl | rfl | rfl | rfl <;> cases b <;>
      exact ⟨_, rfl, fun j k => by fin_cases j <;> rfl⟩
  · simp [M4.at, M4.set, stop4 h]

/-- C05 for single entries of `mat2`. Missing for the full claim: row index 2 is not stopped (see `C05_mat2_row2`). -/
theorem C05_mat2_entry_partial : EntrySpecFrom 3 (@M2.entry α) (@M2.setEntry α) :=
  entry_of_columns C05_mat2 C05_vec2_partial (fun _ _ _ _ => rfl) (fun _ _ _ _ _ => rfl)

/-- C05 for single entries of `mat3`. -/
theorem C05_mat3_entry : EntrySpecFrom 3 (@M3.entry α) (@M3.setEntry α) :=
  entry_of_columns C05_mat3 C05_vec3.from (fun _ _ _ _ => rfl) (fun _ _ _ _ _ => rfl)

/-- C05 for single entries of `mat4`. -/
theorem C05_mat4_entry : EntrySpecFrom 4 (@M4.entry α) (@M4.setEntry α) :=
  entry_of_columns C05_mat4 C05_vec4.from (fun _ _ _ _ => rfl) (fun _ _ _ _ _ => rfl)

/-- Row index 2 of a `mat2` is not stopped in a debug build: it is undefined behaviour. -/
theorem C05_mat2_row2 (m : M2 α) (a : α) :
    M2.entry .debug m 0 2 = .ub ∧ M2.setEntry .debug m 0 2 a = .ub := ⟨rfl, rfl⟩

/-- Non-vacuity: in-range and out-of-range subscripts of a concrete vector. -/
example : V3.at .debug (⟨10, 20, 30⟩ : V3 ℤ) 1 = .ok 20 ∧
    V3.at .debug (⟨10, 20, 30⟩ : V3 ℤ) 3 = .abort ∧
    V3.set .release (⟨10, 20, 30⟩ : V3 ℤ) 2 7 = .ok ⟨10, 20, 7⟩ := by decide +kernel

end Zcm
