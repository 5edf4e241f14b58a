import Verif.Lemmas.F32Cull
import Verif.Spec.Cull
import Verif.Props.C81
import Verif.Props.C132

/-!
# C149: boxes and planes

Caller code. The side of the plane with normal `n` and offset `d` on which `x` is, is the sign of `dot(n, x) + d`. The corner of the box from
`lo` to `hi` farthest in the direction of `n` is `mix(lo, hi, greaterThan(n, vec3(0.0f)))`, the nearest one has `lo` and `hi` exchanged. A box is
culled if for one of the planes its farthest corner is on the negative side.
-/

set_option exponentiation.threshold 300

namespace Zcm

open F32


/-- Caller code for vec2: the plane test. -/
def side2 (n : V2 F32) (d : F32) (x : V2 F32) : F32 := V2.dot n x + d

/-- Caller code for vec2: the corner farthest in the direction of `n`. -/
def farCorner2 (lo hi n : V2 F32) : V2 F32 := V2.mixB lo hi (V2.greaterThan n (V2.splat (lit 0)))

/-- Caller code for vec2: the box is culled by one of the planes. -/
def culled2 (lo hi : V2 F32) (planes : List (V2 F32 × F32)) : Prop := ∃ p ∈ planes, side2 p.1 p.2 (farCorner2 lo hi p.1) < lit 0

private theorem far2 (lo hi n : V2 F32) (i : Fin 2) : coord (farCorner2 lo hi n) i = F.mixB (coord lo i) (coord hi i) (decide (coord n i > lit 0)) := by
  fin_cases i <;> rfl

private theorem dot_le2 {n x y : V2 F32} {d : F32} (h : ∀ i, coord n i * coord x i ≤ coord n i * coord y i)
    (fx : (V2.dot n x).IsFin = true) (fy : (V2.dot n y).IsFin = true) (fd : d.IsFin = true) : side2 n d x ≤ side2 n d y := by
  have a1 := add_le' (h 0) (h 1) (isFin_ne_nan fx) (isFin_ne_nan fy)
  exact add_le' a1 (le_refl' (isFin_ne_nan fd)) (add_fin_ne_nan fx (isFin_ne_nan fd)) (add_fin_ne_nan fy (isFin_ne_nan fd))

private theorem finite2 {lo hi n x : V2 F32} {d : F32} (g : OrdinaryCull (coord lo) (coord hi) (coord n) d) (hx : InsideBox (coord lo) (coord hi) (coord x)) :
    (V2.dot n x).IsFin = true :=
  (isFin_of_add (near_plane g (by norm_num) hx (C81_dot_vec2 n x).1).1).1

/-- C149, vec2: no point of the box is farther in the direction of the normal, as computed, than the far corner, or nearer than the near corner. -/
theorem C149_vec2_corner (lo hi n x : V2 F32) (d : F32) (g : OrdinaryCull (coord lo) (coord hi) (coord n) d)
    (hx : InsideBox (coord lo) (coord hi) (coord x)) :
    side2 n d x ≤ side2 n d (farCorner2 lo hi n) ∧ side2 n d (farCorner2 hi lo n) ≤ side2 n d x := by
  have c := fun i => corner_coordinate (g.fin i).2.2 (g.fin i).1 (g.fin i).2.1 (hx i).1 (hx i).2.1 (hx i).2.2
  have n1 : InsideBox (coord lo) (coord hi) (coord (farCorner2 hi lo n)) := fun i => by
    rw [far2]
    unfold F.mixB
    split_ifs
    · exact ⟨(g.fin i).1, le_refl' (isFin_ne_nan (g.fin i).1), g.ordered i⟩
    · exact ⟨(g.fin i).2.1, g.ordered i, le_refl' (isFin_ne_nan (g.fin i).2.1)⟩
  exact ⟨dot_le2 (fun i => by rw [far2]; exact (c i).1) (finite2 g hx) (finite2 g (corner_inside g (far2 lo hi n))) g.d_fin,
    dot_le2 (fun i => by rw [far2]; exact (c i).2) (finite2 g n1) (finite2 g hx) g.d_fin⟩

/-- C149, vec2: culling is safe. If a box is culled by a list of planes, then every point of the box is on the negative side of one of the
planes, as computed; and if the near corner is on no negative side, no point of the box is. -/
theorem C149_vec2_cull (lo hi x : V2 F32) (planes : List (V2 F32 × F32)) (g : ∀ p ∈ planes, OrdinaryCull (coord lo) (coord hi) (coord p.1) p.2)
    (hx : InsideBox (coord lo) (coord hi) (coord x)) :
    (culled2 lo hi planes → ∃ p ∈ planes, side2 p.1 p.2 x < lit 0) ∧
    ((∀ p ∈ planes, lit 0 ≤ side2 p.1 p.2 (farCorner2 hi lo p.1)) → ∀ p ∈ planes, lit 0 ≤ side2 p.1 p.2 x) :=
  ⟨fun ⟨p, m, h⟩ => ⟨p, m, lt_zero_of_le (C149_vec2_corner lo hi p.1 x p.2 (g p m) hx).1 h⟩,
    fun h p m => le_trans_f (h p m) (C149_vec2_corner lo hi p.1 x p.2 (g p m) hx).2⟩

/-- C149, vec2: culling agrees in a hierarchy. If a box is culled, so is every box inside it. -/
theorem C149_vec2_nested (lo hi lo' hi' : V2 F32) (planes : List (V2 F32 × F32)) (g : ∀ p ∈ planes, OrdinaryCull (coord lo) (coord hi) (coord p.1) p.2)
    (h1 : InsideBox (coord lo) (coord hi) (coord lo')) (h2 : InsideBox (coord lo) (coord hi) (coord hi')) (h : culled2 lo hi planes) :
    culled2 lo' hi' planes := by
  obtain ⟨p, m, s⟩ := h
  refine ⟨p, m, lt_zero_of_le (C149_vec2_corner lo hi p.1 _ p.2 (g p m) fun i => ?_).1 s⟩
  rw [far2]
  unfold F.mixB
  split_ifs
  · exact h2 i
  · exact h1 i

/-- C149, vec2: the decision is right up to rounding. If the computed far corner is on the negative side, every exact point of the box is on
the negative side up to the error; if every exact point is on the negative side by more than the error, the computed far corner is. -/
theorem C149_vec2_decision (lo hi n : V2 F32) (d : F32) (g : OrdinaryCull (coord lo) (coord hi) (coord n) d) :
    let E := 5.1 / 2 ^ 24 * planeScale (coord lo) (coord hi) (coord n) d + 1 / 2 ^ 146
    (side2 n d (farCorner2 lo hi n) < lit 0 →
      ∀ x : Fin 2 → ℝ, (∀ i, ((coord lo i).val : ℝ) ≤ x i ∧ x i ≤ (coord hi i).val) → exactSide (coord n) d x < E) ∧
    ((∀ x : Fin 2 → ℝ, (∀ i, ((coord lo i).val : ℝ) ≤ x i ∧ x i ≤ (coord hi i).val) → exactSide (coord n) d x < -E) →
      side2 n d (farCorner2 lo hi n) < lit 0) := by
  intro E
  have ins := corner_inside g (far2 lo hi n)
  have near : Near (side2 n d (farCorner2 lo hi n)) (exactSide (coord n) d fun i => (coord (farCorner2 lo hi n) i).val) E :=
    near_plane g (by norm_num) ins (C81_dot_vec2 n _).1
  have z : (lit 0 : F32).val = 0 := by decide +kernel
  have k := abs_le.1 near.2
  constructor
  · intro h x hx
    have l := key_lt_iff.1 h.2.2
    rw [z] at l
    have l : ((side2 n d (farCorner2 lo hi n)).val : ℝ) < 0 := by exact_mod_cast l
    have := exactSide_le (d := d) (fun i => (g.fin i).2.2) (far2 lo hi n) hx
    linarith
  · intro h
    have := h (fun i => (coord (farCorner2 lo hi n) i).val) fun i => by
      have a := key_le_iff.1 (ins i).2.1.2.2
      have b := key_le_iff.1 (ins i).2.2.2.2
      exact ⟨by exact_mod_cast a, by exact_mod_cast b⟩
    have l : ((side2 n d (farCorner2 lo hi n)).val : ℝ) < 0 := by linarith
    refine ⟨isFin_ne_nan near.1, by decide +kernel, key_lt_iff.2 ?_⟩
    rw [z]; exact_mod_cast l

/-- The box, planes and point meet the hypotheses of the theorems, and the box is culled by the second plane. -/
example : let lo : V2 F32 := ⟨lit (-1), lit 2⟩
    let hi : V2 F32 := ⟨lit 3, lit 5⟩
    let planes : List (V2 F32 × F32) := [(⟨lit 1, lit 0⟩, lit 9), (⟨lit 1, lit (-2)⟩, lit (1/2))]
    (∀ p ∈ planes, OrdinaryCull (coord lo) (coord hi) (coord p.1) p.2) ∧ culled2 lo hi planes ∧
      InsideBox (coord lo) (coord hi) (coord (⟨lit 2, lit 3⟩ : V2 F32)) := by
  refine ⟨?_, ⟨_, List.mem_cons_of_mem _ (List.mem_singleton_self _), by decide +kernel⟩, by unfold InsideBox; decide +kernel⟩
  simp only [List.forall_mem_cons]
  refine ⟨⟨?_, ?_, ?_, ?_, ?_, ?_, ?_⟩, ⟨?_, ?_, ?_, ?_, ?_, ?_, ?_⟩, fun _ m => by cases m⟩ <;> decide +kernel

/-- Caller code for vec3: the plane test. -/
def side3 (n : V3 F32) (d : F32) (x : V3 F32) : F32 := V3.dot n x + d

/-- Caller code for vec3: the corner farthest in the direction of `n`. -/
def farCorner3 (lo hi n : V3 F32) : V3 F32 := V3.mixB lo hi (V3.greaterThan n (V3.splat (lit 0)))

/-- Caller code for vec3: the box is culled by one of the planes. -/
def culled3 (lo hi : V3 F32) (planes : List (V3 F32 × F32)) : Prop := ∃ p ∈ planes, side3 p.1 p.2 (farCorner3 lo hi p.1) < lit 0

private theorem far3 (lo hi n : V3 F32) (i : Fin 3) : coord (farCorner3 lo hi n) i = F.mixB (coord lo i) (coord hi i) (decide (coord n i > lit 0)) := by
  fin_cases i <;> rfl

private theorem dot_le3 {n x y : V3 F32} {d : F32} (h : ∀ i, coord n i * coord x i ≤ coord n i * coord y i)
    (fx : (V3.dot n x).IsFin = true) (fy : (V3.dot n y).IsFin = true) (fd : d.IsFin = true) : side3 n d x ≤ side3 n d y := by
  have x2 : (coord n 0 * coord x 0 + coord n 1 * coord x 1).IsFin = true := (isFin_of_add fx).1
  have y2 : (coord n 0 * coord y 0 + coord n 1 * coord y 1).IsFin = true := (isFin_of_add fy).1
  have a1 := add_le' (add_le' (h 0) (h 1) (isFin_ne_nan x2) (isFin_ne_nan y2)) (h 2) (isFin_ne_nan fx) (isFin_ne_nan fy)
  exact add_le' a1 (le_refl' (isFin_ne_nan fd)) (add_fin_ne_nan fx (isFin_ne_nan fd)) (add_fin_ne_nan fy (isFin_ne_nan fd))

private theorem finite3 {lo hi n x : V3 F32} {d : F32} (g : OrdinaryCull (coord lo) (coord hi) (coord n) d) (hx : InsideBox (coord lo) (coord hi) (coord x)) :
    (V3.dot n x).IsFin = true :=
  (isFin_of_add (near_plane g (by norm_num) hx (C81_dot_vec3 n x).1).1).1

/-- C149, vec3: no point of the box is farther in the direction of the normal, as computed, than the far corner, or nearer than the near corner. -/
theorem C149_vec3_corner (lo hi n x : V3 F32) (d : F32) (g : OrdinaryCull (coord lo) (coord hi) (coord n) d)
    (hx : InsideBox (coord lo) (coord hi) (coord x)) :
    side3 n d x ≤ side3 n d (farCorner3 lo hi n) ∧ side3 n d (farCorner3 hi lo n) ≤ side3 n d x := by
  have c := fun i => corner_coordinate (g.fin i).2.2 (g.fin i).1 (g.fin i).2.1 (hx i).1 (hx i).2.1 (hx i).2.2
  have n1 : InsideBox (coord lo) (coord hi) (coord (farCorner3 hi lo n)) := fun i => by
    rw [far3]
    unfold F.mixB
    split_ifs
    · exact ⟨(g.fin i).1, le_refl' (isFin_ne_nan (g.fin i).1), g.ordered i⟩
    · exact ⟨(g.fin i).2.1, g.ordered i, le_refl' (isFin_ne_nan (g.fin i).2.1)⟩
  exact ⟨dot_le3 (fun i => by rw [far3]; exact (c i).1) (finite3 g hx) (finite3 g (corner_inside g (far3 lo hi n))) g.d_fin,
    dot_le3 (fun i => by rw [far3]; exact (c i).2) (finite3 g n1) (finite3 g hx) g.d_fin⟩

/-- C149, vec3: culling is safe. If a box is culled by a list of planes, then every point of the box is on the negative side of one of the
planes, as computed; and if the near corner is on no negative side, no point of the box is. -/
theorem C149_vec3_cull (lo hi x : V3 F32) (planes : List (V3 F32 × F32)) (g : ∀ p ∈ planes, OrdinaryCull (coord lo) (coord hi) (coord p.1) p.2)
    (hx : InsideBox (coord lo) (coord hi) (coord x)) :
    (culled3 lo hi planes → ∃ p ∈ planes, side3 p.1 p.2 x < lit 0) ∧
    ((∀ p ∈ planes, lit 0 ≤ side3 p.1 p.2 (farCorner3 hi lo p.1)) → ∀ p ∈ planes, lit 0 ≤ side3 p.1 p.2 x) :=
  ⟨fun ⟨p, m, h⟩ => ⟨p, m, lt_zero_of_le (C149_vec3_corner lo hi p.1 x p.2 (g p m) hx).1 h⟩,
    fun h p m => le_trans_f (h p m) (C149_vec3_corner lo hi p.1 x p.2 (g p m) hx).2⟩

/-- C149, vec3: culling agrees in a hierarchy. If a box is culled, so is every box inside it. -/
theorem C149_vec3_nested (lo hi lo' hi' : V3 F32) (planes : List (V3 F32 × F32)) (g : ∀ p ∈ planes, OrdinaryCull (coord lo) (coord hi) (coord p.1) p.2)
    (h1 : InsideBox (coord lo) (coord hi) (coord lo')) (h2 : InsideBox (coord lo) (coord hi) (coord hi')) (h : culled3 lo hi planes) :
    culled3 lo' hi' planes := by
  obtain ⟨p, m, s⟩ := h
  refine ⟨p, m, lt_zero_of_le (C149_vec3_corner lo hi p.1 _ p.2 (g p m) fun i => ?_).1 s⟩
  rw [far3]
  unfold F.mixB
  split_ifs
  · exact h2 i
  · exact h1 i

/-- C149, vec3: the decision is right up to rounding. If the computed far corner is on the negative side, every exact point of the box is on
the negative side up to the error; if every exact point is on the negative side by more than the error, the computed far corner is. -/
theorem C149_vec3_decision (lo hi n : V3 F32) (d : F32) (g : OrdinaryCull (coord lo) (coord hi) (coord n) d) :
    let E := 5.1 / 2 ^ 24 * planeScale (coord lo) (coord hi) (coord n) d + 1 / 2 ^ 146
    (side3 n d (farCorner3 lo hi n) < lit 0 →
      ∀ x : Fin 3 → ℝ, (∀ i, ((coord lo i).val : ℝ) ≤ x i ∧ x i ≤ (coord hi i).val) → exactSide (coord n) d x < E) ∧
    ((∀ x : Fin 3 → ℝ, (∀ i, ((coord lo i).val : ℝ) ≤ x i ∧ x i ≤ (coord hi i).val) → exactSide (coord n) d x < -E) →
      side3 n d (farCorner3 lo hi n) < lit 0) := by
  intro E
  have ins := corner_inside g (far3 lo hi n)
  have near : Near (side3 n d (farCorner3 lo hi n)) (exactSide (coord n) d fun i => (coord (farCorner3 lo hi n) i).val) E :=
    near_plane g (by norm_num) ins (C81_dot_vec3 n _).1
  have z : (lit 0 : F32).val = 0 := by decide +kernel
  have k := abs_le.1 near.2
  constructor
  · intro h x hx
    have l := key_lt_iff.1 h.2.2
    rw [z] at l
    have l : ((side3 n d (farCorner3 lo hi n)).val : ℝ) < 0 := by exact_mod_cast l
    have := exactSide_le (d := d) (fun i => (g.fin i).2.2) (far3 lo hi n) hx
    linarith
  · intro h
    have := h (fun i => (coord (farCorner3 lo hi n) i).val) fun i => by
      have a := key_le_iff.1 (ins i).2.1.2.2
      have b := key_le_iff.1 (ins i).2.2.2.2
      exact ⟨by exact_mod_cast a, by exact_mod_cast b⟩
    have l : ((side3 n d (farCorner3 lo hi n)).val : ℝ) < 0 := by linarith
    refine ⟨isFin_ne_nan near.1, by decide +kernel, key_lt_iff.2 ?_⟩
    rw [z]; exact_mod_cast l

/-- The box, planes and point meet the hypotheses of the theorems, and the box is culled by the second plane. -/
example : let lo : V3 F32 := ⟨lit (-1), lit 2, lit 0⟩
    let hi : V3 F32 := ⟨lit 3, lit 5, lit 1⟩
    let planes : List (V3 F32 × F32) := [(⟨lit 1, lit 0, lit 1⟩, lit 9), (⟨lit 1, lit (-2), lit 0⟩, lit (1/2))]
    (∀ p ∈ planes, OrdinaryCull (coord lo) (coord hi) (coord p.1) p.2) ∧ culled3 lo hi planes ∧
      InsideBox (coord lo) (coord hi) (coord (⟨lit 2, lit 3, lit 0.5⟩ : V3 F32)) := by
  refine ⟨?_, ⟨_, List.mem_cons_of_mem _ (List.mem_singleton_self _), by decide +kernel⟩, by unfold InsideBox; decide +kernel⟩
  simp only [List.forall_mem_cons]
  refine ⟨⟨?_, ?_, ?_, ?_, ?_, ?_, ?_⟩, ⟨?_, ?_, ?_, ?_, ?_, ?_, ?_⟩, fun _ m => by cases m⟩ <;> decide +kernel

/-- Caller code for vec4: the plane test. -/
def side4 (n : V4 F32) (d : F32) (x : V4 F32) : F32 := V4.dot n x + d

/-- Caller code for vec4: the corner farthest in the direction of `n`. -/
def farCorner4 (lo hi n : V4 F32) : V4 F32 := V4.mixB lo hi (V4.greaterThan n (V4.splat (lit 0)))

/-- Caller code for vec4: the box is culled by one of the planes. -/
def culled4 (lo hi : V4 F32) (planes : List (V4 F32 × F32)) : Prop := ∃ p ∈ planes, side4 p.1 p.2 (farCorner4 lo hi p.1) < lit 0

private theorem far4 (lo hi n : V4 F32) (i : Fin 4) : coord (farCorner4 lo hi n) i = F.mixB (coord lo i) (coord hi i) (decide (coord n i > lit 0)) := by
  fin_cases i <;> rfl

private theorem dot_le4 {n x y : V4 F32} {d : F32} (h : ∀ i, coord n i * coord x i ≤ coord n i * coord y i)
    (fx : (V4.dot n x).IsFin = true) (fy : (V4.dot n y).IsFin = true) (fd : d.IsFin = true) : side4 n d x ≤ side4 n d y := by
  have x3 : (coord n 0 * coord x 0 + coord n 1 * coord x 1 + coord n 2 * coord x 2).IsFin = true := (isFin_of_add fx).1
  have y3 : (coord n 0 * coord y 0 + coord n 1 * coord y 1 + coord n 2 * coord y 2).IsFin = true := (isFin_of_add fy).1
  have x2 : (coord n 0 * coord x 0 + coord n 1 * coord x 1).IsFin = true := (isFin_of_add x3).1
  have y2 : (coord n 0 * coord y 0 + coord n 1 * coord y 1).IsFin = true := (isFin_of_add y3).1
  have a1 := add_le' (add_le' (add_le' (h 0) (h 1) (isFin_ne_nan x2) (isFin_ne_nan y2)) (h 2) (isFin_ne_nan x3) (isFin_ne_nan y3)) (h 3)
    (isFin_ne_nan fx) (isFin_ne_nan fy)
  exact add_le' a1 (le_refl' (isFin_ne_nan fd)) (add_fin_ne_nan fx (isFin_ne_nan fd)) (add_fin_ne_nan fy (isFin_ne_nan fd))

private theorem finite4 {lo hi n x : V4 F32} {d : F32} (g : OrdinaryCull (coord lo) (coord hi) (coord n) d) (hx : InsideBox (coord lo) (coord hi) (coord x)) :
    (V4.dot n x).IsFin = true :=
  (isFin_of_add (near_plane g (by norm_num) hx (C81_dot_vec4 n x).1).1).1

/-- C149, vec4: no point of the box is farther in the direction of the normal, as computed, than the far corner, or nearer than the near corner. -/
theorem C149_vec4_corner (lo hi n x : V4 F32) (d : F32) (g : OrdinaryCull (coord lo) (coord hi) (coord n) d)
    (hx : InsideBox (coord lo) (coord hi) (coord x)) :
    side4 n d x ≤ side4 n d (farCorner4 lo hi n) ∧ side4 n d (farCorner4 hi lo n) ≤ side4 n d x := by
  have c := fun i => corner_coordinate (g.fin i).2.2 (g.fin i).1 (g.fin i).2.1 (hx i).1 (hx i).2.1 (hx i).2.2
  have n1 : InsideBox (coord lo) (coord hi) (coord (farCorner4 hi lo n)) := fun i => by
    rw [far4]
    unfold F.mixB
    split_ifs
    · exact ⟨(g.fin i).1, le_refl' (isFin_ne_nan (g.fin i).1), g.ordered i⟩
    · exact ⟨(g.fin i).2.1, g.ordered i, le_refl' (isFin_ne_nan (g.fin i).2.1)⟩
  exact ⟨dot_le4 (fun i => by rw [far4]; exact (c i).1) (finite4 g hx) (finite4 g (corner_inside g (far4 lo hi n))) g.d_fin,
    dot_le4 (fun i => by rw [far4]; exact (c i).2) (finite4 g n1) (finite4 g hx) g.d_fin⟩

/-- C149, vec4: culling is safe. If a box is culled by a list of planes, then every point of the box is on the negative side of one of the
planes, as computed; and if the near corner is on no negative side, no point of the box is. -/
theorem C149_vec4_cull (lo hi x : V4 F32) (planes : List (V4 F32 × F32)) (g : ∀ p ∈ planes, OrdinaryCull (coord lo) (coord hi) (coord p.1) p.2)
    (hx : InsideBox (coord lo) (coord hi) (coord x)) :
    (culled4 lo hi planes → ∃ p ∈ planes, side4 p.1 p.2 x < lit 0) ∧
    ((∀ p ∈ planes, lit 0 ≤ side4 p.1 p.2 (farCorner4 hi lo p.1)) → ∀ p ∈ planes, lit 0 ≤ side4 p.1 p.2 x) :=
  ⟨fun ⟨p, m, h⟩ => ⟨p, m, lt_zero_of_le (C149_vec4_corner lo hi p.1 x p.2 (g p m) hx).1 h⟩,
    fun h p m => le_trans_f (h p m) (C149_vec4_corner lo hi p.1 x p.2 (g p m) hx).2⟩

/-- C149, vec4: culling agrees in a hierarchy. If a box is culled, so is every box inside it. -/
theorem C149_vec4_nested (lo hi lo' hi' : V4 F32) (planes : List (V4 F32 × F32)) (g : ∀ p ∈ planes, OrdinaryCull (coord lo) (coord hi) (coord p.1) p.2)
    (h1 : InsideBox (coord lo) (coord hi) (coord lo')) (h2 : InsideBox (coord lo) (coord hi) (coord hi')) (h : culled4 lo hi planes) :
    culled4 lo' hi' planes := by
  obtain ⟨p, m, s⟩ := h
  refine ⟨p, m, lt_zero_of_le (C149_vec4_corner lo hi p.1 _ p.2 (g p m) fun i => ?_).1 s⟩
  rw [far4]
  unfold F.mixB
  split_ifs
  · exact h2 i
  · exact h1 i

/-- C149, vec4: the decision is right up to rounding. If the computed far corner is on the negative side, every exact point of the box is on
the negative side up to the error; if every exact point is on the negative side by more than the error, the computed far corner is. -/
theorem C149_vec4_decision (lo hi n : V4 F32) (d : F32) (g : OrdinaryCull (coord lo) (coord hi) (coord n) d) :
    let E := 5.1 / 2 ^ 24 * planeScale (coord lo) (coord hi) (coord n) d + 1 / 2 ^ 146
    (side4 n d (farCorner4 lo hi n) < lit 0 →
      ∀ x : Fin 4 → ℝ, (∀ i, ((coord lo i).val : ℝ) ≤ x i ∧ x i ≤ (coord hi i).val) → exactSide (coord n) d x < E) ∧
    ((∀ x : Fin 4 → ℝ, (∀ i, ((coord lo i).val : ℝ) ≤ x i ∧ x i ≤ (coord hi i).val) → exactSide (coord n) d x < -E) →
      side4 n d (farCorner4 lo hi n) < lit 0) := by
  intro E
  have ins := corner_inside g (far4 lo hi n)
  have near : Near (side4 n d (farCorner4 lo hi n)) (exactSide (coord n) d fun i => (coord (farCorner4 lo hi n) i).val) E :=
    near_plane g (by norm_num) ins (C81_dot_vec4 n _).1
  have z : (lit 0 : F32).val = 0 := by decide +kernel
  have k := abs_le.1 near.2
  constructor
  · intro h x hx
    have l := key_lt_iff.1 h.2.2
    rw [z] at l
    have l : ((side4 n d (farCorner4 lo hi n)).val : ℝ) < 0 := by exact_mod_cast l
    have := exactSide_le (d := d) (fun i => (g.fin i).2.2) (far4 lo hi n) hx
    linarith
  · intro h
    have := h (fun i => (coord (farCorner4 lo hi n) i).val) fun i => by
      have a := key_le_iff.1 (ins i).2.1.2.2
      have b := key_le_iff.1 (ins i).2.2.2.2
      exact ⟨by exact_mod_cast a, by exact_mod_cast b⟩
    have l : ((side4 n d (farCorner4 lo hi n)).val : ℝ) < 0 := by linarith
    refine ⟨isFin_ne_nan near.1, by decide +kernel, key_lt_iff.2 ?_⟩
    rw [z]; exact_mod_cast l

/-- The box, planes and point meet the hypotheses of the theorems, and the box is culled by the second plane. -/
example : let lo : V4 F32 := ⟨lit (-1), lit 2, lit 0, lit 1⟩
    let hi : V4 F32 := ⟨lit 3, lit 5, lit 1, lit 4⟩
    let planes : List (V4 F32 × F32) := [(⟨lit 1, lit 0, lit 1, lit 0⟩, lit 9), (⟨lit 1, lit (-2), lit 0, lit (-1)⟩, lit (1/2))]
    (∀ p ∈ planes, OrdinaryCull (coord lo) (coord hi) (coord p.1) p.2) ∧ culled4 lo hi planes ∧
      InsideBox (coord lo) (coord hi) (coord (⟨lit 2, lit 3, lit 0.5, lit 2⟩ : V4 F32)) := by
  refine ⟨?_, ⟨_, List.mem_cons_of_mem _ (List.mem_singleton_self _), by decide +kernel⟩, by unfold InsideBox; decide +kernel⟩
  simp only [List.forall_mem_cons]
  refine ⟨⟨?_, ?_, ?_, ?_, ?_, ?_, ?_⟩, ⟨?_, ?_, ?_, ?_, ?_, ?_, ?_⟩, fun _ m => by cases m⟩ <;> decide +kernel

end Zcm
