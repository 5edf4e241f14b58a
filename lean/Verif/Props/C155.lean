import Verif.Spec.Coord
import Verif.Spec.Bisect
import Verif.Lemmas.F32Bisect
import Mathlib.Tactic.FinCases

/-!
# C155  Halving a segment until it cannot be halved

The caller's loop is in `Spec/Bisect`. The region is any function on points whatever: nothing is assumed of it.
-/

set_option exponentiation.threshold 300

namespace Zcm

open F32

/-- Every component is finite and below `2^127`, half the range. -/
def HalfRange {n : ℕ} (p : Fin n → F32) : Prop := ∀ i, (p i).IsFin = true ∧ |(p i).val| < 2 ^ 127

private theorem coord_half2 (a b : V2 F32) (i : Fin 2) : coord (half2 a b) i = mid (coord a i) (coord b i) := by
  fin_cases i <;> rfl

private theorem same2 (a b : V2 F32) : V2.eq a b = true ↔ ∀ i, (coord a i == coord b i) = true := by
  simp only [V2.eq, Bool.and_eq_true]
  constructor
  · rintro ⟨h0, h1⟩ i
    fin_cases i
    · exact h0
    · exact h1
  · intro h; exact ⟨h 0, h 1⟩

/-- C155, `vec2`: the loop ends. From any two points in half the range, for any region, the test `m == a || m == b` succeeds after at
most 367 rounds. -/
theorem C155_vec2_ends (inside : V2 F32 → Bool) (a b : V2 F32) (ha : HalfRange (coord a)) (hb : HalfRange (coord b)) :
    ∃ n ≤ 367, bisectStops half2 V2.eq ((bisectRound half2 V2.eq inside)^[n] (a, b)) = true :=
  ⟨367, le_refl _, bisect_stops coord half2 V2.eq inside coord_half2 same2 fun i => ⟨ha i, hb i⟩⟩

/-- C155, `vec2`: what it finds. If `a` is outside and `b` is inside then at every moment the first end is outside, the second is inside,
and both are between `a` and `b` in every component. -/
theorem C155_vec2_kept (inside : V2 F32 → Bool) (a b : V2 F32) (ha : HalfRange (coord a)) (hb : HalfRange (coord b))
    (h0 : inside a = false) (h1 : inside b = true) (n : ℕ) :
    let s := (bisectRound half2 V2.eq inside)^[n] (a, b)
    inside s.1 = false ∧ inside s.2 = true ∧
    ∀ i, (min (coord a i).val (coord b i).val ≤ (coord s.1 i).val ∧ (coord s.1 i).val ≤ max (coord a i).val (coord b i).val) ∧
         (min (coord a i).val (coord b i).val ≤ (coord s.2 i).val ∧ (coord s.2 i).val ≤ max (coord a i).val (coord b i).val) := by
  have e := iterate_ends half2 V2.eq inside a b h0 h1 n
  refine ⟨e.1, e.2, fun i => ?_⟩
  have h := iterate_between coord half2 V2.eq inside coord_half2 (s := (a, b)) (fun i => ⟨ha i, hb i⟩) n i
  exact ⟨⟨le_trans h.1 (min_le_left _ _), le_trans (le_max_left _ _) h.2⟩,
    ⟨le_trans h.1 (min_le_right _ _), le_trans (le_max_right _ _) h.2⟩⟩

/-- C155, `vec2`: and how well. Whenever the test for leaving succeeds, no binary32 number lies strictly between the two ends in any
component: the segment cannot be halved further, by this loop or by any other. -/
theorem C155_vec2_adjacent (inside : V2 F32 → Bool) (a b : V2 F32) (ha : HalfRange (coord a)) (hb : HalfRange (coord b)) (n : ℕ) :
    let s := (bisectRound half2 V2.eq inside)^[n] (a, b)
    bisectStops half2 V2.eq s = true → ∀ i, ∀ z : F32, z.IsFin = true →
      ¬(min (coord s.1 i).val (coord s.2 i).val < z.val ∧ z.val < max (coord s.1 i).val (coord s.2 i).val) := by
  intro s hs i
  exact stops_closed coord half2 V2.eq coord_half2 same2
    (pairInHalf_iterate coord half2 V2.eq inside coord_half2 (s := (a, b)) (fun i => ⟨ha i, hb i⟩) n) hs i

/-- The hypotheses hold for a segment with ends of opposite sign and a region that splits it. -/
example : HalfRange (coord (⟨lit (-3), lit (1/10)⟩ : V2 F32)) ∧ HalfRange (coord (⟨lit 7, lit (1/10)⟩ : V2 F32)) ∧
    (fun p : V2 F32 => decide (lit 1 < p.x)) (⟨lit (-3), lit (1/10)⟩ : V2 F32) = false ∧ (fun p : V2 F32 => decide (lit 1 < p.x)) (⟨lit 7, lit (1/10)⟩ : V2 F32) = true := by
  refine ⟨fun i => ?_, fun i => ?_, by decide +kernel, by decide +kernel⟩ <;> fin_cases i <;> decide +kernel

private theorem coord_half3 (a b : V3 F32) (i : Fin 3) : coord (half3 a b) i = mid (coord a i) (coord b i) := by
  fin_cases i <;> rfl

private theorem same3 (a b : V3 F32) : V3.eq a b = true ↔ ∀ i, (coord a i == coord b i) = true := by
  simp only [V3.eq, Bool.and_eq_true, and_assoc]
  constructor
  · rintro ⟨h0, h1, h2⟩ i
    fin_cases i
    · exact h0
    · exact h1
    · exact h2
  · intro h; exact ⟨h 0, h 1, h 2⟩

/-- C155, `vec3`: the loop ends. From any two points in half the range, for any region, the test `m == a || m == b` succeeds after at
most 367 rounds. -/
theorem C155_vec3_ends (inside : V3 F32 → Bool) (a b : V3 F32) (ha : HalfRange (coord a)) (hb : HalfRange (coord b)) :
    ∃ n ≤ 367, bisectStops half3 V3.eq ((bisectRound half3 V3.eq inside)^[n] (a, b)) = true :=
  ⟨367, le_refl _, bisect_stops coord half3 V3.eq inside coord_half3 same3 fun i => ⟨ha i, hb i⟩⟩

/-- C155, `vec3`: what it finds. If `a` is outside and `b` is inside then at every moment the first end is outside, the second is inside,
and both are between `a` and `b` in every component. -/
theorem C155_vec3_kept (inside : V3 F32 → Bool) (a b : V3 F32) (ha : HalfRange (coord a)) (hb : HalfRange (coord b))
    (h0 : inside a = false) (h1 : inside b = true) (n : ℕ) :
    let s := (bisectRound half3 V3.eq inside)^[n] (a, b)
    inside s.1 = false ∧ inside s.2 = true ∧
    ∀ i, (min (coord a i).val (coord b i).val ≤ (coord s.1 i).val ∧ (coord s.1 i).val ≤ max (coord a i).val (coord b i).val) ∧
         (min (coord a i).val (coord b i).val ≤ (coord s.2 i).val ∧ (coord s.2 i).val ≤ max (coord a i).val (coord b i).val) := by
  have e := iterate_ends half3 V3.eq inside a b h0 h1 n
  refine ⟨e.1, e.2, fun i => ?_⟩
  have h := iterate_between coord half3 V3.eq inside coord_half3 (s := (a, b)) (fun i => ⟨ha i, hb i⟩) n i
  exact ⟨⟨le_trans h.1 (min_le_left _ _), le_trans (le_max_left _ _) h.2⟩,
    ⟨le_trans h.1 (min_le_right _ _), le_trans (le_max_right _ _) h.2⟩⟩

/-- C155, `vec3`: and how well. Whenever the test for leaving succeeds, no binary32 number lies strictly between the two ends in any
component: the segment cannot be halved further, by this loop or by any other. -/
theorem C155_vec3_adjacent (inside : V3 F32 → Bool) (a b : V3 F32) (ha : HalfRange (coord a)) (hb : HalfRange (coord b)) (n : ℕ) :
    let s := (bisectRound half3 V3.eq inside)^[n] (a, b)
    bisectStops half3 V3.eq s = true → ∀ i, ∀ z : F32, z.IsFin = true →
      ¬(min (coord s.1 i).val (coord s.2 i).val < z.val ∧ z.val < max (coord s.1 i).val (coord s.2 i).val) := by
  intro s hs i
  exact stops_closed coord half3 V3.eq coord_half3 same3
    (pairInHalf_iterate coord half3 V3.eq inside coord_half3 (s := (a, b)) (fun i => ⟨ha i, hb i⟩) n) hs i

/-- The hypotheses hold for a segment with ends of opposite sign and a region that splits it. -/
example : HalfRange (coord (⟨lit (-3), lit (1/10), lit 5⟩ : V3 F32)) ∧ HalfRange (coord (⟨lit 7, lit (1/10), lit (-1000)⟩ : V3 F32)) ∧
    (fun p : V3 F32 => decide (lit 1 < p.x)) (⟨lit (-3), lit (1/10), lit 5⟩ : V3 F32) = false ∧ (fun p : V3 F32 => decide (lit 1 < p.x)) (⟨lit 7, lit (1/10), lit (-1000)⟩ : V3 F32) = true := by
  refine ⟨fun i => ?_, fun i => ?_, by decide +kernel, by decide +kernel⟩ <;> fin_cases i <;> decide +kernel

private theorem coord_half4 (a b : V4 F32) (i : Fin 4) : coord (half4 a b) i = mid (coord a i) (coord b i) := by
  fin_cases i <;> rfl

private theorem same4 (a b : V4 F32) : V4.eq a b = true ↔ ∀ i, (coord a i == coord b i) = true := by
  simp only [V4.eq, Bool.and_eq_true, and_assoc]
  constructor
  · rintro ⟨h0, h1, h2, h3⟩ i
    fin_cases i
    · exact h0
    · exact h1
    · exact h2
    · exact h3
  · intro h; exact ⟨h 0, h 1, h 2, h 3⟩

/-- C155, `vec4`: the loop ends. From any two points in half the range, for any region, the test `m == a || m == b` succeeds after at
most 367 rounds. -/
theorem C155_vec4_ends (inside : V4 F32 → Bool) (a b : V4 F32) (ha : HalfRange (coord a)) (hb : HalfRange (coord b)) :
    ∃ n ≤ 367, bisectStops half4 V4.eq ((bisectRound half4 V4.eq inside)^[n] (a, b)) = true :=
  ⟨367, le_refl _, bisect_stops coord half4 V4.eq inside coord_half4 same4 fun i => ⟨ha i, hb i⟩⟩

/-- C155, `vec4`: what it finds. If `a` is outside and `b` is inside then at every moment the first end is outside, the second is inside,
and both are between `a` and `b` in every component. -/
theorem C155_vec4_kept (inside : V4 F32 → Bool) (a b : V4 F32) (ha : HalfRange (coord a)) (hb : HalfRange (coord b))
    (h0 : inside a = false) (h1 : inside b = true) (n : ℕ) :
    let s := (bisectRound half4 V4.eq inside)^[n] (a, b)
    inside s.1 = false ∧ inside s.2 = true ∧
    ∀ i, (min (coord a i).val (coord b i).val ≤ (coord s.1 i).val ∧ (coord s.1 i).val ≤ max (coord a i).val (coord b i).val) ∧
         (min (coord a i).val (coord b i).val ≤ (coord s.2 i).val ∧ (coord s.2 i).val ≤ max (coord a i).val (coord b i).val) := by
  have e := iterate_ends half4 V4.eq inside a b h0 h1 n
  refine ⟨e.1, e.2, fun i => ?_⟩
  have h := iterate_between coord half4 V4.eq inside coord_half4 (s := (a, b)) (fun i => ⟨ha i, hb i⟩) n i
  exact ⟨⟨le_trans h.1 (min_le_left _ _), le_trans (le_max_left _ _) h.2⟩,
    ⟨le_trans h.1 (min_le_right _ _), le_trans (le_max_right _ _) h.2⟩⟩

/-- C155, `vec4`: and how well. Whenever the test for leaving succeeds, no binary32 number lies strictly between the two ends in any
component: the segment cannot be halved further, by this loop or by any other. -/
theorem C155_vec4_adjacent (inside : V4 F32 → Bool) (a b : V4 F32) (ha : HalfRange (coord a)) (hb : HalfRange (coord b)) (n : ℕ) :
    let s := (bisectRound half4 V4.eq inside)^[n] (a, b)
    bisectStops half4 V4.eq s = true → ∀ i, ∀ z : F32, z.IsFin = true →
      ¬(min (coord s.1 i).val (coord s.2 i).val < z.val ∧ z.val < max (coord s.1 i).val (coord s.2 i).val) := by
  intro s hs i
  exact stops_closed coord half4 V4.eq coord_half4 same4
    (pairInHalf_iterate coord half4 V4.eq inside coord_half4 (s := (a, b)) (fun i => ⟨ha i, hb i⟩) n) hs i

/-- The hypotheses hold for a segment with ends of opposite sign and a region that splits it. -/
example : HalfRange (coord (⟨lit (-3), lit (1/10), lit 5, lit 0⟩ : V4 F32)) ∧ HalfRange (coord (⟨lit 7, lit (1/10), lit (-1000), lit (1/3)⟩ : V4 F32)) ∧
    (fun p : V4 F32 => decide (lit 1 < p.x)) (⟨lit (-3), lit (1/10), lit 5, lit 0⟩ : V4 F32) = false ∧ (fun p : V4 F32 => decide (lit 1 < p.x)) (⟨lit 7, lit (1/10), lit (-1000), lit (1/3)⟩ : V4 F32) = true := by
  refine ⟨fun i => ?_, fun i => ?_, by decide +kernel, by decide +kernel⟩ <;> fin_cases i <;> decide +kernel

/-- C155: outside half the range the loop may not end with a midpoint: the sum of two equal numbers of magnitude `2^127` overflows. -/
theorem C155_limit : let x : F32 := lit (2 ^ 127)
    x.IsFin = true ∧ half2 ⟨x, x⟩ ⟨x, x⟩ = ⟨.inf false, .inf false⟩ ∧
    bisectStops half2 V2.eq (⟨x, x⟩, ⟨x, x⟩) = false := by
  refine ⟨?_, ?_, ?_⟩ <;> decide +kernel

end Zcm
