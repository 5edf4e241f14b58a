import Verif.Spec.Coord
import Verif.Model.Geometric
import Verif.Lemmas.F32Length

/-!
# C82  length and distance are accurate in IEEE arithmetic

For vectors of finite components whose exact length is between `2^-50` and `2^63` the computed `length` is finite and
off by less than 4 units of `2^-24`; `distance` by less than 5 (for distances between `2^-49` and `2^62`, whatever the
size of the operands).
-/

namespace Zcm

open F32

theorem relax {l e : ℝ} (h : |l - e| ≤ 3.02 / 2 ^ 24 * e) (he : 0 ≤ e) : |l - e| ≤ 4 / 2 ^ 24 * e := by
  refine h.trans ?_
  gcongr
  norm_num

/-- C82, `length(vec2)`. -/
theorem C82_length_vec2 (v : V2 F32) (h : Medium (coord v)) : (V2.length v).IsFin = true ∧
    |((V2.length v).val : ℝ) - exactLength (coord v)| ≤ 4 / 2 ^ 24 * exactLength (coord v) := by
  have s := (sqLen2 h).sqrt h
  exact ⟨s.1, relax s.2 h.pos.le⟩

/-- C82, `length(vec3)`. -/
theorem C82_length_vec3 (v : V3 F32) (h : Medium (coord v)) : (V3.length v).IsFin = true ∧
    |((V3.length v).val : ℝ) - exactLength (coord v)| ≤ 4 / 2 ^ 24 * exactLength (coord v) := by
  have s := (sqLen3 h).sqrt h
  exact ⟨s.1, relax s.2 h.pos.le⟩

/-- C82, `length(vec4)`. -/
theorem C82_length_vec4 (v : V4 F32) (h : Medium (coord v)) : (V4.length v).IsFin = true ∧
    |((V4.length v).val : ℝ) - exactLength (coord v)| ≤ 4 / 2 ^ 24 * exactLength (coord v) := by
  have s := (sqLen4 h).sqrt h
  exact ⟨s.1, relax s.2 h.pos.le⟩

/-- C82, `length(quat)`. -/
theorem C82_length_quat (v : Quat F32) (h : Medium (coord v)) : (Quat.length v).IsFin = true ∧
    |((Quat.length v).val : ℝ) - exactLength (coord v)| ≤ 4 / 2 ^ 24 * exactLength (coord v) := by
  have s := (sqLen4 h).sqrt h
  exact ⟨s.1, relax s.2 h.pos.le⟩

/-- C82, `distance(vec2, vec2)`. -/
theorem C82_distance_vec2 (a b : V2 F32) (ha : ∀ i, (coord a i).IsFin = true) (hb : ∀ i, (coord b i).IsFin = true)
    (h1 : 1 / 2 ^ 49 ≤ exactDistance (coord a) (coord b)) (h2 : exactDistance (coord a) (coord b) ≤ 2 ^ 62) :
    (V2.distance a b).IsFin = true ∧
    |((V2.distance a b).val : ℝ) - exactDistance (coord a) (coord b)| ≤
      5 / 2 ^ 24 * exactDistance (coord a) (coord b) :=
  distance_rel ha hb h1 h2 (sqLen2 (distance_core ha hb h1 h2).1)

/-- C82, `distance(vec3, vec3)`. -/
theorem C82_distance_vec3 (a b : V3 F32) (ha : ∀ i, (coord a i).IsFin = true) (hb : ∀ i, (coord b i).IsFin = true)
    (h1 : 1 / 2 ^ 49 ≤ exactDistance (coord a) (coord b)) (h2 : exactDistance (coord a) (coord b) ≤ 2 ^ 62) :
    (V3.distance a b).IsFin = true ∧
    |((V3.distance a b).val : ℝ) - exactDistance (coord a) (coord b)| ≤
      5 / 2 ^ 24 * exactDistance (coord a) (coord b) :=
  distance_rel ha hb h1 h2 (sqLen3 (distance_core ha hb h1 h2).1)

/-- C82, `distance(vec4, vec4)`. -/
theorem C82_distance_vec4 (a b : V4 F32) (ha : ∀ i, (coord a i).IsFin = true) (hb : ∀ i, (coord b i).IsFin = true)
    (h1 : 1 / 2 ^ 49 ≤ exactDistance (coord a) (coord b)) (h2 : exactDistance (coord a) (coord b) ≤ 2 ^ 62) :
    (V4.distance a b).IsFin = true ∧
    |((V4.distance a b).val : ℝ) - exactDistance (coord a) (coord b)| ≤
      5 / 2 ^ 24 * exactDistance (coord a) (coord b) :=
  distance_rel ha hb h1 h2 (sqLen4 (distance_core ha hb h1 h2).1)

/-- Non-vacuity: the vector (0.1, 3, -7) and the pair (10^6, 1, 1), (10^6 + 1, 1, 1): a small distance of large
vectors. -/
example : Medium (coord (⟨lit 0.1, lit 3, lit (-7)⟩ : V3 F32)) ∧
    exactDistance (coord (⟨lit 1000000, lit 1, lit 1⟩ : V3 F32)) (coord (⟨lit 1000001, lit 1, lit 1⟩ : V3 F32)) = 1 := by
  constructor
  · refine ⟨by decide +kernel, ?_, ?_⟩
    all_goals
      unfold exactLength
      simp only [Fin.sum_univ_three, coord_v3_0, coord_v3_1, coord_v3_2]
      rw [show (lit 0.1 : F32).val = 13421773 / 134217728 by decide +kernel, show (lit 3 : F32).val = 3 by decide +kernel,
        show (lit (-7) : F32).val = -7 by decide +kernel]
    · rw [Real.le_sqrt' (by positivity)]; norm_num
    · rw [Real.sqrt_le_left (by positivity)]; norm_num
  · unfold exactDistance
    simp only [Fin.sum_univ_three, coord_v3_0, coord_v3_1, coord_v3_2]
    rw [show (lit 1000000 : F32).val = 1000000 by decide +kernel, show (lit 1 : F32).val = 1 by decide +kernel,
      show (lit 1000001 : F32).val = 1000001 by decide +kernel]
    norm_num

end Zcm
