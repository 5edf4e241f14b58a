import Verif.Lemmas.Normalize
import Verif.Model.Common

/-!
# C38: orthogonal vectors are orthogonal and non-zero

Exact arithmetic.
-/

namespace Zcm

/-- C38 for `orthogonal`. -/
theorem C38_orthogonal (v : V3 ℝ) :
    V3.dot (V3.orthogonal v) v = 0 ∧
    ((∃ i, coord v i ≠ 0) → ∃ i, coord (V3.orthogonal v) i ≠ 0) := by
  unfold V3.orthogonal
  split_ifs with h
  · simp only [F.abs_real, gt_iff_lt] at h
    refine ⟨by simp [V3.dot]; ring, fun _ => ⟨1, ?_⟩⟩
    have : v.x ≠ 0 := by
      intro h0; rw [h0, abs_zero] at h; exact absurd h (not_lt.2 (abs_nonneg _))
    simpa using this
  · simp only [F.abs_real, gt_iff_lt, not_lt] at h
    refine ⟨by simp [V3.dot]; ring, fun ⟨i, hi⟩ => ?_⟩
    by_contra hc
    push Not at hc
    have hz : v.z = 0 := by simpa using hc 1
    have hy : v.y = 0 := by simpa using hc 2
    have hx : v.x = 0 := by rw [hz, abs_zero] at h; exact abs_eq_zero.1 (le_antisymm h (abs_nonneg _))
    fin_cases i <;> simp [hx, hy, hz] at hi

/-- C38 for `orthogonal_branchless`: orthogonal for every `v`, non-zero for unit `v`. -/
theorem C38_orthogonal_branchless (v : V3 ℝ) :
    V3.dot (V3.orthogonal_branchless v) v = 0 ∧
    (V3.length v = 1 → ∃ i, coord (V3.orthogonal_branchless v) i ≠ 0) := by
  have hk : F.fract (F.abs v.x + (lit 0.5 : ℝ)) = Int.fract (|v.x| + 1 / 2) := by
    rw [show (lit 0.5 : ℝ) = 1 / 2 by simp; norm_num]; rfl
  simp only [V3.orthogonal_branchless, hk]
  refine ⟨by simp [V3.dot]; ring, fun hl => ?_⟩
  have hl := V3.dot_self_of_length hl
  simp only [V3.dot] at hl
  by_contra hc
  push Not at hc
  have hy : v.y = 0 := by simpa using hc 0
  have hx : v.x = Int.fract (|v.x| + 1 / 2) * v.z := by simpa [sub_eq_zero] using hc 1
  rw [hy] at hl
  have hxa : |v.x| = Int.fract (|v.x| + 1 / 2) * |v.z| := by
    conv_lhs => rw [hx]
    rw [abs_mul, abs_of_nonneg (Int.fract_nonneg _)]
  have hs : |v.x| * |v.x| + |v.z| * |v.z| = 1 := by
    rw [abs_mul_abs_self, abs_mul_abs_self]; linarith
  have h0 := abs_nonneg v.x
  have h1 := abs_nonneg v.z
  have hx1 : |v.x| ≤ 1 := by nlinarith
  have hz1 : |v.z| ≤ 1 := by nlinarith
  rcases lt_or_ge (|v.x|) (1 / 2) with h2 | h2
  · have : Int.fract (|v.x| + 1 / 2) = |v.x| + 1 / 2 :=
      Int.fract_eq_self.2 ⟨by linarith, by linarith⟩
    rw [this] at hxa
    generalize |v.x| = x at *
    generalize |v.z| = z at *
    nlinarith
  · have : Int.fract (|v.x| + 1 / 2) = |v.x| - 1 / 2 := by
      rw [Int.fract_eq_iff]
      exact ⟨by linarith, by linarith, 1, by push_cast; ring⟩
    rw [this] at hxa
    nlinarith

/-- The unit-length hypothesis for `orthogonal_branchless` is needed: the result vanishes for this
non-zero argument. -/
theorem C38_branchless_needs_unit :
    ∃ v : V3 ℝ, (∃ i, coord v i ≠ 0) ∧ ∀ i, coord (V3.orthogonal_branchless v) i = 0 := by
  refine ⟨⟨1/4, 0, 1/3⟩, ⟨0, by simp⟩, ?_⟩
  have hk : F.fract (F.abs (1/4 : ℝ) + (lit 0.5 : ℝ)) = 3 / 4 := by
    rw [show (lit 0.5 : ℝ) = 1 / 2 by simp; norm_num]
    show Int.fract (|(1/4 : ℝ)| + 1/2) = 3/4
    rw [abs_of_pos (by norm_num), Int.fract_eq_iff]
    exact ⟨by norm_num, by norm_num, 0, by norm_num⟩
  simp only [V3.orthogonal_branchless, hk]
  intro i; fin_cases i <;> simp; norm_num

/-- Non-vacuity. -/
example : V3.length (⟨2/3, 1/3, 2/3⟩ : V3 ℝ) = 1 :=
  V3.length_of_dot_self (by simp [V3.dot]; norm_num)

end Zcm
