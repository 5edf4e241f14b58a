import Verif.Lemmas.Hamilton

/-!
# C62: `lerp` and `nlerp`

Exact arithmetic.
-/

namespace Zcm

/-- C62: for `t` in [0, 1] `lerp` returns the point `(1 - t) x + t y` of the segment, in both builds. -/
theorem C62_lerp (b : Build) (x y : Quat ℝ) (t : ℝ) (h0 : 0 ≤ t) (h1 : t ≤ 1) :
    ∃ r, Quat.lerp b x y t = .ok r ∧ ∀ i, coord r i = (1 - t) * coord x i + t * coord y i := by
  refine ⟨x * (1 - t) + y * t, ?_, ?_⟩
  · have e0 : (lit 0 : ℝ) = 0 := by simp
    have e1 : (lit 1 : ℝ) = 1 := by simp
    simp only [Quat.lerp, e0, e1, ge_iff_le, h0, h1, decide_true]
    cases b <;> rfl
  · intro i
    fin_cases i <;> simp <;> ring

/-- C62: the end points. -/
theorem C62_ends (b : Build) (x y : Quat ℝ) :
    Quat.lerp b x y 0 = .ok x ∧ Quat.lerp b x y 1 = .ok y := by
  constructor
  · obtain ⟨r, h, hr⟩ := C62_lerp b x y 0 le_rfl zero_le_one
    have e : r = x := coord_injQ.1 fun i => by rw [hr i]; ring
    rw [h, e]
  · obtain ⟨r, h, hr⟩ := C62_lerp b x y 1 zero_le_one le_rfl
    have e : r = y := coord_injQ.1 fun i => by rw [hr i]; ring
    rw [h, e]

/-- C62: outside [0, 1] a debug build stops at an assertion. -/
theorem C62_assert (x y : Quat ℝ) (t : ℝ) (h : t < 0 ∨ 1 < t) :
    Quat.lerp .debug x y t = .abort ∧ Quat.nlerp .debug x y t = .abort := by
  have e0 : (lit 0 : ℝ) = 0 := by simp
  have e1 : (lit 1 : ℝ) = 1 := by simp
  have key : Quat.lerp .debug x y t = .abort := by
    simp only [Quat.lerp, e0, e1, ge_iff_le]
    by_cases h0 : 0 ≤ t
    · have h1 : ¬ t ≤ 1 := by rcases h with h | h <;> linarith
      simp only [h0, h1, decide_true, decide_false]
      rfl
    · simp only [h0, decide_false]
      rfl
  exact ⟨key, by simp only [Quat.nlerp, key]; rfl⟩

/-- C62: `nlerp` returns the unit quaternion in the direction of the point of the segment, whenever
that point is not zero. -/
theorem C62_nlerp (b : Build) (x y : Quat ℝ) (t : ℝ) (h0 : 0 ≤ t) (h1 : t ≤ 1)
    (hne : ∃ i, (1 - t) * coord x i + t * coord y i ≠ 0) :
    ∃ r, Quat.nlerp b x y t = .ok r ∧ Quat.length r = 1 ∧
      ∃ k : ℝ, 0 < k ∧ ∀ i, coord r i = k * ((1 - t) * coord x i + t * coord y i) := by
  obtain ⟨p, h, hp⟩ := C62_lerp b x y t h0 h1
  have hne' : ∃ i, coord p i ≠ 0 := by
    obtain ⟨i, hi⟩ := hne
    exact ⟨i, by rwa [hp i]⟩
  refine ⟨Quat.normalize p, ?_, Quat.length_normalize hne', ‖eu p‖⁻¹, inv_pos.2 (Quat.norm_pos hne'), ?_⟩
  · simp only [Quat.nlerp, h]
    rfl
  · intro i
    rw [← hp i]
    exact congrArg (fun v : EuclideanSpace ℝ (Fin 4) => v i) (Quat.eu_normalize p)

/-- C62: in particular for unit quaternions with `dot(x, y) ≥ 0`. -/
theorem C62_nlerp_unit (b : Build) (x y : Quat ℝ) (t : ℝ) (h0 : 0 ≤ t) (h1 : t ≤ 1)
    (hx : Quat.length x = 1) (hy : Quat.length y = 1) (hd : 0 ≤ Quat.dot x y) :
    ∃ r, Quat.nlerp b x y t = .ok r ∧ Quat.length r = 1 := by
  have hx := Quat.dot_self_of_length hx
  have hy := Quat.dot_self_of_length hy
  obtain ⟨r, h, hl, -⟩ := C62_nlerp b x y t h0 h1 (by
    by_contra hc
    push Not at hc
    have c0 : (1 - t) * x.x + t * y.x = 0 := hc 0
    have c1 : (1 - t) * x.y + t * y.y = 0 := hc 1
    have c2 : (1 - t) * x.z + t * y.z = 0 := hc 2
    have c3 : (1 - t) * x.w + t * y.w = 0 := hc 3
    simp only [Quat.dot] at hx hy hd
    have s : (1 - t) * (1 - t) + t * t + 2 * ((1 - t) * t) * (x.x * y.x + x.y * y.y + x.z * y.z + x.w * y.w) = 0 := by
      linear_combination ((1 - t) * x.x + t * y.x) * c0 + ((1 - t) * x.y + t * y.y) * c1 +
        ((1 - t) * x.z + t * y.z) * c2 + ((1 - t) * x.w + t * y.w) * c3 - (1 - t) ^ 2 * hx - t ^ 2 * hy
    have p := mul_nonneg (mul_nonneg (sub_nonneg.2 h1) h0) hd
    nlinarith)
  exact ⟨r, h, hl⟩

/-- Non-vacuity: halfway between `1` and `i`. -/
example : (0:ℝ) ≤ 1/2 ∧ (1/2:ℝ) ≤ 1 ∧ Quat.length (Quat.wxyz 1 0 0 0 : Quat ℝ) = 1 ∧
    Quat.length (Quat.wxyz 0 1 0 0 : Quat ℝ) = 1 ∧
    0 ≤ Quat.dot (Quat.wxyz 1 0 0 0 : Quat ℝ) (Quat.wxyz 0 1 0 0) := by
  refine ⟨by norm_num, by norm_num, Quat.length_of_dot_self ?_, Quat.length_of_dot_self ?_, ?_⟩ <;> simp [Quat.dot]

end Zcm
