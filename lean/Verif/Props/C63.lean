import Verif.Lemmas.Hamilton

/-!
# C63: `slerp` follows the shorter arc at constant speed

Exact arithmetic.  `nearest x y` is the representative of `±y` on the side of `x`.
-/

namespace Zcm

/-- of `y` and `-y`, the one whose angle with `x` is at most a right angle -/
noncomputable def nearest (x y : Quat ℝ) : Quat ℝ := if Quat.dot x y < 0 then -y else y

theorem nearest_dot (x y : Quat ℝ) : Quat.dot x (nearest x y) = |Quat.dot x y| := by
  have hn : Quat.dot x (-y) = -Quat.dot x y := by simp [Quat.dot]; ring
  unfold nearest
  split_ifs with h
  · rw [hn, abs_of_neg h]
  · rw [abs_of_nonneg (not_lt.1 h)]

theorem nearest_unit {x y : Quat ℝ} (hy : Quat.dot y y = 1) : Quat.dot (nearest x y) (nearest x y) = 1 := by
  unfold nearest
  split_ifs with h
  · rw [← hy]; simp [Quat.dot]
  · exact hy

/-- `slerp` with its branch on the sign resolved -/
theorem Quat.slerp_eq (x y : Quat ℝ) (t : ℝ) : Quat.slerp x y t =
    if 1 - 1 / 8388608 < |Quat.dot x y| then x * (1 - t) + nearest x y * t
    else (Real.sin ((1 - t) * Real.arccos |Quat.dot x y|) * x + Real.sin (t * Real.arccos |Quat.dot x y|) * nearest x y) /
      Real.sin (Real.arccos |Quat.dot x y|) := by
  have l0 : (lit 0 : ℝ) = 0 := by simp
  have l1 : (lit 1 : ℝ) = 1 := by simp
  have l2 : (epsilonf : ℝ) = 1 / 8388608 := by simp [epsilonf]
  have key : ∀ z : Quat ℝ, (Quat.wxyz (F.mix x.w z.w t) (F.mix x.x z.x t) (F.mix x.y z.y t) (F.mix x.z z.z t) : Quat ℝ)
      = x * (1 - t) + z * t := by
    intro z
    ext <;> simp [F.mix] <;> ring
  simp only [Quat.slerp, l0, l1, l2, F.acos_real, F.sin_real, key, gt_iff_lt, nearest]
  by_cases h : Quat.dot x y < 0
  · simp only [h, if_true, abs_of_neg h]
  · simp only [h, if_false, abs_of_nonneg (not_lt.1 h)]

theorem arccos_facts {c : ℝ} (h0 : 0 ≤ c) (h1 : c ≤ 1 - 1 / 8388608) :
    Real.cos (Real.arccos c) = c ∧ 0 < Real.sin (Real.arccos c) := by
  refine ⟨Real.cos_arccos (by linarith) (by linarith), ?_⟩
  rw [Real.sin_arccos]
  exact Real.sqrt_pos.2 (by nlinarith)

/-- C63: the end points: `x` at 0, and at 1 the representative of `±y` nearest to `x`. -/
theorem C63_ends (x y : Quat ℝ) : Quat.slerp x y 0 = x ∧ Quat.slerp x y 1 = nearest x y := by
  rw [Quat.slerp_eq, Quat.slerp_eq]
  split_ifs with h
  · constructor <;> ext <;> simp
  · have hs := (arccos_facts (abs_nonneg _) (not_lt.1 h)).2.ne'
    constructor <;> ext <;> simp [hs]

/-- C63: away from the near-parallel fallback, with `θ` the angle between `x` and the nearer of `±y`,
the results are unit quaternions, and the results for `s` and `t` enclose the angle `(s - t) θ`:
constant speed; the result for `t` is at angle `t θ` from `x` and `(1 - t) θ` from the target. -/
theorem C63_constant_speed (x y : Quat ℝ) (s t : ℝ) (hx : Quat.length x = 1) (hy : Quat.length y = 1)
    (h : |Quat.dot x y| ≤ 1 - 1 / 8388608) :
    let θ := Real.arccos |Quat.dot x y|
    0 < θ ∧ θ ≤ Real.pi / 2 ∧
    Quat.length (Quat.slerp x y t) = 1 ∧
    Quat.dot (Quat.slerp x y s) (Quat.slerp x y t) = Real.cos ((s - t) * θ) ∧
    Quat.dot x (Quat.slerp x y t) = Real.cos (t * θ) ∧
    Quat.dot (nearest x y) (Quat.slerp x y t) = Real.cos ((1 - t) * θ) ∧
    (∃ a b : ℝ, Quat.slerp x y t = a * x + b * y) := by
  have hx := Quat.dot_self_of_length hx
  have hy := Quat.dot_self_of_length hy
  have hz := nearest_unit (x := x) hy
  have hxz := nearest_dot x y
  obtain ⟨hc, hs⟩ := arccos_facts (abs_nonneg _) h
  have hab : ∃ e : ℝ, nearest x y = e * y := by
    unfold nearest
    split_ifs
    · exact ⟨-1, by ext <;> simp⟩
    · exact ⟨1, by ext <;> simp⟩
  have speed : ∀ s t : ℝ, Quat.dot (Quat.slerp x y s) (Quat.slerp x y t) =
      Real.cos ((s - t) * Real.arccos |Quat.dot x y|) := by
    intro s t
    rw [Quat.slerp_eq, Quat.slerp_eq, if_neg (not_lt.2 h), if_neg (not_lt.2 h)]
    rw [← hc] at hxz
    have hcs := Real.sin_sq_add_cos_sq (Real.arccos |Quat.dot x y|)
    generalize Real.arccos |Quat.dot x y| = θ at *
    generalize nearest x y = z at *
    have e1 : (1 - s) * θ = θ - s * θ := by ring
    have e2 : (1 - t) * θ = θ - t * θ := by ring
    have e3 : (s - t) * θ = s * θ - t * θ := by ring
    rw [e1, e2, e3, Real.sin_sub, Real.sin_sub, Real.cos_sub]
    have h3 := Real.sin_sq_add_cos_sq (s * θ)
    have h4 := Real.sin_sq_add_cos_sq (t * θ)
    generalize Real.sin (s * θ) = ss at *
    generalize Real.cos (s * θ) = cs at *
    generalize Real.sin (t * θ) = st at *
    generalize Real.cos (t * θ) = ct at *
    generalize Real.sin θ = S at *
    generalize Real.cos θ = C at *
    have hd : ∀ a b c d : ℝ, Quat.dot ((a * x + b * z) / S) ((c * x + d * z) / S) =
        (a * c * Quat.dot x x + (a * d + b * c) * Quat.dot x z + b * d * Quat.dot z z) / (S * S) := by
      intro a b c d
      simp only [Quat.dot, Quat.divS_x, Quat.divS_y, Quat.divS_z, Quat.divS_w, Quat.add_x, Quat.add_y,
        Quat.add_z, Quat.add_w, Quat.Smul_x, Quat.Smul_y, Quat.Smul_z, Quat.Smul_w]
      field_simp
      ring
    rw [hd, hx, hz, hxz]
    have hSS : S * S ≠ 0 := mul_ne_zero hs.ne' hs.ne'
    rw [div_eq_iff hSS]
    grind
  obtain ⟨e0, e1⟩ := C63_ends x y
  refine ⟨?_, ?_, ?_, speed s t, ?_, ?_, ?_⟩
  · exact Real.arccos_pos.2 (by linarith)
  · exact Real.arccos_le_pi_div_two.2 (abs_nonneg _)
  · apply Quat.length_of_dot_self
    rw [speed, sub_self, zero_mul, Real.cos_zero]
  · have := speed 0 t
    rwa [e0, zero_sub, neg_mul, Real.cos_neg] at this
  · have := speed 1 t
    rwa [e1] at this
  · obtain ⟨e, he⟩ := hab
    rw [Quat.slerp_eq, if_neg (not_lt.2 h), he]
    generalize Real.arccos |Quat.dot x y| = θ
    refine ⟨Real.sin ((1 - t) * θ) / Real.sin θ, Real.sin (t * θ) * e / Real.sin θ, ?_⟩
    ext <;> simp <;> ring

/-- C63: in the near-parallel fallback (cosine above 1 - 2⁻²³) the result is the straight segment; for
`t` in [0, 1] its squared length differs from 1 by at most 2⁻²⁴. -/
theorem C63_fallback (x y : Quat ℝ) (t : ℝ) (hx : Quat.length x = 1) (hy : Quat.length y = 1)
    (h : 1 - 1 / 8388608 < |Quat.dot x y|) :
    Quat.slerp x y t = x * (1 - t) + nearest x y * t ∧
    (0 ≤ t → t ≤ 1 → 1 - 1 / 16777216 ≤ Quat.length2 (Quat.slerp x y t) ∧ Quat.length2 (Quat.slerp x y t) ≤ 1) := by
  have hx := Quat.dot_self_of_length hx
  have hy := Quat.dot_self_of_length hy
  have hz := nearest_unit (x := x) hy
  have hxz := nearest_dot x y
  have e : Quat.slerp x y t = x * (1 - t) + nearest x y * t := by rw [Quat.slerp_eq, if_pos h]
  refine ⟨e, fun h0 h1 => ?_⟩
  have hle : |Quat.dot x y| ≤ 1 := by
    rw [Quat.dot_eq_inner]
    have := abs_real_inner_le_norm (eu x) (eu y)
    rw [Quat.dot_eq_inner, real_inner_self_eq_norm_sq] at hx hy
    have a : ‖eu x‖ = 1 := by nlinarith [norm_nonneg (eu x)]
    have b : ‖eu y‖ = 1 := by nlinarith [norm_nonneg (eu y)]
    rwa [a, b, one_mul] at this
  have key : Quat.length2 (Quat.slerp x y t) = 1 - 2 * (t * (1 - t)) * (1 - |Quat.dot x y|) := by
    rw [e]
    generalize |Quat.dot x y| = c at *
    generalize nearest x y = z at *
    simp only [Quat.dot] at hx hz hxz
    simp only [Quat.length2, Quat.dot, Quat.add_x, Quat.add_y, Quat.add_z, Quat.add_w, Quat.mulS_x, Quat.mulS_y,
      Quat.mulS_z, Quat.mulS_w]
    linear_combination (1 - t) ^ 2 * hx + t ^ 2 * hz + 2 * (t * (1 - t)) * hxz
  rw [key]
  have p1 : 0 ≤ t * (1 - t) := mul_nonneg h0 (by linarith)
  have p2 : t * (1 - t) ≤ 1 / 4 := by nlinarith [sq_nonneg (2 * t - 1)]
  constructor <;> nlinarith

/-- C63: `y` and `-y` are the same rotation; `slerp` gives the same result for both, unless they are
orthogonal to `x`. -/
theorem C63_sign (x y : Quat ℝ) (t : ℝ) (h : Quat.dot x y ≠ 0) : Quat.slerp x (-y) t = Quat.slerp x y t := by
  have hn : Quat.dot x (-y) = -Quat.dot x y := by simp [Quat.dot]; ring
  have : nearest x (-y) = nearest x y := by
    unfold nearest
    rw [hn]
    rcases lt_or_gt_of_ne h with h | h
    · rw [if_pos h, if_neg (by linarith)]
    · rw [if_pos (by linarith), if_neg (by linarith)]
      ext <;> simp
  rw [Quat.slerp_eq, Quat.slerp_eq, hn, abs_neg, this]

/-- Non-vacuity: from the identity to `-i`; the nearer representative is reached after a quarter turn. -/
example : Quat.length (Quat.wxyz 1 0 0 0 : Quat ℝ) = 1 ∧ Quat.length (Quat.wxyz (-3/5) (4/5) 0 0 : Quat ℝ) = 1 ∧
    |Quat.dot (Quat.wxyz 1 0 0 0 : Quat ℝ) (Quat.wxyz (-3/5) (4/5) 0 0)| ≤ 1 - 1 / 8388608 ∧
    Quat.slerp (Quat.wxyz 1 0 0 0 : Quat ℝ) (Quat.wxyz (-3/5) (4/5) 0 0) 1 = Quat.wxyz (3/5) (-4/5) 0 0 := by
  refine ⟨Quat.length_of_dot_self ?_, Quat.length_of_dot_self ?_, ?_, ?_⟩
  · simp [Quat.dot]
  · simp [Quat.dot]; norm_num
  · simp [Quat.dot]; rw [abs_of_neg] <;> norm_num
  · rw [(C63_ends _ _).2, nearest, if_pos (by simp [Quat.dot]; norm_num)]
    ext <;> simp <;> norm_num

end Zcm
