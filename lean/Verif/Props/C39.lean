import Verif.Lemmas.Normalize
import Verif.Model.Common
import Verif.Spec.Octahedral

/-!
# C39: octahedral encoding round-trips

Exact arithmetic.  `decode_octahedral` unfolds the lower hemisphere wrongly (operator precedence,
and the second line reads the component the first line has just overwritten), so the round trip
holds exactly for the unit vectors with `z ≥ 0`.
-/

namespace Zcm

theorem signNotZero_real (x : ℝ) : F.signNotZero x = if 0 ≤ x then 1 else -1 := by
  simp [F.signNotZero]

theorem encode_real (v : V3 ℝ) : V3.encode_octahedral v =
    let c := 1 / (|v.x| + |v.y| + |v.z|)
    if v.z ≤ 0 then
      ⟨(1 - |v.y * c|) * (if 0 ≤ v.x * c then 1 else -1),
       (1 - |v.x * c|) * (if 0 ≤ v.y * c then 1 else -1)⟩
    else ⟨v.x * c, v.y * c⟩ := by
  simp only [V3.encode_octahedral, F.abs_real, lit_real]
  push_cast
  by_cases hz : v.z ≤ 0
  · rw [if_pos hz, if_pos hz]
    ext <;> simp only [V2.Ssub_x, V2.Ssub_y, V2.mul_x, V2.mul_y, V2.mulS_x, V2.mulS_y, V2.abs,
      V2.signNotZero, signNotZero_real, F.abs_real]
  · rw [if_neg hz, if_neg hz]
    ext <;> simp only [V2.mulS_x, V2.mulS_y]

theorem decode_real (e : V2 ℝ) : V2.decode_octahedral e =
    V3.normalize (if 1 - |e.x| - |e.y| < 0 then
      ⟨1 - |e.y| * (if 0 ≤ e.x then 1 else -1),
       1 - |1 - |e.y| * (if 0 ≤ e.x then 1 else -1)| * (if 0 ≤ e.y then 1 else -1),
       1 - |e.x| - |e.y|⟩ else ⟨e.x, e.y, 1 - |e.x| - |e.y|⟩) := by
  simp only [V2.decode_octahedral, F.abs_real, lit_real, signNotZero_real]
  push_cast
  rfl

theorem abs_sum_pos {v : V3 ℝ} (h : ∃ i, coord v i ≠ 0) : 0 < |v.x| + |v.y| + |v.z| := by
  have h0 := abs_nonneg v.x
  have h1 := abs_nonneg v.y
  have h2 := abs_nonneg v.z
  obtain ⟨i, hi⟩ := h
  fin_cases i <;> simp at hi <;> have := abs_pos.2 hi <;> linarith

theorem exists_ne_of_unit {v : V3 ℝ} (h : V3.length v = 1) : ∃ i, coord v i ≠ 0 := by
  by_contra hc
  push Not at hc
  have h0 : v.x = 0 := hc 0
  have h1 : v.y = 0 := hc 1
  have h2 : v.z = 0 := hc 2
  have := V3.dot_self_of_length h
  simp [V3.dot, h0, h1, h2] at this

/-- C39, range: for every non-zero vector both encoded components lie in `[-1, 1]`. -/
theorem C39_encode_range (v : V3 ℝ) (h : ∃ i, coord v i ≠ 0) (i : Fin 2) :
    -1 ≤ coord (V3.encode_octahedral v) i ∧ coord (V3.encode_octahedral v) i ≤ 1 := by
  have hs := abs_sum_pos h
  have hb : ∀ w : ℝ, |w| ≤ |v.x| + |v.y| + |v.z| → |w * (1 / (|v.x| + |v.y| + |v.z|))| ≤ 1 := by
    intro w hw
    rw [mul_one_div, abs_div, abs_of_pos hs, div_le_one hs]; exact hw
  have hx := hb v.x (by linarith [abs_nonneg v.y, abs_nonneg v.z])
  have hy := hb v.y (by linarith [abs_nonneg v.x, abs_nonneg v.z])
  have h0 := abs_nonneg (v.x * (1 / (|v.x| + |v.y| + |v.z|)))
  have h1 := abs_nonneg (v.y * (1 / (|v.x| + |v.y| + |v.z|)))
  rw [encode_real]
  simp only
  split_ifs <;> fin_cases i <;> simp only [Fin.mk_zero, Fin.mk_one, Fin.zero_eta, coord_v2_0, coord_v2_1] <;>
    first
      | (constructor <;> linarith)
      | exact abs_le.1 hx
      | exact abs_le.1 hy

/-- `1 - |p.y| = |p.x|` when the point lies on the equator. -/
theorem encode_upper {v : V3 ℝ} (h : ∃ i, coord v i ≠ 0) (hz : 0 ≤ v.z) :
    V3.encode_octahedral v =
      ⟨v.x * (1 / (|v.x| + |v.y| + |v.z|)), v.y * (1 / (|v.x| + |v.y| + |v.z|))⟩ := by
  have hs := abs_sum_pos h
  rw [encode_real]
  simp only
  split_ifs with h0 h1 h2 h2
  all_goals
    try rfl
  all_goals
    have hz0 : v.z = 0 := le_antisymm h0 hz
    rw [hz0, abs_zero, add_zero] at hs
    have hsum : |v.x * (1 / (|v.x| + |v.y| + |v.z|))| + |v.y * (1 / (|v.x| + |v.y| + |v.z|))| = 1 := by
      rw [hz0, abs_zero, add_zero, abs_mul, abs_mul, ← add_mul, abs_of_pos (one_div_pos.2 hs),
        mul_one_div_cancel hs.ne']
    generalize v.x * (1 / (|v.x| + |v.y| + |v.z|)) = p at *
    generalize v.y * (1 / (|v.x| + |v.y| + |v.z|)) = q at *
    try simp only [not_le] at *
    ext <;> simp only
  · rw [abs_of_nonneg h1] at hsum; linarith
  · rw [abs_of_nonneg h2] at hsum; linarith
  · rw [abs_of_nonneg h1] at hsum; linarith
  · rw [abs_of_neg h2] at hsum; linarith
  · rw [abs_of_neg h1] at hsum; linarith
  · rw [abs_of_nonneg h2] at hsum; linarith
  · rw [abs_of_neg h1] at hsum; linarith
  · rw [abs_of_neg h2] at hsum; linarith

/-- C39, round trip on the upper hemisphere (equator included).  Missing: `z < 0`, where it never
holds (`C39_lower_false`). -/
theorem C39_roundtrip_partial (v : V3 ℝ) (h : V3.length v = 1) (hz : 0 ≤ v.z) :
    V2.decode_octahedral (V3.encode_octahedral v) = v := by
  have hne := exists_ne_of_unit h
  have hs := abs_sum_pos hne
  have hc := one_div_pos.2 hs
  rw [encode_upper hne hz, decode_real]
  simp only
  have e : 1 - |v.x * (1 / (|v.x| + |v.y| + |v.z|))| - |v.y * (1 / (|v.x| + |v.y| + |v.z|))| =
      v.z * (1 / (|v.x| + |v.y| + |v.z|)) := by
    rw [abs_mul, abs_mul, abs_of_pos hc]
    have := mul_one_div_cancel hs.ne'
    rw [abs_of_nonneg hz] at *
    linarith
  rw [e, if_neg (not_lt.2 (mul_nonneg hz hc.le))]
  have e2 : (⟨v.x * (1 / (|v.x| + |v.y| + |v.z|)), v.y * (1 / (|v.x| + |v.y| + |v.z|)),
      v.z * (1 / (|v.x| + |v.y| + |v.z|))⟩ : V3 ℝ) = (1 / (|v.x| + |v.y| + |v.z|)) * v := by
    ext <;> simp <;> ring
  rw [e2, ← V3.eu_injective, V3.eu_normalize, V3.eu_smul, norm_smul, smul_smul, Real.norm_of_nonneg hc.le,
    ← V3.length_eq_norm v, h, mul_one, inv_mul_cancel₀ hc.ne', one_smul]

/-- C39, the encoder by itself is right on the whole sphere: the point of the octahedron found at `encode_octahedral(v)` by the
standard map (`Spec/Octahedral.lean`) is a positive multiple of `v`, for every non-zero `v`. -/
theorem C39_encode_standard (v : V3 ℝ) (h : ∃ i, coord v i ≠ 0) :
    ∃ c : ℝ, 0 < c ∧ ∀ i, coord (octSurface (V3.encode_octahedral v)) i = c * coord v i := by
  have hs := abs_sum_pos h
  have hc := one_div_pos.2 hs
  refine ⟨1 / (|v.x| + |v.y| + |v.z|), hc, ?_⟩
  suffices hh : octSurface (V3.encode_octahedral v) = ⟨v.x * (1 / (|v.x| + |v.y| + |v.z|)),
      v.y * (1 / (|v.x| + |v.y| + |v.z|)), v.z * (1 / (|v.x| + |v.y| + |v.z|))⟩ by
    intro i
    rw [hh]
    fin_cases i <;> exact mul_comm _ _
  rcases le_or_gt 0 v.z with hz | hz
  · rw [encode_upper h hz]
    have hsum : |v.x * (1 / (|v.x| + |v.y| + |v.z|))| + |v.y * (1 / (|v.x| + |v.y| + |v.z|))| +
        v.z * (1 / (|v.x| + |v.y| + |v.z|)) = 1 := by
      rw [abs_mul, abs_mul, abs_of_pos hc]
      have := mul_one_div_cancel hs.ne'
      rw [abs_of_nonneg hz] at *
      linarith
    have := mul_nonneg hz hc.le
    unfold octSurface
    rw [if_pos (by simp only; linarith)]
    ext <;> simp only
    linarith
  · rw [encode_real]
    simp only
    rw [if_pos hz.le]
    set c := 1 / (|v.x| + |v.y| + |v.z|) with hcdef
    have hsum : |v.x * c| + |v.y * c| - v.z * c = 1 := by
      rw [abs_mul, abs_mul, abs_of_pos hc]
      have := mul_one_div_cancel hs.ne'
      rw [← hcdef, abs_of_neg hz] at this
      linarith
    have hzc : v.z * c < 0 := mul_neg_of_neg_of_pos hz hc
    have hp0 := abs_nonneg (v.x * c)
    have hq0 := abs_nonneg (v.y * c)
    have hp1 : |v.x * c| < 1 := by linarith
    have hq1 : |v.y * c| < 1 := by linarith
    have sg : ∀ x y : ℝ, |y| < 1 → (0 ≤ (1 - |y|) * (if 0 ≤ x then (1:ℝ) else -1) ↔ 0 ≤ x) := by
      intro x y hy
      split_ifs with hx
      · simp only [hx, iff_true]; linarith
      · simp only [hx, iff_false]; linarith
    have ab : ∀ x y : ℝ, |y| < 1 → |(1 - |y|) * (if 0 ≤ x then (1:ℝ) else -1)| = 1 - |y| := by
      intro x y hy
      rw [abs_mul, abs_of_pos (by linarith)]
      split_ifs <;> simp
    have fold : ∀ x : ℝ, |x| * (if 0 ≤ x then (1:ℝ) else -1) = x := by
      intro x
      split_ifs with hx
      · rw [abs_of_nonneg hx, mul_one]
      · rw [abs_of_neg (not_le.1 hx)]; ring
    unfold octSurface octSign
    simp only [ab _ _ hq1, ab _ _ hp1, sg _ _ hq1, sg _ _ hp1]
    rw [if_neg (by linarith)]
    ext <;> simp only [sub_sub_cancel, fold]
    linarith

/-- Non-vacuity, in the lower hemisphere: (1, 2, -5) goes to (3/4, 7/8), where the standard map finds (1, 2, -5)/8. -/
example : octSurface ⟨3/4, 7/8⟩ = ⟨1/8, 2/8, -5/8⟩ := by
  unfold octSurface octSign
  rw [if_neg (by norm_num [abs_of_pos])]
  ext <;> norm_num [abs_of_pos]

/-- C39 fails on the whole lower hemisphere: no unit vector with `z < 0` survives the round trip. -/
theorem C39_lower_false (v : V3 ℝ) (h : V3.length v = 1) (hz : v.z < 0) :
    V2.decode_octahedral (V3.encode_octahedral v) ≠ v := by
  have hne := exists_ne_of_unit h
  have hs := abs_sum_pos hne
  have hc := one_div_pos.2 hs
  intro he
  rw [encode_real, decode_real] at he
  simp only at he
  rw [if_pos hz.le] at he
  set c := 1 / (|v.x| + |v.y| + |v.z|) with hcdef
  have hsum : |v.x * c| + |v.y * c| - v.z * c = 1 := by
    rw [abs_mul, abs_mul, abs_of_pos hc]
    have := mul_one_div_cancel hs.ne'
    rw [← hcdef, abs_of_neg hz] at this
    linarith
  have hzc : v.z * c < 0 := mul_neg_of_neg_of_pos hz hc
  have hp0 := abs_nonneg (v.x * c)
  have hq0 := abs_nonneg (v.y * c)
  have hp1 : |v.x * c| < 1 := by linarith
  have hq1 : |v.y * c| < 1 := by linarith
  have sg : ∀ x y : ℝ, |y| < 1 → (0 ≤ (1 - |y|) * (if 0 ≤ x then (1:ℝ) else -1) ↔ 0 ≤ x) := by
    intro x y hy
    split_ifs with hx
    · simp only [hx, iff_true]; linarith
    · simp only [hx, iff_false]; linarith
  have ab : ∀ x y : ℝ, |y| < 1 → |(1 - |y|) * (if 0 ≤ x then (1:ℝ) else -1)| = 1 - |y| := by
    intro x y hy
    rw [abs_mul, abs_of_pos (by linarith)]
    split_ifs <;> simp
  simp only [sg _ _ hq1, sg _ _ hp1, ab _ _ hq1, ab _ _ hp1] at he
  have hz2 : 1 - (1 - |v.y * c|) - (1 - |v.x * c|) = v.z * c := by linarith
  rw [hz2, if_pos hzc] at he
  have hn := V3.eu_normalize (⟨1 - (1 - |v.x * c|) * (if 0 ≤ v.x * c then 1 else -1),
    1 - |1 - (1 - |v.x * c|) * (if 0 ≤ v.x * c then 1 else -1)| * (if 0 ≤ v.y * c then 1 else -1),
    v.z * c⟩ : V3 ℝ)
  rw [he] at hn
  generalize ‖(eu (_ : V3 ℝ))‖⁻¹ = k at hn
  have hz3 : v.z = k * (v.z * c) := congrFun (congrArg WithLp.ofLp hn) 2
  have hkc : k * c = 1 := by
    have : v.z * (k * c - 1) = 0 := by linarith
    rcases mul_eq_zero.1 this with h | h
    · exact absurd h hz.ne
    · linarith
  have hx3 : v.x = k * (1 - (1 - |v.x * c|) * (if 0 ≤ v.x * c then 1 else -1)) :=
    congrFun (congrArg WithLp.ofLp hn) 0
  have hy3 : v.y = k * (1 - |1 - (1 - |v.x * c|) * (if 0 ≤ v.x * c then 1 else -1)| *
      (if 0 ≤ v.y * c then 1 else -1)) := congrFun (congrArg WithLp.ofLp hn) 1
  have hx4 : v.x * c = 1 - (1 - |v.x * c|) * (if 0 ≤ v.x * c then 1 else -1) := by
    conv_lhs => rw [hx3]
    rw [mul_right_comm, hkc, one_mul]
  have hy4 : v.y * c = 1 - |1 - (1 - |v.x * c|) * (if 0 ≤ v.x * c then 1 else -1)| *
      (if 0 ≤ v.y * c then 1 else -1) := by
    conv_lhs => rw [hy3]
    rw [mul_right_comm, hkc, one_mul]
  rw [← hx4] at hy4
  generalize v.x * c = p at *
  generalize v.y * c = q at *
  split_ifs at hx4 hy4 with h1 h2 h2
  · rw [abs_of_nonneg h1] at *; rw [abs_of_nonneg h2] at *; linarith
  · rw [abs_of_nonneg h1] at *; linarith
  · linarith
  · linarith

/-- Non-vacuity: unit vectors on both hemispheres. -/
example : V3.length (⟨2/3, -1/3, 2/3⟩ : V3 ℝ) = 1 ∧ V3.length (⟨0, 0, -1⟩ : V3 ℝ) = 1 :=
  ⟨V3.length_of_dot_self (by simp [V3.dot]; norm_num), V3.length_of_dot_self (by simp [V3.dot])⟩

end Zcm
