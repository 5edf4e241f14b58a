import Mathlib.Analysis.SpecialFunctions.Trigonometric.Bounds
import Verif.Lemmas.F32QuatChain
import Verif.Lemmas.F32Scale
import Verif.Lemmas.F32Turn

/-!
# Quaternions from angles in binary32, given a good `sinf` and `cosf`
-/

set_option exponentiation.threshold 300

namespace Zcm

open Quaternion F32

/-- Halving a float is exact, or off by half of the smallest positive number. -/
theorem F32.half_close {a : F32} (ha : a.IsFin = true) :
    (a * lit 0.5 : F32).IsFin = true ∧ |(a * lit 0.5 : F32).val - a.val / 2| ≤ 1 / 2 ^ 150 := by
  have hf : (lit 0.5 : F32).IsFin = true ∧ (lit 0.5 : F32).val = 1 / 2 := ⟨by decide +kernel, by decide +kernel⟩
  have rep := rep_of_isFin ha
  have kv : |a.val * (1 / 2)| * 2 ^ 149 = (a.key.natAbs : ℚ) / 2 := by
    unfold val
    rw [abs_mul, abs_div, abs_of_pos (show (0 : ℚ) < 2 ^ 149 by positivity), Nat.cast_natAbs, Int.cast_abs,
      abs_of_pos (show (0 : ℚ) < 1 / 2 by positivity)]
    field_simp
  have fin : (a * lit 0.5 : F32).IsFin = true := by
    rw [mul_fin ha hf.1, hf.2]
    apply isFin_round
    have h : (a.key.natAbs : ℚ) ≤ 2 ^ 277 := by exact_mod_cast rep.2.le
    have h2 : |a.val * (1 / 2)| * 2 ^ 149 ≤ 2 ^ 276 := by
      rw [kv]
      calc (a.key.natAbs : ℚ) / 2 ≤ 2 ^ 277 / 2 := by gcongr
        _ = 2 ^ 276 := by norm_num
    have h3 : |a.val * (1 / 2)| ≤ 2 ^ 276 / 2 ^ 149 := by
      rwa [le_div_iff₀ (by positivity)]
    exact h3.trans (by norm_num)
  refine ⟨fin, ?_⟩
  rw [mul_fin ha hf.1, hf.2] at fin ⊢
  rw [show a.val / 2 = a.val * (1 / 2) by ring, val_round_sub fin, uround_abs, kv, div_le_iff₀ (by positivity),
    show (1 : ℚ) / 2 ^ 150 * 2 ^ 149 = 1 / 2 by norm_num]
  by_cases h : (2 : ℚ) ^ 23 ≤ (a.key.natAbs : ℚ) / 2
  · have s := roundUnits_scale h 1
    rw [pow_one, pow_one, div_mul_cancel₀ _ two_ne_zero, roundUnits_of_rep' rep.1] at s
    have : ((a.key.natAbs : ℕ) : ℚ) = roundUnits ((a.key.natAbs : ℚ) / 2) * 2 := by exact_mod_cast s
    rw [show (a.key.natAbs : ℚ) / 2 - roundUnits ((a.key.natAbs : ℚ) / 2) = 0 by linarith, abs_zero]
    norm_num
  · have h0 : (0 : ℚ) ≤ (a.key.natAbs : ℚ) / 2 := by positivity
    have e := roundUnits_error h0
    have z : ulpExp ⌊(a.key.natAbs : ℚ) / 2⌋.toNat = 0 := by
      by_contra hne
      have := pow_le_of_floor h0 hne
      apply h
      refine le_trans ?_ this
      exact pow_le_pow_right₀ (by norm_num) (by omega)
    rwa [z, pow_zero] at e

theorem half_real {a : F32} (ha : a.IsFin = true) :
    |((a * lit 0.5 : F32).val : ℝ) - a.val / 2| ≤ 1 / 2 ^ 150 := by
  have : ((|(a * lit 0.5 : F32).val - a.val / 2| : ℚ) : ℝ) ≤ ((1 / 2 ^ 150 : ℚ) : ℝ) := Rat.cast_le.2 (half_close ha).2
  push_cast at this
  exact this

/-- one component of `angleAxis` -/
theorem axis_comp {n s : F32} {N S k : ℝ} (fn : n.IsFin = true) (fs : s.IsFin = true) (k0 : 0 ≤ k) (k6 : k ≤ 6)
    (hn : |(n.val : ℝ) - N| ≤ k / 2 ^ 24 * |N| + 1 / 2 ^ 150) (hs : |(s.val : ℝ) - S| ≤ 2.01 / 2 ^ 24) (S1 : |S| ≤ 1)
    (hN : |N| ≤ 2 ^ 100) :
    (n * s).IsFin = true ∧ |((n * s).val : ℝ) - S * N| ≤ (k + 3.1) / 2 ^ 24 * |N| + 1 / 2 ^ 148 := by
  have N0 := abs_nonneg N
  have s1 : |(s.val : ℝ)| ≤ 1 + 2.01 / 2 ^ 24 := by
    calc |(s.val : ℝ)| = |S + (s.val - S)| := by congr 1; ring
      _ ≤ |S| + |(s.val : ℝ) - S| := abs_add_le _ _
      _ ≤ _ := by linarith
  have n1 : |(n.val : ℝ)| ≤ (1 + 6 / 2 ^ 24) * |N| + 1 / 2 ^ 150 := by
    calc |(n.val : ℝ)| = |N + (n.val - N)| := by congr 1; ring
      _ ≤ |N| + |(n.val : ℝ) - N| := abs_add_le _ _
      _ ≤ |N| + (6 / 2 ^ 24 * |N| + 1 / 2 ^ 150) := by
        refine add_le_add le_rfl (hn.trans ?_)
        gcongr
      _ = _ := by ring
  have p : |(n.val : ℝ) * s.val| ≤ (1 + 9 / 2 ^ 24) * |N| + 1.01 / 2 ^ 150 := by
    rw [abs_mul]
    calc |(n.val : ℝ)| * |(s.val : ℝ)| ≤ ((1 + 6 / 2 ^ 24) * |N| + 1 / 2 ^ 150) * (1 + 2.01 / 2 ^ 24) := by gcongr
      _ = ((1 + 6 / 2 ^ 24) * (1 + 2.01 / 2 ^ 24)) * |N| + (1 + 2.01 / 2 ^ 24) / 2 ^ 150 := by ring
      _ ≤ _ := by gcongr <;> norm_num
  have f : (n * s).IsFin = true := by
    rw [mul_fin fn fs]
    apply isFin_round
    have : |(n.val : ℝ) * s.val| ≤ (2 ^ 24 - 1) * 2 ^ 104 := by
      refine p.trans ?_
      calc (1 + 9 / 2 ^ 24) * |N| + 1.01 / 2 ^ 150 ≤ (1 + 9 / 2 ^ 24 : ℝ) * 2 ^ 100 + 1.01 / 2 ^ 150 := by gcongr
        _ ≤ _ := by norm_num
    exact_mod_cast this
  refine ⟨f, ?_⟩
  have e : |((n * s).val : ℝ) - n.val * s.val| ≤ |(n.val : ℝ) * s.val| / 2 ^ 24 + 1 / 2 ^ 150 := by
    have h : ((|(n * s).val - n.val * s.val| : ℚ) : ℝ) ≤ ((|n.val * s.val| / 2 ^ 24 + 1 / 2 ^ 150 : ℚ) : ℝ) :=
      Rat.cast_le.2 (mul_error fn fs f)
    push_cast at h
    exact h
  have d : |(n.val : ℝ) * s.val - S * N| ≤ (k + 2.05) / 2 ^ 24 * |N| + 1.01 / 2 ^ 150 := by
    calc |(n.val : ℝ) * s.val - S * N| = |(n.val - N) * s.val + N * (s.val - S)| := by congr 1; ring
      _ ≤ |(n.val : ℝ) - N| * |(s.val : ℝ)| + |N| * |(s.val : ℝ) - S| := by
          refine (abs_add_le _ _).trans ?_
          rw [abs_mul, abs_mul]
      _ ≤ (k / 2 ^ 24 * |N| + 1 / 2 ^ 150) * (1 + 2.01 / 2 ^ 24) + |N| * (2.01 / 2 ^ 24) := by gcongr
      _ = (k + k * (2.01 / 2 ^ 24) + 2.01) / 2 ^ 24 * |N| + (1 + 2.01 / 2 ^ 24) / 2 ^ 150 := by ring
      _ ≤ _ := by
          have : k * (2.01 / 2 ^ 24) ≤ 6 * (2.01 / 2 ^ 24) := by gcongr
          refine add_le_add ?_ (by norm_num)
          gcongr ?_ / _ * _
          norm_num at this ⊢
          linarith
  have t := abs_sub_le ((n * s).val : ℝ) (n.val * s.val) (S * N)
  have u : |(n.val : ℝ) * s.val| / 2 ^ 24 ≤ ((1 + 9 / 2 ^ 24) * |N| + 1.01 / 2 ^ 150) / 2 ^ 24 := by gcongr
  have e2 : ((1 + 9 / 2 ^ 24) * |N| + 1.01 / 2 ^ 150) / 2 ^ 24 ≤ 1.01 / 2 ^ 24 * |N| + 0.1 / 2 ^ 150 := by
    rw [add_div]
    refine add_le_add ?_ (by norm_num)
    rw [mul_div_right_comm]
    gcongr
    norm_num
  have : (k + 3.1) / 2 ^ 24 * |N| = (k + 2.05) / 2 ^ 24 * |N| + 1.05 / 2 ^ 24 * |N| := by ring
  have : 1.01 / 2 ^ 24 * |N| ≤ 1.05 / 2 ^ 24 * |N| := by gcongr; norm_num
  have : (1.01 / 2 ^ 150 + 0.1 / 2 ^ 150 + 1 / 2 ^ 150 : ℝ) ≤ 1 / 2 ^ 148 := by norm_num
  linarith

theorem split_sq {a δ : ℝ} : (a + δ) ^ 2 ≤ (1 + 1 / 2 ^ 20) * a ^ 2 + (1 + 2 ^ 20) * δ ^ 2 := by
  nlinarith [sq_nonneg (a / 2 ^ 10 - 2 ^ 10 * δ)]

theorem comp_sq {e N K : ℝ} (h : |e| ≤ K / 2 ^ 24 * |N| + 1 / 2 ^ 148) :
    e ^ 2 ≤ (1 + 1 / 2 ^ 20) * (K / 2 ^ 24) ^ 2 * N ^ 2 + 1 / 2 ^ 270 := by
  have h0 := abs_nonneg e
  calc e ^ 2 = |e| ^ 2 := (sq_abs e).symm
    _ ≤ (K / 2 ^ 24 * |N| + 1 / 2 ^ 148) ^ 2 := by gcongr
    _ ≤ (1 + 1 / 2 ^ 20) * (K / 2 ^ 24 * |N|) ^ 2 + (1 + 2 ^ 20) * (1 / 2 ^ 148) ^ 2 := split_sq
    _ ≤ (1 + 1 / 2 ^ 20) * (K / 2 ^ 24 * |N|) ^ 2 + 1 / 2 ^ 270 := by gcongr; norm_num
    _ = _ := by rw [mul_pow, sq_abs]; ring

theorem turnQ_norm {θ : ℝ} {n : Fin 3 → ℝ} (hn : ∑ i, n i ^ 2 = 1) : ‖turnQ θ n‖ = 1 := by
  rw [← sq_eq_sq₀ (norm_nonneg _) zero_le_one, norm_sq_quat]
  rw [Fin.sum_univ_three] at hn
  have cs := Real.sin_sq_add_cos_sq (θ / 2)
  simp only [turnQ]
  calc _ = Real.cos (θ / 2) ^ 2 + Real.sin (θ / 2) ^ 2 * (n 0 ^ 2 + n 1 ^ 2 + n 2 ^ 2) := by ring
    _ = _ := by rw [hn]; linarith

theorem inv_of_norm_one {q : ℍ[ℝ]} (h : ‖q‖ = 1) : q⁻¹ = star q := by
  rw [Quaternion.inv_def, normSq_eq_norm_mul_self, h]
  simp

/-- Hamilton's and Rodrigues' rotations are the same -/
theorem turnQ_rotates {θ : ℝ} {n : Fin 3 → ℝ} (hn : ∑ i, n i ^ 2 = 1) (p : Fin 3 → ℝ) :
    turnQ θ n * vecQ p * (turnQ θ n)⁻¹ = vecQ (rodrigues θ n p) := by
  have f := rotate_formula (turnQ θ n) (vecQ p) rfl
  rw [turnQ_norm hn, one_pow, sub_self, zero_smul, add_zero] at f
  rw [inv_of_norm_one (turnQ_norm hn), ← f]
  obtain ⟨h0, h1, h2⟩ := rodrigues_apply θ n p
  have cs := Real.sin_sq_add_cos_sq (θ / 2)
  have hs : Real.sin θ = 2 * Real.sin (θ / 2) * Real.cos (θ / 2) := by
    rw [← Real.sin_two_mul]; congr 1; ring
  have hc : Real.cos θ = 2 * Real.cos (θ / 2) ^ 2 - 1 := by
    rw [← Real.cos_two_mul]; congr 1; ring
  rw [Fin.sum_univ_three] at hn
  rw [hs, hc] at h0 h1 h2
  clear f hs hc
  simp only [rotR, turnQ, vecQ, h0, h1, h2]
  generalize Real.cos (θ / 2) = c at *
  generalize Real.sin (θ / 2) = s at *
  clear h0 h1 h2
  generalize n 0 = x at *
  generalize n 1 = y at *
  generalize n 2 = z at *
  generalize p 0 = u at *
  generalize p 1 = v at *
  generalize p 2 = w at *
  ext
  · rfl
  · show u + c * (2 * (s * y * w - s * z * v)) + (s * y * (2 * (s * x * v - s * y * u)) - s * z * (2 * (s * z * u - s * x * w))) = _
    grind
  · show v + c * (2 * (s * z * u - s * x * w)) + (s * z * (2 * (s * y * w - s * z * v)) - s * x * (2 * (s * x * v - s * y * u))) = _
    grind
  · show w + c * (2 * (s * x * v - s * y * u)) + (s * x * (2 * (s * z * u - s * x * w)) - s * y * (2 * (s * y * w - s * z * v))) = _
    grind

/-- rotating by a slightly wrong unit quaternion -/
theorem conj_close {q Q P : ℍ[ℝ]} {d : ℝ} (hQ : ‖Q‖ = 1) (hq : |‖q‖ - 1| ≤ 1 / 2 ^ 20) (h : ‖q - Q‖ ≤ d) :
    ‖q * P * q⁻¹ - Q * P * Q⁻¹‖ ≤ 2.01 * d * ‖P‖ := by
  have hq' := abs_le.1 hq
  have q0 : 0 < ‖q‖ := by linarith
  have qn : q ≠ 0 := norm_pos_iff.1 q0
  have Qn : Q ≠ 0 := norm_pos_iff.1 (by rw [hQ]; norm_num)
  have d0 : 0 ≤ d := (norm_nonneg _).trans h
  have e : q⁻¹ - Q⁻¹ = q⁻¹ * (Q - q) * Q⁻¹ := by
    rw [mul_sub, sub_mul, inv_mul_cancel₀ qn, one_mul, mul_assoc, mul_inv_cancel₀ Qn, mul_one]
  have e2 : q * P * q⁻¹ - Q * P * Q⁻¹ = (q - Q) * P * q⁻¹ + Q * P * (q⁻¹ * (Q - q) * Q⁻¹) := by
    rw [← e]; noncomm_ring
  have i1 : ‖q‖⁻¹ ≤ 1.005 := by
    rw [inv_le_comm₀ q0 (by norm_num)]
    have : (1.005 : ℝ)⁻¹ ≤ 1 - 1 / 2 ^ 20 := by norm_num
    linarith
  have h' : ‖Q - q‖ ≤ d := by rwa [norm_sub_rev]
  rw [e2]
  refine (norm_add_le _ _).trans ?_
  rw [norm_mul, norm_mul, norm_mul, norm_mul, norm_mul, norm_mul, norm_inv, norm_inv, hQ, inv_one, mul_one, one_mul]
  have P0 := norm_nonneg P
  have a1 : ‖q - Q‖ * ‖P‖ * ‖q‖⁻¹ ≤ d * ‖P‖ * 1.005 := by gcongr
  have a2 : ‖P‖ * (‖q‖⁻¹ * ‖Q - q‖) ≤ ‖P‖ * (1.005 * d) := by gcongr
  linarith

theorem ofEuler_def {α : Type} [Add α] [Sub α] [Mul α] [FloatOps α] [Libm α] (e : V3 α) :
    Quat.ofEuler e = (let cx := Libm.cosf (e.x * lit 0.5)
      let cy := Libm.cosf (e.y * lit 0.5)
      let cz := Libm.cosf (e.z * lit 0.5)
      let sx := Libm.sinf (e.x * lit 0.5)
      let sy := Libm.sinf (e.y * lit 0.5)
      let sz := Libm.sinf (e.z * lit 0.5)
      (⟨sx * cy * cz - cx * sy * sz, cx * sy * cz + sx * cy * sz, cx * cy * sz - sx * sy * cz,
        cx * cy * cz + sx * sy * sz⟩ : Quat α)) := rfl

theorem turnQ_euler (a b c : ℝ) :
    turnQ c ![0, 0, 1] * turnQ b ![0, 1, 0] * turnQ a ![1, 0, 0] =
      (⟨Real.cos (a / 2) * Real.cos (b / 2) * Real.cos (c / 2) + Real.sin (a / 2) * Real.sin (b / 2) * Real.sin (c / 2),
        Real.sin (a / 2) * Real.cos (b / 2) * Real.cos (c / 2) - Real.cos (a / 2) * Real.sin (b / 2) * Real.sin (c / 2),
        Real.cos (a / 2) * Real.sin (b / 2) * Real.cos (c / 2) + Real.sin (a / 2) * Real.cos (b / 2) * Real.sin (c / 2),
        Real.cos (a / 2) * Real.cos (b / 2) * Real.sin (c / 2) - Real.sin (a / 2) * Real.sin (b / 2) * Real.cos (c / 2)⟩ :
        ℍ[ℝ]) := by
  ext <;> simp only [re_mul, imI_mul, imJ_mul, imK_mul] <;> simp [turnQ] <;> ring

section Angle

variable [Libm F32]

theorem half_trig (h : GoodTrig) {a : F32} (ha : a.IsFin = true) :
    ((Libm.sinf (a * lit 0.5)).IsFin = true ∧
      |((Libm.sinf (a * lit 0.5)).val : ℝ) - Real.sin (a.val / 2)| ≤ 2.01 / 2 ^ 24) ∧
    ((Libm.cosf (a * lit 0.5)).IsFin = true ∧
      |((Libm.cosf (a * lit 0.5)).val : ℝ) - Real.cos (a.val / 2)| ≤ 2.01 / 2 ^ 24) := by
  obtain ⟨⟨f1, e1⟩, ⟨f2, e2⟩⟩ := h _ (half_close ha).1
  have hr := half_real ha
  have s := (Real.abs_sin_sub_sin_le _ _).trans hr
  have c := (Real.abs_cos_sub_cos_le _ _).trans hr
  have k : (1 / 2 ^ 23 + 1 / 2 ^ 150 : ℝ) ≤ 2.01 / 2 ^ 24 := by norm_num
  exact ⟨⟨f1, (abs_sub_le _ _ _).trans ((add_le_add e1 s).trans k)⟩,
    ⟨f2, (abs_sub_le _ _ _).trans ((add_le_add e2 c).trans k)⟩⟩

theorem angleAxis_core (h : GoodTrig) {a : F32} (ha : a.IsFin = true) {n : V3 F32} (hn : n.Finite) {N : Fin 3 → ℝ}
    {k M B : ℝ} (k0 : 0 ≤ k) (k6 : k ≤ 6)
    (hk : ∀ i, |((coord n i).val : ℝ) - N i| ≤ k / 2 ^ 24 * |N i| + 1 / 2 ^ 150) (hM : 1 ≤ M) (hM2 : M ≤ 2 ^ 100)
    (hN : ∑ i, N i ^ 2 ≤ M ^ 2) (B0 : 0 ≤ B) (hB : 4.05 + 1.00001 * (k + 3.1) ^ 2 ≤ B ^ 2) :
    (Quat.angleAxis a n).Finite ∧ ‖exactQ (Quat.angleAxis a n) - turnQ a.val N‖ ≤ B / 2 ^ 24 * M := by
  obtain ⟨⟨fs, es⟩, ⟨fc, ec⟩⟩ := half_trig h ha
  have S1 := Real.abs_sin_le_one ((a.val : ℝ) / 2)
  have hNi : ∀ i, |N i| ≤ 2 ^ 100 := by
    intro i
    refine le_trans ?_ hM2
    apply abs_le_of_sq_le_sq _ (by linarith)
    exact (Finset.single_le_sum (f := fun i => N i ^ 2) (fun i _ => sq_nonneg _) (Finset.mem_univ i)).trans hN
  have c : ∀ i, (coord n i * Libm.sinf (a * lit 0.5)).IsFin = true ∧
      |((coord n i * Libm.sinf (a * lit 0.5)).val : ℝ) - Real.sin (a.val / 2) * N i| ≤
        (k + 3.1) / 2 ^ 24 * |N i| + 1 / 2 ^ 148 := fun i =>
    axis_comp (hn i) fs k0 k6 (hk i) es S1 (hNi i)
  rw [angleAxis_def]
  refine ⟨fun i => by fin_cases i <;> [exact (c 0).1; exact (c 1).1; exact (c 2).1; exact fc], ?_⟩
  apply le_of_sq_le_sq _ (by positivity)
  rw [norm_sq_quat]
  have q0 := comp_sq (c 0).2
  have q1 := comp_sq (c 1).2
  have q2 := comp_sq (c 2).2
  have qw : (((Libm.cosf (a * lit 0.5)).val : ℝ) - Real.cos (a.val / 2)) ^ 2 ≤ (2.01 / 2 ^ 24) ^ 2 := by
    rw [← sq_abs]
    gcongr
  rw [Fin.sum_univ_three] at hN
  have M1 : 1 ≤ M ^ 2 := by nlinarith
  show (((Libm.cosf (a * lit 0.5)).val : ℝ) - Real.cos (a.val / 2)) ^ 2 +
    (((n.x * Libm.sinf (a * lit 0.5)).val : ℝ) - Real.sin (a.val / 2) * N 0) ^ 2 +
    (((n.y * Libm.sinf (a * lit 0.5)).val : ℝ) - Real.sin (a.val / 2) * N 1) ^ 2 +
    (((n.z * Libm.sinf (a * lit 0.5)).val : ℝ) - Real.sin (a.val / 2) * N 2) ^ 2 ≤ _
  have t : (((n.x * Libm.sinf (a * lit 0.5)).val : ℝ) - Real.sin (a.val / 2) * N 0) ^ 2 +
      (((n.y * Libm.sinf (a * lit 0.5)).val : ℝ) - Real.sin (a.val / 2) * N 1) ^ 2 +
      (((n.z * Libm.sinf (a * lit 0.5)).val : ℝ) - Real.sin (a.val / 2) * N 2) ^ 2 ≤
      (1 + 1 / 2 ^ 20) * ((k + 3.1) / 2 ^ 24) ^ 2 * M ^ 2 + 3 / 2 ^ 270 := by
    have z : 0 ≤ (1 + 1 / 2 ^ 20) * ((k + 3.1) / 2 ^ 24) ^ 2 := by positivity
    have := mul_le_mul_of_nonneg_left hN z
    have q0 : (((n.x * Libm.sinf (a * lit 0.5)).val : ℝ) - Real.sin (a.val / 2) * N 0) ^ 2 ≤ _ := q0
    have q1 : (((n.y * Libm.sinf (a * lit 0.5)).val : ℝ) - Real.sin (a.val / 2) * N 1) ^ 2 ≤ _ := q1
    have q2 : (((n.z * Libm.sinf (a * lit 0.5)).val : ℝ) - Real.sin (a.val / 2) * N 2) ^ 2 ≤ _ := q2
    linarith
  calc _ ≤ (2.01 / 2 ^ 24) ^ 2 + ((1 + 1 / 2 ^ 20) * ((k + 3.1) / 2 ^ 24) ^ 2 * M ^ 2 + 3 / 2 ^ 270) := by linarith
    _ ≤ (4.05 + 1.00001 * (k + 3.1) ^ 2) * (M ^ 2 / (2 ^ 24) ^ 2) := by
        have y : (1 + 1 / 2 ^ 20) * ((k + 3.1) / 2 ^ 24) ^ 2 * M ^ 2 ≤
            1.00001 * (k + 3.1) ^ 2 * (M ^ 2 / (2 ^ 24) ^ 2) := by
          have : 1.00001 * (k + 3.1) ^ 2 * (M ^ 2 / (2 ^ 24) ^ 2) = 1.00001 * ((k + 3.1) / 2 ^ 24) ^ 2 * M ^ 2 := by
            rw [div_pow]; ring
          rw [this]
          gcongr
          norm_num
        have x : ((2.01 / 2 ^ 24) ^ 2 + 3 / 2 ^ 270 : ℝ) ≤ 4.05 * (M ^ 2 / (2 ^ 24) ^ 2) := by
          calc ((2.01 / 2 ^ 24) ^ 2 + 3 / 2 ^ 270 : ℝ) ≤ 4.05 * (1 / (2 ^ 24) ^ 2) := by norm_num
            _ ≤ _ := by gcongr
        linarith
    _ ≤ B ^ 2 * (M ^ 2 / (2 ^ 24) ^ 2) := by gcongr
    _ = _ := by ring

theorem angleAxis_normalize (h : GoodTrig) {a : F32} (ha : a.IsFin = true) {v : V3 F32} (hv : Medium (coord v)) :
    (Quat.angleAxis a (V3.normalize v)).Finite ∧
    ‖exactQ (Quat.angleAxis a (V3.normalize v)) - turnQ a.val (direction v)‖ ≤ 10 / 2 ^ 24 := by
  have n := normalize_almost hv
  have := angleAxis_core h ha (n := V3.normalize v) (fun i => (n i).1) (N := direction v) (k := 6) (M := 1) (B := 10)
    (by norm_num) le_rfl (fun i => by
      have := (n i).2
      unfold direction
      rw [abs_div, abs_of_pos hv.pos]
      exact this) le_rfl (by norm_num) (by rw [direction_unit hv, one_pow]) (by norm_num) (by norm_num)
  rwa [mul_one] at this

theorem near_unit {q Q : ℍ[ℝ]} (hQ : ‖Q‖ = 1) (h : ‖q - Q‖ ≤ 10 / 2 ^ 24) : |‖q‖ - 1| ≤ 1 / 2 ^ 20 := by
  have e := abs_norm_sub_norm_le q Q
  rw [hQ] at e
  exact e.trans (h.trans (by norm_num))

theorem angleAxis_unit (h : GoodTrig) {a : F32} (ha : a.IsFin = true) {v : V3 F32} (hv : Medium (coord v)) :
    |‖exactQ (Quat.angleAxis a (V3.normalize v))‖ - 1| ≤ 1 / 2 ^ 20 :=
  near_unit (turnQ_norm (direction_unit hv)) (angleAxis_normalize h ha hv).2

theorem turn3_close {a b c : F32} {r s t : ℝ} (ha : Close a r 1 1 (2.01 / 2 ^ 24)) (hb : Close b s 1 1 (2.01 / 2 ^ 24))
    (hc : Close c t 1 1 (2.01 / 2 ^ 24)) : Close (a * b * c) (r * s * t) 1 1 (8.1 / 2 ^ 24) :=
  (((ha.mul1 hb (by norm_num) (by norm_num) (by norm_num) (by norm_num) (by norm_num)).weaken (M' := 1)
    (E' := 5.03 / 2 ^ 24) zero_le_one (by norm_num) (by norm_num)).mul1 hc (by norm_num) (by norm_num) (by norm_num)
    (by norm_num) (by norm_num)).weaken zero_le_one (by norm_num) (by norm_num)

theorem turn6_add {a b : F32} {r s : ℝ} (ha : Close a r 1 1 (8.1 / 2 ^ 24)) (hb : Close b s 1 1 (8.1 / 2 ^ 24)) :
    Close (a + b) (r + s) 1 2 (18.3 / 2 ^ 24) :=
  (ha.add hb zero_le_one (by norm_num) (by norm_num)).weaken zero_le_one (by norm_num) (by norm_num)

theorem turn6_sub {a b : F32} {r s : ℝ} (ha : Close a r 1 1 (8.1 / 2 ^ 24)) (hb : Close b s 1 1 (8.1 / 2 ^ 24)) :
    Close (a - b) (r - s) 1 2 (18.3 / 2 ^ 24) :=
  (ha.sub hb zero_le_one (by norm_num) (by norm_num)).weaken zero_le_one (by norm_num) (by norm_num)

theorem euler_close (h : GoodTrig) {e : V3 F32} (he : e.Finite) :
    (Quat.ofEuler e).Finite ∧
    ‖exactQ (Quat.ofEuler e) -
      turnQ e.z.val ![0, 0, 1] * turnQ e.y.val ![0, 1, 0] * turnQ e.x.val ![1, 0, 0]‖ ≤ 1 / 2 ^ 18 := by
  have hs : ∀ {a : F32}, a.IsFin = true → Close (Libm.sinf (a * lit 0.5)) (Real.sin (a.val / 2)) 1 1 (2.01 / 2 ^ 24) :=
    fun ha => ⟨(half_trig h ha).1.1, by rw [one_mul]; exact Real.abs_sin_le_one _, by
      rw [mul_one]; exact (half_trig h ha).1.2⟩
  have hc : ∀ {a : F32}, a.IsFin = true → Close (Libm.cosf (a * lit 0.5)) (Real.cos (a.val / 2)) 1 1 (2.01 / 2 ^ 24) :=
    fun ha => ⟨(half_trig h ha).2.1, by rw [one_mul]; exact Real.abs_cos_le_one _, by
      rw [mul_one]; exact (half_trig h ha).2.2⟩
  have sx := hs (he 0)
  have sy := hs (he 1)
  have sz := hs (he 2)
  have cx := hc (he 0)
  have cy := hc (he 1)
  have cz := hc (he 2)
  have w := turn6_add (turn3_close cx cy cz) (turn3_close sx sy sz)
  have x := turn6_sub (turn3_close sx cy cz) (turn3_close cx sy sz)
  have y := turn6_add (turn3_close cx sy cz) (turn3_close sx cy sz)
  have z := turn6_sub (turn3_close cx cy sz) (turn3_close sx sy cz)
  rw [ofEuler_def, turnQ_euler]
  refine ⟨fun i => by fin_cases i <;> [exact x.fin; exact y.fin; exact z.fin; exact w.fin], ?_⟩
  have ew := w.err
  have ex := x.err
  have ey := y.err
  have ez := z.err
  rw [mul_one] at ew ex ey ez
  exact (quat_norm_le (e := 18.3 / 2 ^ 24) (by norm_num) ew ex ey ez).trans (by norm_num)

end Angle

end Zcm
