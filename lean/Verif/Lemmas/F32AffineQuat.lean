import Verif.Lemmas.F32Mix
import Verif.Lemmas.F32Rotate

/-!
# Lemmas: rotating an interpolated vector
-/

set_option exponentiation.threshold 300

namespace Zcm

open F32 Quaternion

theorem mixS_exact {a b : V3 F32} {t : F32} (ha : a.Finite) (hb : b.Finite) (a1 : 1 / 2 ^ 101 ≤ ‖exactV a‖)
    (a2 : ‖exactV a‖ ≤ 2 ^ 119) (b2 : ‖exactV b‖ ≤ 2 ^ 119) (ft : t.IsFin = true) (h0 : (0 : ℝ) ≤ t.val) (h1 : (t.val : ℝ) ≤ 1) :
    (V3.mixS a b t).Finite ∧
      ‖exactV (V3.mixS a b t) - ((1 - (t.val : ℝ)) • exactV a + (t.val : ℝ) • exactV b)‖ ≤
        6.01 / 2 ^ 24 * (‖exactV a‖ + ‖exactV b‖) := by
  obtain ⟨-, ax, ay, az⟩ := coord_le4 (norm_nonneg _) (norm_sq_quat (exactV a))
  obtain ⟨-, bx, b_y, bz⟩ := coord_le4 (norm_nonneg _) (norm_sq_quat (exactV b))
  have key : ∀ {x y : F32}, x.IsFin = true → y.IsFin = true → |(x.val : ℝ)| ≤ ‖exactV a‖ → |(y.val : ℝ)| ≤ ‖exactV b‖ →
      (F.mix x y t).IsFin = true ∧ |((F.mix x y t).val : ℝ) - ((1 - t.val) * x.val + t.val * y.val)| ≤
        3.005 / 2 ^ 24 * (‖exactV a‖ + ‖exactV b‖) := by
    intro x y fx fy hx hy
    obtain ⟨f, e⟩ := mix_near fx fy ft (by linarith) (by linarith) (abs_le.2 ⟨by linarith, h1⟩)
    refine ⟨f, ?_⟩
    have w : wayFrom (x.val : ℝ) y.val t.val = (1 - t.val) * x.val + t.val * y.val := by unfold wayFrom; ring
    have b1 : |wayFrom (x.val : ℝ) y.val t.val| ≤ |(x.val : ℝ)| + |(y.val : ℝ)| := by
      rw [w]
      refine (abs_add_le _ _).trans ?_
      rw [abs_mul, abs_mul, abs_of_nonneg h0, abs_of_nonneg (by linarith : (0 : ℝ) ≤ 1 - t.val)]
      exact add_le_add (mul_le_of_le_one_left (abs_nonneg _) (by linarith)) (mul_le_of_le_one_left (abs_nonneg _) h1)
    have b2 : |(t.val : ℝ) * (y.val - x.val)| ≤ |(x.val : ℝ)| + |(y.val : ℝ)| := by
      rw [abs_mul, abs_of_nonneg h0]
      refine (mul_le_of_le_one_left (abs_nonneg _) h1).trans ?_
      rw [add_comm]; exact abs_sub _ _
    rw [← w]
    refine e.trans ?_
    have B0 : 0 ≤ ‖exactV b‖ := norm_nonneg _
    generalize |wayFrom (x.val : ℝ) y.val t.val| = p at *
    generalize |(t.val : ℝ) * (y.val - x.val)| = q at *
    generalize ‖exactV a‖ = A at *
    generalize ‖exactV b‖ = B at *
    generalize |(x.val : ℝ)| = ux at *
    generalize |(y.val : ℝ)| = uy at *
    norm_num at *
    linarith
  obtain ⟨fx, ex⟩ := key (ha 0) (hb 0) ax bx
  obtain ⟨fy, ey⟩ := key (ha 1) (hb 1) ay b_y
  obtain ⟨fz, ez⟩ := key (ha 2) (hb 2) az bz
  refine ⟨fun i => by fin_cases i <;> assumption, ?_⟩
  refine (quat_norm_le (e := 3.005 / 2 ^ 24 * (‖exactV a‖ + ‖exactV b‖)) (by positivity) ?_ ?_ ?_ ?_).trans (le_of_eq ?_)
  · have : (exactV (V3.mixS a b t) - ((1 - (t.val : ℝ)) • exactV a + (t.val : ℝ) • exactV b)).re =
        0 - ((1 - (t.val : ℝ)) * 0 + (t.val : ℝ) * 0) := rfl
    rw [this, mul_zero, mul_zero, add_zero, sub_zero, abs_zero]
    positivity
  · exact ex
  · exact ey
  · exact ez
  · ring

theorem quat_mix {q : Quat F32} {a b : V3 F32} {t : F32} (hq : q.Finite) (hu : |‖exactQ q‖ - 1| ≤ 1 / 2 ^ 20)
    (ha : a.Finite) (hb : b.Finite) (a1 : 1 / 2 ^ 100 ≤ ‖exactV a‖) (a2 : ‖exactV a‖ ≤ 2 ^ 118)
    (b1 : 1 / 2 ^ 100 ≤ ‖exactV b‖) (b2 : ‖exactV b‖ ≤ 2 ^ 118) (ft : t.IsFin = true) (h0 : (0 : ℝ) ≤ t.val)
    (h1 : (t.val : ℝ) ≤ 1) (hm : 1 / 2 ^ 100 ≤ ‖exactV (V3.mixS a b t)‖) :
    V3.Finite (q * V3.mixS a b t) ∧ V3.Finite (V3.mixS (q * a) (q * b) t) ∧
      ‖exactV (q * V3.mixS a b t) - exactV (V3.mixS (q * a) (q * b) t)‖ ≤ 1 / 2 ^ 14 * (‖exactV a‖ + ‖exactV b‖) := by
  have cn : ∀ v : ℍ[ℝ], ‖exactQ q * v * (exactQ q)⁻¹‖ = ‖v‖ := by
    intro v
    have : 0 < ‖exactQ q‖ := by have := (abs_le.1 hu).1; linarith
    rw [norm_mul, norm_mul, norm_inv]
    field_simp
  obtain ⟨fm, em⟩ := mixS_exact ha hb (by norm_num at *; linarith) (by norm_num at *; linarith) (by norm_num at *; linarith) ft h0 h1
  have t0 : (0 : ℝ) ≤ 1 - t.val := by linarith
  have mn : ‖(1 - (t.val : ℝ)) • exactV a + (t.val : ℝ) • exactV b‖ ≤ ‖exactV a‖ + ‖exactV b‖ := by
    refine (norm_add_le _ _).trans ?_
    rw [norm_smul, norm_smul, Real.norm_of_nonneg h0, Real.norm_of_nonneg t0]
    exact add_le_add (mul_le_of_le_one_left (norm_nonneg _) (by linarith)) (mul_le_of_le_one_left (norm_nonneg _) h1)
  have mn2 : ‖exactV (V3.mixS a b t)‖ ≤ 1.00001 * (‖exactV a‖ + ‖exactV b‖) := by
    have := norm_le_norm_add_norm_sub' (exactV (V3.mixS a b t)) ((1 - (t.val : ℝ)) • exactV a + (t.val : ℝ) • exactV b)
    have A0 : 0 ≤ ‖exactV a‖ := norm_nonneg _
    have B0 : 0 ≤ ‖exactV b‖ := norm_nonneg _
    norm_num at *
    linarith
  obtain ⟨ga, ea⟩ := rotate_close q a hq ha hu a1 (by norm_num at *; linarith)
  obtain ⟨gb, eb⟩ := rotate_close q b hq hb hu b1 (by norm_num at *; linarith)
  obtain ⟨gm, er⟩ := rotate_close q _ hq fm hu hm (by norm_num at *; linarith)
  have na : |‖exactV (q * a)‖ - ‖exactV a‖| ≤ 1 / 2 ^ 16 * ‖exactV a‖ := by
    have := abs_norm_sub_norm_le (exactV (q * a)) (exactQ q * exactV a * (exactQ q)⁻¹)
    rw [cn] at this
    exact this.trans ea
  have nb : |‖exactV (q * b)‖ - ‖exactV b‖| ≤ 1 / 2 ^ 16 * ‖exactV b‖ := by
    have := abs_norm_sub_norm_le (exactV (q * b)) (exactQ q * exactV b * (exactQ q)⁻¹)
    rw [cn] at this
    exact this.trans eb
  have na' := abs_le.1 na
  have nb' := abs_le.1 nb
  obtain ⟨gw, ew⟩ := mixS_exact (a := q * a) (b := q * b) ga gb (by norm_num at *; linarith) (by norm_num at *; linarith)
    (by norm_num at *; linarith) ft h0 h1
  refine ⟨gm, gw, ?_⟩
  have D1 : ‖exactQ q * exactV (V3.mixS a b t) * (exactQ q)⁻¹ - ((1 - (t.val : ℝ)) • (exactQ q * exactV a * (exactQ q)⁻¹) +
      (t.val : ℝ) • (exactQ q * exactV b * (exactQ q)⁻¹))‖ ≤ 6.01 / 2 ^ 24 * (‖exactV a‖ + ‖exactV b‖) := by
    rw [show exactQ q * exactV (V3.mixS a b t) * (exactQ q)⁻¹ - ((1 - (t.val : ℝ)) • (exactQ q * exactV a * (exactQ q)⁻¹) +
      (t.val : ℝ) • (exactQ q * exactV b * (exactQ q)⁻¹)) =
      exactQ q * (exactV (V3.mixS a b t) - ((1 - (t.val : ℝ)) • exactV a + (t.val : ℝ) • exactV b)) * (exactQ q)⁻¹ by
        rw [mul_sub, mul_add, sub_mul, add_mul, mul_smul_comm, mul_smul_comm, smul_mul_assoc, smul_mul_assoc], cn]
    exact em
  have D2 : ‖((1 - (t.val : ℝ)) • exactV (q * a) + (t.val : ℝ) • exactV (q * b)) - ((1 - (t.val : ℝ)) • (exactQ q * exactV a * (exactQ q)⁻¹) +
      (t.val : ℝ) • (exactQ q * exactV b * (exactQ q)⁻¹))‖ ≤ 1 / 2 ^ 16 * (‖exactV a‖ + ‖exactV b‖) := by
    rw [show ((1 - (t.val : ℝ)) • exactV (q * a) + (t.val : ℝ) • exactV (q * b)) - ((1 - (t.val : ℝ)) • (exactQ q * exactV a * (exactQ q)⁻¹) +
      (t.val : ℝ) • (exactQ q * exactV b * (exactQ q)⁻¹)) =
      (1 - (t.val : ℝ)) • (exactV (q * a) - exactQ q * exactV a * (exactQ q)⁻¹) +
        (t.val : ℝ) • (exactV (q * b) - exactQ q * exactV b * (exactQ q)⁻¹) by rw [smul_sub, smul_sub]; abel]
    refine (norm_add_le _ _).trans ?_
    rw [norm_smul, norm_smul, Real.norm_of_nonneg h0, Real.norm_of_nonneg t0, mul_add]
    exact add_le_add ((mul_le_of_le_one_left (norm_nonneg _) (by linarith)).trans ea)
      ((mul_le_of_le_one_left (norm_nonneg _) h1).trans eb)
  have A0 : 0 ≤ ‖exactV a‖ := norm_nonneg _
  have B0 : 0 ≤ ‖exactV b‖ := norm_nonneg _
  clear em mn cn hm gm gw fm ga gb
  generalize exactQ q * exactV (V3.mixS a b t) * (exactQ q)⁻¹ = Y1 at *
  generalize (1 - (t.val : ℝ)) • exactV (q * a) + (t.val : ℝ) • exactV (q * b) = Y3 at *
  generalize (1 - (t.val : ℝ)) • (exactQ q * exactV a * (exactQ q)⁻¹) +
      (t.val : ℝ) • (exactQ q * exactV b * (exactQ q)⁻¹) = Y2 at *
  generalize exactV (q * V3.mixS a b t) = Y0 at *
  generalize exactV (V3.mixS (q * a) (q * b) t) = Y4 at *
  have tri : ‖Y0 - Y4‖ ≤ ‖Y0 - Y1‖ + ‖Y1 - Y2‖ + ‖Y3 - Y2‖ + ‖Y4 - Y3‖ := by
    have : Y0 - Y4 = (Y0 - Y1) + (Y1 - Y2) + -(Y3 - Y2) + -(Y4 - Y3) := by abel
    rw [this]
    refine (norm_add_le _ _).trans (add_le_add ((norm_add_le _ _).trans (add_le_add (norm_add_le _ _) ?_)) ?_) <;> rw [norm_neg]
  obtain ⟨-, na2⟩ := na'
  obtain ⟨-, nb2⟩ := nb'
  clear na nb
  generalize ‖Y0 - Y4‖ = r0 at *
  generalize ‖Y0 - Y1‖ = r1 at *
  generalize ‖Y1 - Y2‖ = r2 at *
  generalize ‖Y3 - Y2‖ = r3 at *
  generalize ‖Y4 - Y3‖ = r4 at *
  generalize ‖exactV (q * a)‖ = A1 at *
  generalize ‖exactV (q * b)‖ = B1 at *
  generalize ‖exactV (V3.mixS a b t)‖ = M1 at *
  generalize ‖exactV a‖ = A at *
  generalize ‖exactV b‖ = B at *
  norm_num at *
  linarith

end Zcm
