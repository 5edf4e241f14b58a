import Verif.Lemmas.F32Linear
import Verif.Lemmas.F32Mix

/-!
# Lemmas: sums of products and interpolation
-/

set_option exponentiation.threshold 300

namespace Zcm

open F32

theorem mix_nearQ {x y t : F32} (fx : x.IsFin = true) (fy : y.IsFin = true) (ft : t.IsFin = true)
    (hx : |x.val| ≤ 2 ^ 124) (hy : |y.val| ≤ 2 ^ 124) (h0 : 0 ≤ t.val) (h1 : t.val ≤ 1) :
    (F.mix x y t).IsFin = true ∧
      |(F.mix x y t).val - ((1 - t.val) * x.val + t.val * y.val)| ≤ 3.001 / 2 ^ 24 * (|x.val| + |y.val|) + 1 / 2 ^ 149 := by
  have hxR : |(x.val : ℝ)| ≤ 2 ^ 124 := by exact_mod_cast hx
  have hyR : |(y.val : ℝ)| ≤ 2 ^ 124 := by exact_mod_cast hy
  have h0R : (0 : ℝ) ≤ t.val := by exact_mod_cast h0
  have h1R : (t.val : ℝ) ≤ 1 := by exact_mod_cast h1
  obtain ⟨f, e⟩ := mix_near fx fy ft hxR hyR (abs_le.2 ⟨by linarith, h1R⟩)
  refine ⟨f, ?_⟩
  have w : wayFrom (x.val : ℝ) y.val t.val = (1 - t.val) * x.val + t.val * y.val := by unfold wayFrom; ring
  have b1 : |wayFrom (x.val : ℝ) y.val t.val| ≤ |(x.val : ℝ)| + |(y.val : ℝ)| := by
    rw [w]
    refine (abs_add_le _ _).trans ?_
    rw [abs_mul, abs_mul, abs_of_nonneg h0R, abs_of_nonneg (by linarith : (0 : ℝ) ≤ 1 - t.val)]
    exact add_le_add (mul_le_of_le_one_left (abs_nonneg _) (by linarith)) (mul_le_of_le_one_left (abs_nonneg _) h1R)
  have b2 : |(t.val : ℝ) * (y.val - x.val)| ≤ |(x.val : ℝ)| + |(y.val : ℝ)| := by
    rw [abs_mul, abs_of_nonneg h0R]
    refine (mul_le_of_le_one_left (abs_nonneg _) h1R).trans ?_
    rw [add_comm]; exact abs_sub _ _
  have : |((F.mix x y t).val : ℝ) - ((1 - t.val) * x.val + t.val * y.val)| ≤
      3001 / 1000 / 2 ^ 24 * (|(x.val : ℝ)| + |(y.val : ℝ)|) + 1 / 2 ^ 149 := by
    rw [← w]
    refine e.trans ?_
    generalize |wayFrom (x.val : ℝ) y.val t.val| = p at *
    generalize |(t.val : ℝ) * (y.val - x.val)| = q at *
    norm_num at *
    linarith
  have q : |(F.mix x y t).val - ((1 - t.val) * x.val + t.val * y.val)| ≤
      3001 / 1000 / 2 ^ 24 * (|x.val| + |y.val|) + 1 / 2 ^ 149 := by
    rw [← Rat.cast_le (K := ℝ)]
    push_cast
    exact this
  refine q.trans (le_of_eq ?_)
  norm_num

/-- An accurate sum of products with an interpolated vector is close to the interpolation of the sums. -/
theorem affine_core {n : ℕ} (hn : n ≤ 4) {x y z t : F32} {m a b c : Fin n → F32} (hx : AccurateSum x m c)
    (hy : AccurateSum y m a) (hz : AccurateSum z m b) (hc : ∀ i, c i = F.mix (a i) (b i) t)
    (fm : ∀ i, (m i).IsFin = true) (fa : ∀ i, (a i).IsFin = true ∧ |(a i).val| ≤ 2 ^ 124)
    (fb : ∀ i, (b i).IsFin = true ∧ |(b i).val| ≤ 2 ^ 124) (ft : t.IsFin = true) (h0 : 0 ≤ t.val) (h1 : t.val ≤ 1)
    (hT : ∑ i, |(m i).val| * (|(a i).val| + |(b i).val|) ≤ 2 ^ 123) (hM : ∑ i, |(m i).val| ≤ 2 ^ 123) :
    x.IsFin = true ∧ (F.mix y z t).IsFin = true ∧
      |x.val - (F.mix y z t).val| ≤ 15 / 2 ^ 24 * ∑ i, |(m i).val| * (|(a i).val| + |(b i).val|) +
        (2 * ∑ i, |(m i).val| + 20) / 2 ^ 149 := by
  have mix := fun i => mix_nearQ (fa i).1 (fb i).1 ft (fa i).2 (fb i).2 h0 h1
  simp only [← hc] at mix
  set T := ∑ i, |(m i).val| * (|(a i).val| + |(b i).val|) with hTdef
  set M := ∑ i, |(m i).val| with hMdef
  have T0 : 0 ≤ T := Finset.sum_nonneg fun i _ => by positivity
  have M0 : 0 ≤ M := Finset.sum_nonneg fun i _ => by positivity
  have Ta : ∑ i, |(m i).val * (a i).val| + ∑ i, |(m i).val * (b i).val| = T := by
    rw [← Finset.sum_add_distrib]
    exact Finset.sum_congr rfl fun i _ => by rw [abs_mul, abs_mul]; ring
  have A0 : 0 ≤ ∑ i, |(m i).val * (a i).val| := Finset.sum_nonneg fun i _ => abs_nonneg _
  have B0 : 0 ≤ ∑ i, |(m i).val * (b i).val| := Finset.sum_nonneg fun i _ => abs_nonneg _
  have wb : ∀ p q : ℚ, |(1 - t.val) * p + t.val * q| ≤ |p| + |q| := fun p q => by
    refine (abs_add_le _ _).trans ?_
    rw [abs_mul, abs_mul, abs_of_nonneg h0, abs_of_nonneg (by linarith : 0 ≤ 1 - t.val)]
    exact add_le_add (mul_le_of_le_one_left (abs_nonneg _) (by linarith)) (mul_le_of_le_one_left (abs_nonneg _) h1)
  have cb : ∀ i, |(c i).val| ≤ 1.001 * (|(a i).val| + |(b i).val|) + 1 / 2 ^ 149 := fun i => by
    have t' := abs_sub_abs_le_abs_sub (c i).val ((1 - t.val) * (a i).val + t.val * (b i).val)
    have e := (mix i).2
    have w := wb (a i).val (b i).val
    have s0 : 0 ≤ |(a i).val| + |(b i).val| := by positivity
    generalize |(a i).val| + |(b i).val| = s at *
    norm_num at *
    linarith
  have Tc : ∑ i, |(m i).val * (c i).val| ≤ 1.001 * T + M / 2 ^ 149 := by
    rw [hTdef, hMdef, Finset.mul_sum, Finset.sum_div, ← Finset.sum_add_distrib]
    refine Finset.sum_le_sum fun i _ => ?_
    rw [abs_mul]
    calc |(m i).val| * |(c i).val| ≤ |(m i).val| * (1.001 * (|(a i).val| + |(b i).val|) + 1 / 2 ^ 149) := by
          gcongr; exact cb i
      _ = _ := by ring
  have C0 : 0 ≤ ∑ i, |(m i).val * (c i).val| := Finset.sum_nonneg fun i _ => abs_nonneg _
  have Fx := hx.1 (fun i => ⟨fm i, (mix i).1⟩) (by norm_num at *; linarith)
  have Fy := hy.1 (fun i => ⟨fm i, (fa i).1⟩) (by norm_num at *; linarith)
  have Fz := hz.1 (fun i => ⟨fm i, (fb i).1⟩) (by norm_num at *; linarith)
  have dx := hx.2 Fx
  have dy := hy.2 Fy
  have dz := hz.2 Fz
  have D : |∑ i, (m i).val * (c i).val - ((1 - t.val) * ∑ i, (m i).val * (a i).val + t.val * ∑ i, (m i).val * (b i).val)| ≤
      3.001 / 2 ^ 24 * T + M / 2 ^ 149 := by
    rw [Finset.mul_sum, Finset.mul_sum, ← Finset.sum_add_distrib, ← Finset.sum_sub_distrib, hTdef, hMdef, Finset.mul_sum,
      Finset.sum_div, ← Finset.sum_add_distrib]
    refine (Finset.abs_sum_le_sum_abs _ _).trans (Finset.sum_le_sum fun i _ => ?_)
    rw [show (m i).val * (c i).val - ((1 - t.val) * ((m i).val * (a i).val) + t.val * ((m i).val * (b i).val)) =
      (m i).val * ((c i).val - ((1 - t.val) * (a i).val + t.val * (b i).val)) by ring, abs_mul]
    calc |(m i).val| * |(c i).val - ((1 - t.val) * (a i).val + t.val * (b i).val)| ≤
          |(m i).val| * (3.001 / 2 ^ 24 * (|(a i).val| + |(b i).val|) + 1 / 2 ^ 149) := by
            gcongr; exact (mix i).2
      _ = _ := by ring
  have g := growth_le hn
  have hn' : (n : ℚ) ≤ 4 := by exact_mod_cast hn
  have tiny : (n : ℚ) / 2 ^ 149 ≤ 4 / 2 ^ 149 := by gcongr
  have gA := mul_le_mul_of_nonneg_right g A0
  have gB := mul_le_mul_of_nonneg_right g B0
  have gC := mul_le_mul_of_nonneg_right g C0
  have SA : |∑ i, (m i).val * (a i).val| ≤ ∑ i, |(m i).val * (a i).val| := Finset.abs_sum_le_sum_abs _ _
  have SB : |∑ i, (m i).val * (b i).val| ≤ ∑ i, |(m i).val * (b i).val| := Finset.abs_sum_le_sum_abs _ _
  clear mix cb hc
  generalize ((1 + 1 / 2 ^ 24) ^ n - 1 : ℚ) = G at *
  generalize (n : ℚ) / 2 ^ 149 = tn at *
  clear_value T M
  clear hTdef hMdef
  generalize ∑ i, |(m i).val * (a i).val| = TA at *
  generalize ∑ i, |(m i).val * (b i).val| = TB at *
  generalize ∑ i, |(m i).val * (c i).val| = TC at *
  generalize ∑ i, (m i).val * (a i).val = EA at *
  generalize ∑ i, (m i).val * (b i).val = EB at *
  generalize ∑ i, (m i).val * (c i).val = EC at *
  have ya : |y.val| ≤ |EA| + |y.val - EA| := by
    have := abs_sub_abs_le_abs_sub y.val EA
    linarith
  have za : |z.val| ≤ |EB| + |z.val - EB| := by
    have := abs_sub_abs_le_abs_sub z.val EB
    linarith
  obtain ⟨fw, ew⟩ := mix_nearQ Fy Fz ft (by norm_num at *; linarith) (by norm_num at *; linarith) h0 h1
  refine ⟨Fx, fw, ?_⟩
  have W : |(1 - t.val) * y.val + t.val * z.val - ((1 - t.val) * EA + t.val * EB)| ≤ |y.val - EA| + |z.val - EB| := by
    have := wb (y.val - EA) (z.val - EB)
    rwa [show (1 - t.val) * (y.val - EA) + t.val * (z.val - EB) =
      (1 - t.val) * y.val + t.val * z.val - ((1 - t.val) * EA + t.val * EB) by ring] at this
  generalize (F.mix y z t).val = wv at *
  generalize (1 - t.val) * y.val + t.val * z.val = q1 at *
  generalize (1 - t.val) * EA + t.val * EB = q2 at *
  have tri : |x.val - wv| ≤ |x.val - EC| + |EC - q2| + |q1 - q2| + |wv - q1| := by
    have : x.val - wv = (x.val - EC) + (EC - q2) + -(q1 - q2) + -(wv - q1) := by ring
    rw [this]
    refine (abs_add_le _ _).trans (add_le_add ((abs_add_le _ _).trans (add_le_add (abs_add_le _ _) ?_)) ?_) <;> rw [abs_neg]
  generalize |x.val - wv| = r0 at *
  generalize |x.val - EC| = r1 at *
  generalize |EC - q2| = r2 at *
  generalize |q1 - q2| = r3 at *
  generalize |wv - q1| = r4 at *
  generalize |y.val - EA| = r5 at *
  generalize |z.val - EB| = r6 at *
  generalize |y.val| = r7 at *
  generalize |z.val| = r8 at *
  generalize |EA| = r9 at *
  generalize |EB| = r10 at *
  norm_num at *
  linarith

end Zcm
