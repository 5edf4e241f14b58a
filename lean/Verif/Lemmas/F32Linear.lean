import Verif.Lemmas.F32Approx
import Verif.Lemmas.F32Rel
import Verif.Spec.Accuracy

/-!
# Lemmas: linearity of sums of products in float arithmetic
-/

set_option exponentiation.threshold 300

namespace Zcm

open F32

theorem sum_comm2 (a b c d : F32) : a * b + c * d = b * a + d * c := by
  rw [F32.mul_comm' a, F32.mul_comm' c]

theorem sum_comm3 (a b c d e f : F32) : a * b + c * d + e * f = b * a + d * c + f * e := by
  rw [F32.mul_comm' a, F32.mul_comm' c, F32.mul_comm' e]

theorem sum_comm4 (a b c d e f g h : F32) : a * b + c * d + e * f + g * h = b * a + d * c + f * e + h * g := by
  rw [F32.mul_comm' a, F32.mul_comm' c, F32.mul_comm' e, F32.mul_comm' g]

theorem growth_le {n : ℕ} (hn : n ≤ 4) : ((1 + 1 / 2 ^ 24) ^ n - 1 : ℚ) ≤ 4.001 / 2 ^ 24 := by
  calc ((1 + 1 / 2 ^ 24) ^ n - 1 : ℚ) ≤ (1 + 1 / 2 ^ 24) ^ 4 - 1 :=
        sub_le_sub_right (pow_le_pow_right₀ (by norm_num) hn) 1
    _ ≤ _ := by norm_num

/-- two accurate values of the same sum are close -/
theorem same_sum {x y : F32} {a b : Fin 4 → F32} (hx : AccurateSum x a b) (hy : AccurateSum y a b)
    (fa : ∀ i, (a i).IsFin = true) (fb : ∀ i, (b i).IsFin = true) (hT : ∑ i, |(a i).val * (b i).val| ≤ 2 ^ 126) :
    |x.val - y.val| ≤ 9 / 2 ^ 24 * ∑ i, |(a i).val * (b i).val| + 1 / 2 ^ 146 := by
  have dx := hx.2 (hx.1 (fun i => ⟨fa i, fb i⟩) hT)
  have dy := hy.2 (hy.1 (fun i => ⟨fa i, fb i⟩) hT)
  have t := abs_sub_le x.val (∑ i, (a i).val * (b i).val) y.val
  rw [abs_sub_comm (∑ i, (a i).val * (b i).val) y.val] at t
  have T0 : 0 ≤ ∑ i, |(a i).val * (b i).val| := Finset.sum_nonneg fun i _ => abs_nonneg _
  have g := mul_le_mul_of_nonneg_right (growth_le (n := 4) le_rfl) T0
  have e : ((4 : ℕ) : ℚ) = 4 := by norm_num
  rw [e] at dx dy
  generalize ((1 + 1 / 2 ^ 24) ^ 4 - 1 : ℚ) = G at *
  norm_num at *
  linarith

/-- the core of linearity: `s` is 1 or -1 -/
theorem linear_core {n : ℕ} (hn : n ≤ 4) {x y z w : F32} {m a b c : Fin n → F32} {s : ℚ} (hs : |s| = 1) (hx : AccurateSum x m c)
    (hy : AccurateSum y m a) (hz : AccurateSum z m b) (fm : ∀ i, (m i).IsFin = true) (fa : ∀ i, (a i).IsFin = true)
    (fb : ∀ i, (b i).IsFin = true) (hT : ∑ i, |(m i).val| * (|(a i).val| + |(b i).val|) ≤ 2 ^ 125)
    (fc : ∀ i, (c i).IsFin = true)
    (hc : ∀ i, |(c i).val - ((a i).val + s * (b i).val)| ≤ |(a i).val + s * (b i).val| / 2 ^ 24)
    (hw : y.IsFin = true → z.IsFin = true → |y.val + s * z.val| ≤ 2 ^ 127 →
      w.IsFin = true ∧ |w.val - (y.val + s * z.val)| ≤ |y.val + s * z.val| / 2 ^ 24) :
    x.IsFin = true ∧ w.IsFin = true ∧
      |x.val - w.val| ≤ 11 / 2 ^ 24 * ∑ i, |(m i).val| * (|(a i).val| + |(b i).val|) + 1 / 2 ^ 144 := by
  have absS : ∀ t : ℚ, |s * t| = |t| := fun t => by rw [abs_mul, hs, one_mul]
  set T := ∑ i, |(m i).val| * (|(a i).val| + |(b i).val|) with hTdef
  have T0 : 0 ≤ T := Finset.sum_nonneg fun i _ => by positivity
  -- the sums of magnitudes
  have Ta : ∑ i, |(m i).val * (a i).val| + ∑ i, |(m i).val * (b i).val| = T := by
    rw [← Finset.sum_add_distrib]
    exact Finset.sum_congr rfl fun i _ => by rw [abs_mul, abs_mul]; ring
  have A0 : 0 ≤ ∑ i, |(m i).val * (a i).val| := Finset.sum_nonneg fun i _ => abs_nonneg _
  have B0 : 0 ≤ ∑ i, |(m i).val * (b i).val| := Finset.sum_nonneg fun i _ => abs_nonneg _
  have ab : ∀ i, |(a i).val + s * (b i).val| ≤ |(a i).val| + |(b i).val| := fun i =>
    (abs_add_le _ _).trans (by rw [absS])
  have cb : ∀ i, |(c i).val| ≤ (1 + 1 / 2 ^ 24) * (|(a i).val| + |(b i).val|) := fun i => by
    have t := abs_sub_abs_le_abs_sub (c i).val ((a i).val + s * (b i).val)
    have := hc i
    have := ab i
    linarith
  have Tc : ∑ i, |(m i).val * (c i).val| ≤ (1 + 1 / 2 ^ 24) * T := by
    rw [hTdef, Finset.mul_sum]
    refine Finset.sum_le_sum fun i _ => ?_
    rw [abs_mul]
    calc |(m i).val| * |(c i).val| ≤ |(m i).val| * ((1 + 1 / 2 ^ 24) * (|(a i).val| + |(b i).val|)) := by gcongr; exact cb i
      _ = _ := by ring
  have C0 : 0 ≤ ∑ i, |(m i).val * (c i).val| := Finset.sum_nonneg fun i _ => abs_nonneg _
  have Fx := hx.1 (fun i => ⟨fm i, fc i⟩) (by norm_num at *; linarith)
  have Fy := hy.1 (fun i => ⟨fm i, fa i⟩) (by norm_num at *; linarith)
  have Fz := hz.1 (fun i => ⟨fm i, fb i⟩) (by norm_num at *; linarith)
  have dx := hx.2 Fx
  have dy := hy.2 Fy
  have dz := hz.2 Fz
  have g := growth_le hn
  have hn' : (n : ℚ) ≤ 4 := by exact_mod_cast hn
  have tiny : (n : ℚ) / 2 ^ 149 ≤ 1 / 2 ^ 147 := by
    calc (n : ℚ) / 2 ^ 149 ≤ 4 / 2 ^ 149 := by gcongr
      _ = _ := by norm_num
  have gA := mul_le_mul_of_nonneg_right g A0
  have gB := mul_le_mul_of_nonneg_right g B0
  have gC := mul_le_mul_of_nonneg_right g C0
  generalize ((1 + 1 / 2 ^ 24) ^ n - 1 : ℚ) = G at *
  generalize (n : ℚ) / 2 ^ 149 = t at *
  -- the exact difference
  have D : |∑ i, (m i).val * (c i).val - (∑ i, (m i).val * (a i).val + s * ∑ i, (m i).val * (b i).val)| ≤ T / 2 ^ 24 := by
    rw [Finset.mul_sum, ← Finset.sum_add_distrib, ← Finset.sum_sub_distrib, hTdef, Finset.sum_div]
    refine (Finset.abs_sum_le_sum_abs _ _).trans (Finset.sum_le_sum fun i _ => ?_)
    rw [show (m i).val * (c i).val - ((m i).val * (a i).val + s * ((m i).val * (b i).val)) =
      (m i).val * ((c i).val - ((a i).val + s * (b i).val)) by ring, abs_mul]
    calc |(m i).val| * |(c i).val - ((a i).val + s * (b i).val)| ≤ |(m i).val| * ((|(a i).val| + |(b i).val|) / 2 ^ 24) := by
          gcongr
          exact (hc i).trans (by gcongr; exact ab i)
      _ = _ := by ring
  have SA : |∑ i, (m i).val * (a i).val| ≤ ∑ i, |(m i).val * (a i).val| := Finset.abs_sum_le_sum_abs _ _
  have SB : |∑ i, (m i).val * (b i).val| ≤ ∑ i, |(m i).val * (b i).val| := Finset.abs_sum_le_sum_abs _ _
  generalize ∑ i, |(m i).val * (a i).val| = TA at *
  generalize ∑ i, |(m i).val * (b i).val| = TB at *
  generalize ∑ i, |(m i).val * (c i).val| = TC at *
  generalize ∑ i, (m i).val * (a i).val = EA at *
  generalize ∑ i, (m i).val * (b i).val = EB at *
  generalize ∑ i, (m i).val * (c i).val = EC at *
  have yz : |y.val + s * z.val - (EA + s * EB)| ≤ |y.val - EA| + |z.val - EB| := by
    rw [show y.val + s * z.val - (EA + s * EB) = (y.val - EA) + s * (z.val - EB) by ring]
    exact (abs_add_le _ _).trans (by rw [absS])
  have EAB : |EA + s * EB| ≤ TA + TB := (abs_add_le _ _).trans (by rw [absS]; linarith)
  have mag : |y.val + s * z.val| ≤ (1 + 5 / 2 ^ 24) * T + 1 / 2 ^ 145 := by
    have := abs_sub_abs_le_abs_sub (y.val + s * z.val) (EA + s * EB)
    norm_num at *
    linarith
  obtain ⟨Fw, dw⟩ := hw Fy Fz (by norm_num at *; linarith)
  refine ⟨Fx, Fw, ?_⟩
  have t1 := abs_sub_le x.val EC w.val
  have t2 := abs_sub_le EC (EA + s * EB) w.val
  have t3 := abs_sub_le (EA + s * EB) (y.val + s * z.val) w.val
  rw [abs_sub_comm (EA + s * EB) (y.val + s * z.val), abs_sub_comm (y.val + s * z.val) w.val] at t3
  norm_num at *
  linarith

theorem add_bounds {a b : F32} (fa : a.IsFin = true) (fb : b.IsFin = true) (h : |a.val + b.val| ≤ 2 ^ 127) :
    (a + b).IsFin = true ∧ |(a + b).val - (a.val + b.val)| ≤ |a.val + b.val| / 2 ^ 24 := by
  have f : (a + b).IsFin = true := by
    rw [add_fin fa fb]; exact isFin_round (h.trans (by norm_num))
  exact ⟨f, add_error_rel f⟩

theorem sub_bounds {a b : F32} (fa : a.IsFin = true) (fb : b.IsFin = true) (h : |a.val + -1 * b.val| ≤ 2 ^ 127) :
    (a - b).IsFin = true ∧ |(a - b).val - (a.val + -1 * b.val)| ≤ |a.val + -1 * b.val| / 2 ^ 24 := by
  rw [neg_one_mul, ← val_neg] at *
  rw [F32.sub_eq]
  exact add_bounds fa (by rw [isFin_neg]; exact fb) h

theorem linear_add {n : ℕ} (hn : n ≤ 4) {x y z : F32} {m a b c : Fin n → F32} (hx : AccurateSum x m c)
    (hy : AccurateSum y m a) (hz : AccurateSum z m b) (hc : ∀ i, c i = a i + b i) (fm : ∀ i, (m i).IsFin = true)
    (fa : ∀ i, (a i).IsFin = true ∧ |(a i).val| ≤ 2 ^ 126) (fb : ∀ i, (b i).IsFin = true ∧ |(b i).val| ≤ 2 ^ 126)
    (hT : ∑ i, |(m i).val| * (|(a i).val| + |(b i).val|) ≤ 2 ^ 125) :
    (x.IsFin = true ∧ (y + z).IsFin = true) ∧
      |x.val - (y + z).val| ≤ 11 / 2 ^ 24 * ∑ i, |(m i).val| * (|(a i).val| + |(b i).val|) + 1 / 2 ^ 144 := by
  have key : ∀ i, (c i).IsFin = true ∧ |(c i).val - ((a i).val + 1 * (b i).val)| ≤ |(a i).val + 1 * (b i).val| / 2 ^ 24 := fun i => by
    rw [hc, one_mul]
    refine add_bounds (fa i).1 (fb i).1 ((abs_add_le _ _).trans ?_)
    have := (fa i).2
    have := (fb i).2
    norm_num at *
    linarith
  have := linear_core (s := 1) (w := y + z) hn abs_one hx hy hz fm (fun i => (fa i).1) (fun i => (fb i).1) hT (fun i => (key i).1)
    (fun i => (key i).2) (fun f1 f2 h => by rw [one_mul] at *; exact add_bounds f1 f2 h)
  exact ⟨⟨this.1, this.2.1⟩, this.2.2⟩

theorem linear_sub {n : ℕ} (hn : n ≤ 4) {x y z : F32} {m a b c : Fin n → F32} (hx : AccurateSum x m c)
    (hy : AccurateSum y m a) (hz : AccurateSum z m b) (hc : ∀ i, c i = a i - b i) (fm : ∀ i, (m i).IsFin = true)
    (fa : ∀ i, (a i).IsFin = true ∧ |(a i).val| ≤ 2 ^ 126) (fb : ∀ i, (b i).IsFin = true ∧ |(b i).val| ≤ 2 ^ 126)
    (hT : ∑ i, |(m i).val| * (|(a i).val| + |(b i).val|) ≤ 2 ^ 125) :
    (x.IsFin = true ∧ (y - z).IsFin = true) ∧
      |x.val - (y - z).val| ≤ 11 / 2 ^ 24 * ∑ i, |(m i).val| * (|(a i).val| + |(b i).val|) + 1 / 2 ^ 144 := by
  have key : ∀ i, (c i).IsFin = true ∧ |(c i).val - ((a i).val + -1 * (b i).val)| ≤ |(a i).val + -1 * (b i).val| / 2 ^ 24 := fun i => by
    rw [hc]
    refine sub_bounds (fa i).1 (fb i).1 ((abs_add_le _ _).trans ?_)
    rw [neg_one_mul, abs_neg]
    have := (fa i).2
    have := (fb i).2
    norm_num at *
    linarith
  have := linear_core (s := -1) (w := y - z) hn (by norm_num) hx hy hz fm (fun i => (fa i).1) (fun i => (fb i).1) hT
    (fun i => (key i).1) (fun i => (key i).2) (fun f1 f2 h => sub_bounds f1 f2 h)
  exact ⟨⟨this.1, this.2.1⟩, this.2.2⟩

end Zcm
