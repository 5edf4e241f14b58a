import Verif.Spec.Octahedral
import Verif.Spec.Chains
import Verif.Lemmas.F32Between
import Verif.Lemmas.F32Proj
import Verif.Props.C83

/-!
# Rounding errors of the octahedral encoding
-/

set_option exponentiation.threshold 300

namespace Zcm.F32

open WithLp

theorem val_fabsQ (a : F32) : (F.abs a).val = |a.val| := by
  have := val_fabs a
  rw [← Rat.cast_abs] at this
  exact Rat.cast_injective this

/-- projecting `(x, y, z)` to the octahedron `|x| + |y| + |z| = 1` -/
theorem oct_project {x y z w : F32} (fx : x.IsFin = true) (fy : y.IsFin = true) (fz : z.IsFin = true) {L : ℚ}
    (hL : L = |x.val| + |y.val| + |z.val|) (l1 : 1 / 2 ^ 100 ≤ L) (l2 : L ≤ 2 ^ 100) (hw : w = x ∨ w = y) :
    (w * (lit 1 / (F.abs x + F.abs y + F.abs z))).IsFin = true ∧
    |(w * (lit 1 / (F.abs x + F.abs y + F.abs z))).val| ≤ 1 ∧
    |(w * (lit 1 / (F.abs x + F.abs y + F.abs z))).val - w.val / L| ≤ 4.01 / 2 ^ 24 * |w.val / L| + 1 / 2 ^ 150 := by
  have fw : w.IsFin = true := by rcases hw with rfl | rfl <;> assumption
  have ax := abs_nonneg x.val
  have ay := abs_nonneg y.val
  have az := abs_nonneg z.val
  have gx := isFin_fabs fx
  have gy := isFin_fabs fy
  have gz := isFin_fabs fz
  have eA := add_fin gx gy
  have fA : (F.abs x + F.abs y).IsFin = true := by
    rw [eA, val_fabsQ, val_fabsQ]
    refine isFin_round ?_
    rw [abs_of_nonneg (by positivity)]
    linarith
  have rA := add_error_rel fA
  rw [val_fabsQ, val_fabsQ, abs_of_nonneg (a := |x.val| + |y.val|) (by positivity)] at rA
  have xA : |w.val| ≤ (F.abs x + F.abs y).val := by
    rw [eA, ← val_fabsQ w]
    refine key_le_iff.1 (le_key_round (isFin_fabs fw) ?_ _)
    rw [val_fabsQ, val_fabsQ, val_fabsQ]
    rcases hw with rfl | rfl <;> linarith
  have eS := add_fin fA gz
  obtain ⟨a1, a2⟩ := abs_le.1 rA
  have w0 := abs_nonneg w.val
  have fS : (F.abs x + F.abs y + F.abs z).IsFin = true := by
    rw [eS, val_fabsQ]
    refine isFin_round ?_
    rw [abs_of_nonneg (by linarith)]
    linarith
  have rS := add_error_rel fS
  rw [val_fabsQ, abs_of_nonneg (a := (F.abs x + F.abs y).val + |z.val|) (by linarith)] at rS
  have xS : |w.val| ≤ (F.abs x + F.abs y + F.abs z).val := by
    refine xA.trans ?_
    rw [eS]
    refine key_le_iff.1 (le_key_round fA ?_ _)
    rw [val_fabsQ]
    linarith
  clear eS eA
  generalize (F.abs x + F.abs y).val = A at *
  generalize F.abs x + F.abs y + F.abs z = S at *
  obtain ⟨b1, b2⟩ := abs_le.1 rS
  have L0 : 0 < L := lt_of_lt_of_le (by norm_num) l1
  have S1 : |S.val - L| ≤ 2.001 / 2 ^ 24 * L := by
    rw [abs_le]
    constructor <;> linarith
  obtain ⟨c1, c2⟩ := abs_le.1 S1
  have S0 : 0 < S.val := by linarith
  have eR := div_fin isFin_lit_one fS S0.ne'
  rw [val_lit_one] at eR
  have q1 : 1 / S.val ≤ 2 ^ 101 := by
    rw [div_le_iff₀ S0]; linarith
  have q2 : 1 / 2 ^ 101 ≤ 1 / S.val := by
    rw [div_le_div_iff₀ (by positivity) S0]; linarith
  have q0 : 0 < 1 / S.val := by positivity
  have fR : (lit 1 / S : F32).IsFin = true := by
    rw [eR]
    refine isFin_round ?_
    rw [abs_of_pos q0]
    exact q1.trans (by norm_num)
  have rR : |(lit 1 / S : F32).val - 1 / S.val| ≤ 1 / S.val / 2 ^ 24 := by
    have := round_error_rel (s := (lit 1 : F32).sgn ^^ S.sgn) (x := 1 / S.val) (by rw [← eR]; exact fR) (by
      rw [abs_of_pos q0]
      exact le_trans (by norm_num) q2)
    rwa [← eR, abs_of_pos q0] at this
  clear eR
  generalize (lit 1 / S : F32) = R at *
  -- the product is at most 1 before the last rounding, up to one unit
  have p1 : |w.val * R.val| ≤ 1 + 1 / 2 ^ 24 := by
    rw [abs_mul]
    have : |R.val| ≤ 1 / S.val * (1 + 1 / 2 ^ 24) := by
      have := abs_le.1 rR
      rw [abs_le]
      constructor <;> linarith
    calc |w.val| * |R.val| ≤ S.val * (1 / S.val * (1 + 1 / 2 ^ 24)) := by gcongr
      _ = _ := by field_simp
  have rl := round_le_one (s := w.sgn ^^ R.sgn) p1
  rw [← mul_fin fw fR] at rl
  refine ⟨rl.1, rl.2, ?_⟩
  have iL : |1 / S.val - 1 / L| ≤ 2.002 / 2 ^ 24 * (1 / L) := by
    have e : 1 / S.val - 1 / L = (L - S.val) / S.val * (1 / L) := by field_simp
    rw [e, abs_mul, abs_of_pos (a := 1 / L) (by positivity)]
    gcongr
    rw [abs_div, abs_of_pos S0, div_le_iff₀ S0, abs_sub_comm]
    linarith
  have RL : |R.val - 1 / L| ≤ 3.005 / 2 ^ 24 * (1 / L) := by
    obtain ⟨i1, i2⟩ := abs_le.1 iL
    obtain ⟨j1, j2⟩ := abs_le.1 rR
    have : 0 < 1 / L := by positivity
    rw [abs_le]
    constructor <;> linarith
  have wR : |w.val * R.val - w.val / L| ≤ 3.005 / 2 ^ 24 * |w.val / L| := by
    have e : w.val * R.val - w.val / L = w.val * (R.val - 1 / L) := by ring
    rw [e, abs_mul, abs_div, abs_of_pos L0]
    calc |w.val| * |R.val - 1 / L| ≤ |w.val| * (3.005 / 2 ^ 24 * (1 / L)) := by gcongr
      _ = _ := by ring
  have me := mul_error fw fR rl.1
  have t1 : |w.val * R.val| ≤ |w.val / L| + |w.val * R.val - w.val / L| := by
    calc |w.val * R.val| = |w.val / L + (w.val * R.val - w.val / L)| := by congr 1; ring
      _ ≤ _ := abs_add_le _ _
  have t2 : |(w * R).val - w.val / L| ≤ |(w * R).val - w.val * R.val| + |w.val * R.val - w.val / L| := abs_sub_le _ _ _
  have := abs_nonneg (w.val / L)
  linarith

/-- what the fold subtracts: `1 - |p|` for `|p| ≤ 1` -/
theorem one_sub_abs {p : F32} (fp : p.IsFin = true) (hp : |p.val| ≤ 1) :
    (lit 1 - F.abs p : F32).IsFin = true ∧ 0 ≤ (lit 1 - F.abs p : F32).val ∧ (lit 1 - F.abs p : F32).val ≤ 1 ∧
    |(lit 1 - F.abs p : F32).val - (1 - |p.val|)| ≤ 1 / 2 ^ 24 * (1 - |p.val|) := by
  have e := sub_fin isFin_lit_one (isFin_fabs fp)
  rw [val_lit_one, val_fabsQ] at e
  have p0 := abs_nonneg p.val
  obtain ⟨f, l, u⟩ := round_between isFin_lit_one (x := 1 - |p.val|) (by linarith) (by rw [val_lit_one]; linarith)
    ((lit 1 : F32).sgn && !(F.abs p).sgn)
  rw [← e, val_lit_one] at u
  rw [← e] at f l
  refine ⟨f, l, u, ?_⟩
  have := sub_error_rel f
  rw [val_lit_one, val_fabsQ, abs_of_nonneg (a := 1 - |p.val|) (by linarith)] at this
  linarith

theorem mul_sign {a p : F32} (fa : a.IsFin = true) (fp : p.IsFin = true) :
    (a * F.signNotZero p).IsFin = true ∧ (((a * F.signNotZero p).val : ℚ) : ℝ) = a.val * octSign p.val := by
  have h : p ≥ lit 0 ↔ 0 ≤ p.val := by
    constructor
    · intro h
      have h := h.2.2
      rw [key_le_iff, val_lit_zero] at h
      exact h
    · intro h
      refine ⟨isFin_ne_nan isFin_lit_zero, isFin_ne_nan fp, ?_⟩
      rw [key_le_iff, val_lit_zero]
      exact h
  unfold F.signNotZero octSign
  by_cases hp : 0 ≤ p.val
  · rw [if_pos (h.2 hp), if_pos (by exact_mod_cast hp), mul_one']
    exact ⟨fa, by simp⟩
  · rw [if_neg (fun c => hp (h.1 c)), if_neg (by exact_mod_cast hp), mul_neg', mul_one']
    exact ⟨by simpa using fa, by rw [val_neg]; push_cast; ring⟩

end Zcm.F32

namespace Zcm

open F32

theorem octSign_abs (t : ℝ) : octSign t * |t| = t := by
  unfold octSign
  split_ifs with h
  · rw [one_mul, abs_of_nonneg h]
  · rw [abs_of_neg (not_le.1 h)]; ring

theorem abs_octSign (t : ℝ) : |octSign t| = 1 := by
  unfold octSign
  split_ifs <;> simp

theorem octSign_mul_pos {a : ℝ} (ha : 0 < a) (t : ℝ) : octSign (a * octSign t) = octSign t := by
  by_cases h : 0 ≤ t
  · simp [octSign, h, ha.le]
  · simp [octSign, h, ha]

/-- moving a point of a face along the fold -/
theorem oct_comp {a p X d f : ℝ} (h1 : |a - abs p| ≤ d) (h2 : |p - X| ≤ f) : |a * octSign p - X| ≤ d + f := by
  have e : a * octSign p - X = (a - |p|) * octSign p + (p - X) := by
    have := octSign_abs p
    linear_combination this
  rw [e]
  refine (abs_add_le _ _).trans (add_le_add ?_ h2)
  rw [abs_mul, abs_octSign, mul_one]
  exact h1

theorem octSurface_upper {p q X Y Z e f d : ℝ} (hs : |X| + |Y| + |Z| = 1) (hz : 0 ≤ Z) (hp : |p - X| ≤ e)
    (hq : |q - Y| ≤ f) (hd : e + f ≤ d) :
    |(octSurface ⟨p, q⟩).x - X| ≤ 2 * d ∧ |(octSurface ⟨p, q⟩).y - Y| ≤ 2 * d ∧ |(octSurface ⟨p, q⟩).z - Z| ≤ 2 * d := by
  have e0 := (abs_nonneg _).trans hp
  have f0 := (abs_nonneg _).trans hq
  rw [abs_of_nonneg hz] at hs
  obtain ⟨a1, a2⟩ := abs_le.1 ((abs_abs_sub_abs_le p X).trans hp)
  obtain ⟨b1, b2⟩ := abs_le.1 ((abs_abs_sub_abs_le q Y).trans hq)
  unfold octSurface
  simp only
  split_ifs with h
  · refine ⟨by linarith, by linarith, ?_⟩
    rw [abs_le]; constructor <;> simp only <;> linarith
  · rw [not_le] at h
    refine ⟨?_, ?_, ?_⟩
    · refine (oct_comp (d := d) ?_ hp).trans (by linarith)
      rw [abs_le]; constructor <;> linarith
    · refine (oct_comp (d := d) ?_ hq).trans (by linarith)
      rw [abs_le]; constructor <;> linarith
    · rw [abs_le]; constructor <;> simp only <;> linarith

theorem oct_low_comp {p q X Y Z e f d a b u : ℝ} (hs : |X| + |Y| + |Z| = 1) (hp : |p - X| ≤ e)
    (hq : |q - Y| ≤ f) (hd : e + f ≤ d) (u0 : 0 ≤ u) (a0 : 0 ≤ a) (az : a = 0 → |q| = 1)
    (hb : |b - (1 - |p|)| ≤ u) (hb1 : b ≤ 1) : |(1 - b) * octSign (a * octSign p) - X| ≤ 2 * d + 2 * u := by
  have e0 := (abs_nonneg _).trans hp
  have f0 := (abs_nonneg _).trans hq
  have Z0 := abs_nonneg Z
  have X0 := abs_nonneg X
  obtain ⟨a1, a2⟩ := abs_le.1 ((abs_abs_sub_abs_le p X).trans hp)
  obtain ⟨b1, b2⟩ := abs_le.1 ((abs_abs_sub_abs_le q Y).trans hq)
  obtain ⟨c1, c2⟩ := abs_le.1 hb
  rcases eq_or_lt_of_le a0 with h | h
  · have q1 := az h.symm
    rw [q1] at b1 b2
    rw [← h, zero_mul]
    have : octSign 0 = 1 := by simp [octSign]
    rw [this, mul_one]
    refine (abs_sub _ _).trans ?_
    rw [abs_of_nonneg (by linarith)]
    linarith
  · rw [octSign_mul_pos h]
    refine (oct_comp (d := u) ?_ hp).trans (by linarith)
    rw [abs_le]; constructor <;> linarith

theorem octSurface_lower {p q X Y Z e f d a b u : ℝ} (hs : |X| + |Y| + |Z| = 1) (hz : Z ≤ 0) (hp : |p - X| ≤ e)
    (hq : |q - Y| ≤ f) (hd : e + f ≤ d) (u0 : 0 ≤ u) (a0 : 0 ≤ a) (b0 : 0 ≤ b) (a1 : a ≤ 1) (b1 : b ≤ 1)
    (ha : |a - (1 - |q|)| ≤ u) (hb : |b - (1 - |p|)| ≤ u) (az : a = 0 → |q| = 1) (bz : b = 0 → |p| = 1) :
    |(octSurface ⟨a * octSign p, b * octSign q⟩).x - X| ≤ 2 * d + 2 * u ∧
    |(octSurface ⟨a * octSign p, b * octSign q⟩).y - Y| ≤ 2 * d + 2 * u ∧
    |(octSurface ⟨a * octSign p, b * octSign q⟩).z - Z| ≤ 2 * d + 2 * u := by
  have e0 := (abs_nonneg _).trans hp
  have f0 := (abs_nonneg _).trans hq
  have hx := oct_low_comp hs hp hq hd u0 a0 az hb b1
  have hy := oct_low_comp (by linarith : |Y| + |X| + |Z| = 1) hq hp (by linarith : f + e ≤ d) u0 b0 bz ha a1
  rw [abs_of_nonpos hz] at hs
  obtain ⟨p1, p2⟩ := abs_le.1 ((abs_abs_sub_abs_le p X).trans hp)
  obtain ⟨q1, q2⟩ := abs_le.1 ((abs_abs_sub_abs_le q Y).trans hq)
  obtain ⟨c1, c2⟩ := abs_le.1 ha
  obtain ⟨d1, d2⟩ := abs_le.1 hb
  have ex : |a * octSign p| = a := by rw [abs_mul, abs_octSign, mul_one, abs_of_nonneg a0]
  have ey : |b * octSign q| = b := by rw [abs_mul, abs_octSign, mul_one, abs_of_nonneg b0]
  unfold octSurface
  simp only [ex, ey]
  split_ifs with h
  · refine ⟨?_, ?_, ?_⟩
    · refine (oct_comp (d := d + 2 * u) ?_ hp).trans (by linarith)
      rw [abs_le]; constructor <;> linarith
    · refine (oct_comp (d := d + 2 * u) ?_ hq).trans (by linarith)
      rw [abs_le]; constructor <;> linarith
    · rw [abs_le]; constructor <;> simp only <;> linarith
  · refine ⟨hx, hy, ?_⟩
    rw [abs_le]; constructor <;> simp only <;> linarith

end Zcm
