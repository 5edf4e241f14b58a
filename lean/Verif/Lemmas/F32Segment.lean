import Verif.Lemmas.F32Ray
import Verif.Model.Common
import Verif.Spec.Segment
import Verif.Props.C18

/-!
# The nearest point of a line and of a segment, in float arithmetic
-/

set_option exponentiation.threshold 300

namespace Zcm

open F32
open scoped RealInnerProductSpace

/-- `clamp` to [0, 1] -/
theorem clamp01 {x : F32} (h : x.IsFin = true) :
    (F.clamp x (lit 0) (lit 1)).IsFin = true ∧ ((F.clamp x (lit 0) (lit 1)).val : ℝ) = min (max (x.val : ℝ) 0) 1 := by
  have f0 : (lit 0 : F32).IsFin = true := by decide +kernel
  have f1 : (lit 1 : F32).IsFin = true := by decide +kernel
  have v0 : (lit 0 : F32).val = 0 := by decide +kernel
  have v1 : (lit 1 : F32).val = 1 := by decide +kernel
  have le01 : (lit 0 : F32) ≤ lit 1 := ⟨isFin_ne_nan f0, isFin_ne_nan f1, by decide +kernel⟩
  obtain ⟨-, -, c1, c2, c3, -⟩ := C18_float x (lit 0) (lit 1) (isFin_ne_nan h) le01
  have nx := isFin_ne_nan h
  rcases lt_or_ge x.val 0 with a | a
  · rw [c2 ⟨nx, isFin_ne_nan f0, by rw [key_lt_iff, v0]; exact a⟩, v0]
    have : (x.val : ℝ) < 0 := by exact_mod_cast a
    refine ⟨f0, ?_⟩
    rw [max_eq_right this.le]; norm_num
  rcases lt_or_ge 1 x.val with b | b
  · rw [c3 ⟨isFin_ne_nan f1, nx, by rw [key_lt_iff, v1]; exact b⟩, v1]
    have : 1 < (x.val : ℝ) := by exact_mod_cast b
    refine ⟨f1, ?_⟩
    rw [max_eq_left (by linarith), min_eq_right this.le]; norm_num
  · rw [c1 ⟨isFin_ne_nan f0, nx, by rw [key_le_iff, v0]; exact a⟩ ⟨nx, isFin_ne_nan f1, by rw [key_le_iff, v1]; exact b⟩]
    have a' : 0 ≤ (x.val : ℝ) := by exact_mod_cast a
    have b' : (x.val : ℝ) ≤ 1 := by exact_mod_cast b
    refine ⟨h, ?_⟩
    rw [max_eq_left a', min_eq_left b']

theorem clamp_lipschitz (x y : ℝ) : |min (max x 0) 1 - min (max y 0) 1| ≤ |x - y| := by
  refine (abs_min_sub_min_le_max (max x 0) 1 (max y 0) 1).trans (max_le ?_ (by simp))
  exact (abs_max_sub_max_le_max x 0 y 0).trans (max_le le_rfl (by simp))

section

variable {a b p : V3 F32}

theorem near_alongLine (h : GoodSegment a b p) :
    NearV (b - a) (exactly b - exactly a) (1 / 2 ^ 24 * ‖exactly b - exactly a‖) ∧
    |alongLine (exactly a) (exactly b) (exactly p)| ≤ ‖exactly p - exactly a‖ / ‖exactly b - exactly a‖ ∧
    (V3.dot (p - a) (b - a) / V3.dot (b - a) (b - a)).IsFin = true ∧
    |((V3.dot (p - a) (b - a) / V3.dot (b - a) (b - a)).val : ℝ) - alongLine (exactly a) (exactly b) (exactly p)| ≤
      11.1 / 2 ^ 24 * (‖exactly p - exactly a‖ / ‖exactly b - exactly a‖) + 1 / 2 ^ 80 := by
  have l1 := h.len_ge
  have l2 := h.len_le
  have p2 := h.p_le
  have L0 : 0 < ‖exactly b - exactly a‖ := lt_of_lt_of_le (by norm_num) l1
  have P0 := norm_nonneg (exactly p - exactly a)
  have fb := near_sub (fun i => (h.fin i).2.1) (fun i => (h.fin i).1) (l2.trans (by norm_num))
  have fp := near_sub (fun i => (h.fin i).2.2) (fun i => (h.fin i).1) (p2.trans (by norm_num))
  refine ⟨fb, ?_⟩
  have X := fp.dot fb (A := 1.0001 * ‖exactly p - exactly a‖) (B := 1.0001 * ‖exactly b - exactly a‖) (by norm_num; linarith)
    (by norm_num; linarith) (by
    calc 1.0001 * ‖exactly p - exactly a‖ * (1.0001 * ‖exactly b - exactly a‖) ≤ 1.0001 * 2 ^ 30 * (1.0001 * 2 ^ 30) := by gcongr
      _ ≤ _ := by norm_num)
  have Y := fb.dot fb (A := 1.0001 * ‖exactly b - exactly a‖) (B := 1.0001 * ‖exactly b - exactly a‖) (by norm_num; linarith)
    (by norm_num; linarith) (by
    calc 1.0001 * ‖exactly b - exactly a‖ * (1.0001 * ‖exactly b - exactly a‖) ≤ 1.0001 * 2 ^ 30 * (1.0001 * 2 ^ 30) := by gcongr
      _ ≤ _ := by norm_num)
  have cX : |⟪exactly p - exactly a, exactly b - exactly a⟫| ≤ ‖exactly p - exactly a‖ * ‖exactly b - exactly a‖ :=
    abs_real_inner_le_norm _ _
  unfold alongLine
  rw [real_inner_self_eq_norm_sq] at Y ⊢
  generalize V3.dot (p - a) (b - a) = x at *
  generalize V3.dot (b - a) (b - a) = y at *
  generalize ⟪exactly p - exactly a, exactly b - exactly a⟫ = T at *
  generalize ‖exactly p - exactly a‖ = P at *
  generalize ‖exactly b - exactly a‖ = L at *
  have LL : 1 / 2 ^ 60 ≤ L ^ 2 := by
    calc (1 / 2 ^ 60 : ℝ) = (1 / 2 ^ 30) ^ 2 := by norm_num
      _ ≤ _ := by gcongr
  have PL : 0 ≤ P * L := by positivity
  have ex : |(x.val : ℝ) - T| ≤ 5.002 / 2 ^ 24 * (P * L) + 1 / 2 ^ 147 := by
    refine X.2.trans ?_
    rw [show 1.0001 * P * (1.0001 * L) = 1.00020001 * (P * L) by ring, show 1 / 2 ^ 24 * P * L = 1 / 2 ^ 24 * (P * L) by ring,
      show 1.0001 * P * (1 / 2 ^ 24 * L) = 1.0001 / 2 ^ 24 * (P * L) by ring]
    norm_num
    linarith
  have ey : |(y.val : ℝ) - L ^ 2| ≤ 5.003 / 2 ^ 24 * L ^ 2 := by
    refine Y.2.trans ?_
    rw [show 1.0001 * L * (1.0001 * L) = 1.00020001 * L ^ 2 by ring, show 1 / 2 ^ 24 * L * L = 1 / 2 ^ 24 * L ^ 2 by ring,
      show 1.0001 * L * (1 / 2 ^ 24 * L) = 1.0001 / 2 ^ 24 * L ^ 2 by ring]
    norm_num at LL ⊢
    linarith
  have L2 : |L ^ 2| = L ^ 2 := abs_of_pos (by positivity)
  have hQ : |T| / |L ^ 2| ≤ P / L := by
    rw [L2, div_le_div_iff₀ (by positivity) L0]
    calc |T| * L ≤ P * L * L := by gcongr
      _ = _ := by ring
  have Q2 : P / L ≤ 2 ^ 60 := by
    rw [div_le_iff₀ L0]
    calc P ≤ 2 ^ 60 * (1 / 2 ^ 30) := p2.trans (by norm_num)
      _ ≤ _ := by gcongr
  have Q0 : 0 ≤ P / L := by positivity
  have q := near_quotient X.1 Y.1 ex ey (by rw [L2]; positivity) (Q := P / L) (E := 10.04 / 2 ^ 24 * (P / L) + 1 / 2 ^ 85) (by
      rw [L2]; norm_num; linarith [sq_nonneg L]) hQ (by
      rw [L2]
      have e : 1.001 * (5.002 / 2 ^ 24 * (P * L) + 1 / 2 ^ 147 + P / L * (5.003 / 2 ^ 24 * L ^ 2)) / L ^ 2 =
          1.001 * (5.002 / 2 ^ 24 * (P / L) + 5.003 / 2 ^ 24 * (P / L)) + 1.001 * (1 / 2 ^ 147) / L ^ 2 := by field_simp; ring
      rw [e]
      have : 1.001 * (1 / 2 ^ 147) / L ^ 2 ≤ 1.001 * (1 / 2 ^ 147) / (1 / 2 ^ 60) := by gcongr
      norm_num at this ⊢
      linarith) (by norm_num at Q2 ⊢; linarith)
  refine ⟨by rw [abs_div]; exact hQ, q.1, q.2.trans ?_⟩
  norm_num
  linarith

/-- the nearest point of the line -/
theorem near_line (h : GoodSegment a b p) :
    NearV (a + (b - a) * (V3.dot (p - a) (b - a) / V3.dot (b - a) (b - a))) (nearestOnLine (exactly a) (exactly b) (exactly p))
      (1 / 2 ^ 24 * (‖exactly a‖ + 15 * ‖exactly p - exactly a‖ + ‖exactly b - exactly a‖)) := by
  obtain ⟨fb, tb, ft, et⟩ := near_alongLine h
  have l1 := h.len_ge
  have l2 := h.len_le
  have p2 := h.p_le
  have o1 := h.a_le
  have L0 : 0 < ‖exactly b - exactly a‖ := lt_of_lt_of_le (by norm_num) l1
  have P0 := norm_nonneg (exactly p - exactly a)
  have ax := NearV.exact fun i => (h.fin i).1
  unfold nearestOnLine
  have qn : ‖alongLine (exactly a) (exactly b) (exactly p) • (exactly b - exactly a)‖ =
      |alongLine (exactly a) (exactly b) (exactly p)| * ‖exactly b - exactly a‖ := by rw [norm_smul, Real.norm_eq_abs]
  have tri := norm_add_le (exactly a) (alongLine (exactly a) (exactly b) (exactly p) • (exactly b - exactly a))
  generalize alongLine (exactly a) (exactly b) (exactly p) = τ at *
  generalize V3.dot (p - a) (b - a) / V3.dot (b - a) (b - a) = s at *
  have Q0 : 0 ≤ ‖exactly p - exactly a‖ / ‖exactly b - exactly a‖ := by positivity
  have e1 : ‖exactly p - exactly a‖ / ‖exactly b - exactly a‖ * ‖exactly b - exactly a‖ = ‖exactly p - exactly a‖ := by field_simp
  have pr : |τ| * ‖exactly b - exactly a‖ ≤ ‖exactly p - exactly a‖ := by
    refine (mul_le_mul_of_nonneg_right tb L0.le).trans (le_of_eq e1)
  have m := fb.scale ft et (A := 1.0001 * ‖exactly b - exactly a‖)
    (B := 1.0001 * (‖exactly p - exactly a‖ / ‖exactly b - exactly a‖) + 1 / 2 ^ 80) (by norm_num; linarith)
    (by norm_num at tb ⊢; linarith) (by
      rw [show (1.0001 * (‖exactly p - exactly a‖ / ‖exactly b - exactly a‖) + 1 / 2 ^ 80) * (1.0001 * ‖exactly b - exactly a‖) =
        1.0001 * 1.0001 * (‖exactly p - exactly a‖ / ‖exactly b - exactly a‖ * ‖exactly b - exactly a‖) +
        1.0001 / 2 ^ 80 * ‖exactly b - exactly a‖ by ring, e1]
      norm_num at l2 p2 ⊢
      linarith)
  have m' := m.mono (f := 1 / 2 ^ 24 * (13.2 * ‖exactly p - exactly a‖ + 1 / 2 * ‖exactly b - exactly a‖)) (by
    rw [show (1.0001 * (‖exactly p - exactly a‖ / ‖exactly b - exactly a‖) + 1 / 2 ^ 80) * (1.0001 * ‖exactly b - exactly a‖) =
        1.0001 * 1.0001 * (‖exactly p - exactly a‖ / ‖exactly b - exactly a‖ * ‖exactly b - exactly a‖) +
        1.0001 / 2 ^ 80 * ‖exactly b - exactly a‖ by ring,
      show (1.0001 * (‖exactly p - exactly a‖ / ‖exactly b - exactly a‖) + 1 / 2 ^ 80) * (1 / 2 ^ 24 * ‖exactly b - exactly a‖) =
        1 / 2 ^ 24 * (1.0001 * (‖exactly p - exactly a‖ / ‖exactly b - exactly a‖ * ‖exactly b - exactly a‖) +
        1 / 2 ^ 80 * ‖exactly b - exactly a‖) by ring,
      show (11.1 / 2 ^ 24 * (‖exactly p - exactly a‖ / ‖exactly b - exactly a‖) + 1 / 2 ^ 80) * ‖exactly b - exactly a‖ =
        11.1 / 2 ^ 24 * (‖exactly p - exactly a‖ / ‖exactly b - exactly a‖ * ‖exactly b - exactly a‖) +
        1 / 2 ^ 80 * ‖exactly b - exactly a‖ by ring, e1]
    norm_num at l1 ⊢
    linarith)
  have k := ax.add m' (by rw [qn] at tri; norm_num at l2 p2 o1 ⊢; linarith)
  refine k.mono ?_
  rw [qn] at tri
  norm_num at ⊢
  linarith

/-- the nearest point of the segment -/
theorem near_segment (h : GoodSegment a b p) :
    NearV (a + (b - a) * F.clamp (V3.dot (p - a) (b - a) / V3.dot (b - a) (b - a)) (lit 0) (lit 1))
      (nearestOnSegment (exactly a) (exactly b) (exactly p))
      (1 / 2 ^ 24 * (‖exactly a‖ + 12 * ‖exactly p - exactly a‖ + 4 * ‖exactly b - exactly a‖)) := by
  obtain ⟨fb, -, ft, et⟩ := near_alongLine h
  have l1 := h.len_ge
  have l2 := h.len_le
  have p2 := h.p_le
  have o1 := h.a_le
  have L0 : 0 < ‖exactly b - exactly a‖ := lt_of_lt_of_le (by norm_num) l1
  have P0 := norm_nonneg (exactly p - exactly a)
  have ax := NearV.exact fun i => (h.fin i).1
  unfold nearestOnSegment
  obtain ⟨fc, ec⟩ := clamp01 ft
  have et' := (clamp_lipschitz (V3.dot (p - a) (b - a) / V3.dot (b - a) (b - a)).val
    (alongLine (exactly a) (exactly b) (exactly p))).trans et
  rw [← ec] at et'
  have c1 : |((F.clamp (V3.dot (p - a) (b - a) / V3.dot (b - a) (b - a)) (lit 0) (lit 1)).val : ℝ)| ≤ 1 := by
    rw [ec, abs_of_nonneg (le_min (le_max_right _ _) zero_le_one)]
    exact min_le_right _ _
  have t0 : 0 ≤ min (max (alongLine (exactly a) (exactly b) (exactly p)) 0) 1 := le_min (le_max_right _ _) zero_le_one
  have t1 : min (max (alongLine (exactly a) (exactly b) (exactly p)) 0) 1 ≤ 1 := min_le_right _ _
  generalize min (max (alongLine (exactly a) (exactly b) (exactly p)) 0) 1 = τ at *
  generalize F.clamp (V3.dot (p - a) (b - a) / V3.dot (b - a) (b - a)) (lit 0) (lit 1) = s at *
  clear ec et ft
  have qn : ‖τ • (exactly b - exactly a)‖ ≤ ‖exactly b - exactly a‖ := by
    rw [norm_smul, Real.norm_eq_abs, abs_of_nonneg t0]
    exact mul_le_of_le_one_left L0.le t1
  have tri := norm_add_le (exactly a) (τ • (exactly b - exactly a))
  have e1 : ‖exactly p - exactly a‖ / ‖exactly b - exactly a‖ * ‖exactly b - exactly a‖ = ‖exactly p - exactly a‖ := by field_simp
  -- the multiple, with the error of the factor bounded by itself
  have n := near_scale fb.1 fc (by
    have := fb.norm_le
    calc |(s.val : ℝ)| * ‖exactly (b - a)‖ ≤ 1 * (2 * 2 ^ 30) := by
          gcongr
          norm_num at this l2 ⊢
          linarith
      _ ≤ _ := by norm_num)
  have m' : NearV ((b - a) * s) (τ • (exactly b - exactly a))
      (1 / 2 ^ 24 * (11.2 * ‖exactly p - exactly a‖ + 2.01 * ‖exactly b - exactly a‖)) := by
    refine ⟨n.1, ?_⟩
    rw [show exactly ((b - a) * s) - τ • (exactly b - exactly a) = (exactly ((b - a) * s) - (s.val : ℝ) • exactly (b - a)) +
      (s.val : ℝ) • (exactly (b - a) - (exactly b - exactly a)) + ((s.val : ℝ) - τ) • (exactly b - exactly a) by module]
    refine (norm_add₃_le).trans ?_
    have x1 : |(s.val : ℝ)| * ‖exactly (b - a)‖ ≤ 1 * ‖exactly (b - a)‖ := by gcongr
    have x2 : ‖(s.val : ℝ) • (exactly (b - a) - (exactly b - exactly a))‖ ≤ 1 * (1 / 2 ^ 24 * ‖exactly b - exactly a‖) := by
      rw [norm_smul, Real.norm_eq_abs]
      exact mul_le_mul c1 fb.2 (norm_nonneg _) zero_le_one
    have x3 : ‖((s.val : ℝ) - τ) • (exactly b - exactly a)‖ ≤ 11.1 / 2 ^ 24 * ‖exactly p - exactly a‖ + 1 / 2 ^ 80 * ‖exactly b - exactly a‖ := by
      rw [norm_smul, Real.norm_eq_abs]
      refine (mul_le_mul_of_nonneg_right et' L0.le).trans (le_of_eq ?_)
      rw [add_mul, mul_assoc, e1]
    have x4 := n.2
    have x5 := fb.norm_le
    norm_num at x1 x2 x3 x4 x5 l1 ⊢
    linarith
  have k := ax.add m' (by norm_num at l2 p2 o1 ⊢; linarith)
  refine k.mono ?_
  norm_num
  linarith

end

end Zcm
