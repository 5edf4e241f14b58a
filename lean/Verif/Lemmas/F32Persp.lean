import Mathlib.Analysis.SpecialFunctions.Trigonometric.Bounds
import Verif.Lemmas.F32Proj

/-!
# Perspective matrices in binary32
-/

set_option exponentiation.threshold 300

namespace Zcm

open F32

theorem rep_gap {k l : ℕ} (hk : Rep k) (hl : Rep l) (h : l < k) : k ≤ 2 ^ 25 * (k - l) := by
  by_cases c : 2 * l ≤ k
  · omega
  · have k0 : k ≠ 0 := by omega
    have l0 : l ≠ 0 := by omega
    have lg : Nat.log2 k ≤ Nat.log2 l + 1 := by
      have a := Nat.log2_self_le k0
      have b : l < 2 ^ (Nat.log2 l + 1) := Nat.lt_log2_self
      by_contra hc
      have : 2 ^ (Nat.log2 l + 1 + 1) ≤ 2 ^ Nat.log2 k := Nat.pow_le_pow_right (by norm_num) (by omega)
      rw [pow_succ] at this
      omega
    have dk : 2 ^ (Nat.log2 k - 24) ∣ k := (pow_dvd_pow 2 (by unfold ulpExp; omega)).trans hk.1
    have dl : 2 ^ (Nat.log2 k - 24) ∣ l := (pow_dvd_pow 2 (by unfold ulpExp; omega)).trans hl.1
    have d := Nat.le_of_dvd (by omega) (Nat.dvd_sub dk dl)
    have u : k < 2 ^ (Nat.log2 k + 1) := Nat.lt_log2_self
    calc k ≤ 2 ^ (Nat.log2 k + 1) := u.le
      _ ≤ 2 ^ (25 + (Nat.log2 k - 24)) := Nat.pow_le_pow_right (by norm_num) (by omega)
      _ = 2 ^ 25 * 2 ^ (Nat.log2 k - 24) := by rw [pow_add]
      _ ≤ _ := by gcongr

theorem val_pos_fin {s : Bool} {k : ℕ} {hk : Rep k} (h : 0 < (F32.fin s k hk).val) :
    (F32.fin s k hk).val = (k : ℚ) / 2 ^ 149 := by
  unfold F32.val at *
  cases s
  · rw [key_fin_false, Int.cast_natCast]
  · exfalso
    rw [key_fin_true, Int.cast_neg, Int.cast_natCast, div_pos_iff_of_pos_right (by positivity)] at h
    have : (0 : ℚ) ≤ k := Nat.cast_nonneg k
    linarith

/-- two different floats cannot be arbitrarily close, relative to their size -/
theorem gap_of_lt {n f : F32} (hn : n.IsFin = true) (hf : f.IsFin = true) (h0 : 0 < n.val) (h : n.val < f.val) :
    f.val ≤ 2 ^ 25 * (f.val - n.val) := by
  obtain ⟨s, k, hk, rfl⟩ := exists_fin hf
  obtain ⟨t, l, hl, rfl⟩ := exists_fin hn
  have h1 := h0.trans h
  have ek := val_pos_fin h1
  have el := val_pos_fin h0
  rw [ek, el] at h ⊢
  have lt : l < k := by
    have := (div_lt_div_iff_of_pos_right (show (0 : ℚ) < 2 ^ 149 by positivity)).1 h
    exact Nat.cast_lt.1 this
  have q : (k : ℚ) ≤ 2 ^ 25 * (k - l) := by
    have : (k : ℚ) ≤ ((2 ^ 25 * (k - l) : ℕ) : ℚ) := Nat.cast_le.2 (rep_gap hk hl lt)
    rw [Nat.cast_mul, Nat.cast_sub lt.le] at this
    norm_num at this ⊢
    exact this
  rw [← sub_div, mul_div_assoc', div_le_div_iff_of_pos_right (by positivity)]
  exact q

/-- focal lengths -/
theorem focal [Libm F32] (hl : GoodTan) {fovy aspect zNear zFar : F32} (h : Lens fovy aspect zNear zFar) :
    (1 / 2 ^ 21 ≤ Real.tan (fovy.val / 2)) ∧
    Rel (lit 1 / (aspect * Libm.tanf (fovy * lit 0.5))) (1 / (aspect.val * Real.tan (fovy.val / 2))) (6.4 / 2 ^ 24) ∧
    Rel (lit 1 / Libm.tanf (fovy * lit 0.5)) (1 / Real.tan (fovy.val / 2)) (6.4 / 2 ^ 24) := by
  obtain ⟨⟨ff, fa, fn, ffar⟩, h1, h2, h3, a1, a2, n1, f2, gap⟩ := h
  have q1 : 1 / 2 ^ 125 ≤ |fovy.val| := by
    have : ((1 / 2 ^ 125 : ℚ) : ℝ) ≤ ((|fovy.val| : ℚ) : ℝ) := by
      push_cast
      exact le_trans (le_trans (by norm_num) h1) (le_abs_self _)
    exact Rat.cast_le.1 this
  obtain ⟨fh, eh⟩ := half_exact ff q1
  have eh' : ((fovy * lit 0.5 : F32).val : ℝ) = fovy.val / 2 := by rw [eh]; push_cast; ring
  have hT := hl _ fh (by rw [eh']; linarith) (by rw [eh']; linarith) (by rw [eh']; exact h3)
  rw [eh'] at hT
  have lt := Real.lt_tan (x := fovy.val / 2) (by
    have : (0 : ℝ) < 1 / 2 ^ 20 := by norm_num
    linarith) (by linarith)
  have t1 : 1 / 2 ^ 21 ≤ Real.tan (fovy.val / 2) := by linarith
  generalize Real.tan (fovy.val / 2) = t at *
  generalize Libm.tanf (fovy * lit 0.5) = T at *
  have t0 : 0 < t := lt_of_lt_of_le (by norm_num) t1
  have a0 : (0 : ℝ) < aspect.val := lt_of_lt_of_le (by norm_num) a1
  have RT : Rel T t (4 / 2 ^ 24) := ⟨hT.1, hT.2.trans (by rw [abs_of_pos t0]; norm_num)⟩
  have at0 : 0 < aspect.val * t := mul_pos a0 t0
  have at1 : 1 / 2 ^ 41 ≤ aspect.val * t := by
    calc (1 : ℝ) / 2 ^ 41 = 1 / 2 ^ 20 * (1 / 2 ^ 21) := by norm_num
      _ ≤ _ := by gcongr
  have at2 : aspect.val * t ≤ 2 ^ 50 := by
    calc aspect.val * t ≤ 2 ^ 20 * 2 ^ 30 := by gcongr
      _ = _ := by norm_num
  have P := Rel.mul (g := 5.1 / 2 ^ 24) (Rel.exact fa) RT (by norm_num) (by norm_num)
    (by rw [abs_of_pos at0]; exact le_trans (by norm_num) at1) (by rw [abs_of_pos at0]; exact at2.trans (by norm_num))
  refine ⟨t1, ?_, ?_⟩
  · refine Rel.div (d := 5.2 / 2 ^ 24) (Rel.lit isFin_lit_one lit_one_cast) P le_rfl (by norm_num) (by norm_num) at0.ne'
      (by norm_num) (by norm_num) (by norm_num) ?_ ?_
    · rw [abs_of_pos (by positivity), le_div_iff₀ at0]
      calc 1 / 2 ^ 125 * (aspect.val * t) ≤ 1 / 2 ^ 125 * 2 ^ 50 := by gcongr
        _ ≤ 1 := by norm_num
    · rw [abs_of_pos (by positivity), div_le_iff₀ at0]
      calc (1 : ℝ) ≤ 2 ^ 126 * (1 / 2 ^ 41) := by norm_num
        _ ≤ _ := by gcongr
  · refine Rel.div (d := 4.2 / 2 ^ 24) (Rel.lit isFin_lit_one lit_one_cast) RT le_rfl (by norm_num) (by norm_num) t0.ne'
      (by norm_num) (by norm_num) (by norm_num) ?_ ?_
    · rw [abs_of_pos (by positivity), le_div_iff₀ t0]
      calc 1 / 2 ^ 125 * t ≤ 1 / 2 ^ 125 * 2 ^ 30 := by gcongr
        _ ≤ 1 := by norm_num
    · rw [abs_of_pos (by positivity), div_le_iff₀ t0]
      calc (1 : ℝ) ≤ 2 ^ 126 * (1 / 2 ^ 21) := by norm_num
        _ ≤ _ := by gcongr

/-- a quotient by the depth of the frustum -/
theorem over_gap {N D : F32} {n w e g : ℝ} (hN : Rel N n e) (hD : Rel D w (1 / 2 ^ 24)) (e0 : 0 ≤ e) (e1 : e ≤ 2.2 / 2 ^ 24)
    (hg : e + 2.15 / 2 ^ 24 ≤ g) (n1 : 1 / 2 ^ 60 ≤ |n|) (n2 : |n| ≤ 2 ^ 61) (w1 : 1 / 2 ^ 56 ≤ |w|) (w2 : |w| ≤ 2 ^ 31) :
    Rel (N / D) (n / w) g ∧ |n / w| ≤ 2 ^ 117 := by
  have w0 : 0 < |w| := lt_of_lt_of_le (by norm_num) w1
  have u : |n / w| ≤ 2 ^ 117 := by
    rw [abs_div, div_le_iff₀ w0]
    calc |n| ≤ 2 ^ 117 * (1 / 2 ^ 56) := n2.trans (by norm_num)
      _ ≤ _ := by gcongr
  refine ⟨?_, u⟩
  refine Rel.div (d := e + 1.1 / 2 ^ 24) hN hD e0 (by norm_num) (by norm_num) (abs_pos.1 w0) (by nlinarith) (by linarith)
    (by nlinarith) ?_ (u.trans (by norm_num))
  rw [abs_div, le_div_iff₀ w0]
  calc 1 / 2 ^ 125 * |w| ≤ 1 / 2 ^ 125 * 2 ^ 31 := by gcongr
    _ ≤ |n| := le_trans (by norm_num) n1

/-- the depth coefficients of all four conventions -/
theorem depth_coefs {fovy aspect n f : F32} (h : Lens fovy aspect n f) :
    (Rel (f / (f - n)) (f.val / (f.val - n.val)) (3.3 / 2 ^ 24) ∧
      Rel (f / (n - f)) (f.val / (n.val - f.val)) (3.3 / 2 ^ 24) ∧
      Rel ((f + n) / (f - n)) ((f.val + n.val) / (f.val - n.val)) (3.3 / 2 ^ 24) ∧
      Rel ((-(f + n)) / (f - n)) (-(f.val + n.val) / (f.val - n.val)) (3.3 / 2 ^ 24)) ∧
    Rel ((-(f * n)) / (f - n)) (-(f.val * n.val) / (f.val - n.val)) (4.4 / 2 ^ 24) ∧
    Rel ((-(lit 2 * f * n)) / (f - n)) (-(2 * f.val * n.val) / (f.val - n.val)) (4.4 / 2 ^ 24) ∧
    (0 : ℝ) < n.val ∧ (n.val : ℝ) < f.val ∧ (f.val : ℝ) ≤ 2 ^ 25 * (f.val - n.val) := by
  obtain ⟨⟨ff, fa, fn, ffar⟩, h1, h2, h3, a1, a2, n1, f2, near⟩ := h
  have n0 : (0 : ℝ) < n.val := lt_of_lt_of_le (by norm_num) n1
  have nf : (n.val : ℝ) < f.val := Rat.cast_lt.2 near
  have gap' : (f.val : ℝ) ≤ 2 ^ 25 * (f.val - n.val) := by
    have : ((f.val : ℚ) : ℝ) ≤ ((2 ^ 25 * (f.val - n.val) : ℚ) : ℝ) :=
      Rat.cast_le.2 (gap_of_lt fn ffar (by exact_mod_cast n0) near)
    push_cast at this
    exact this
  have gap : 1 / 2 ^ 56 ≤ (f.val : ℝ) - n.val := by linarith
  have f0 : (0 : ℝ) < f.val := n0.trans nf
  have w0 : (0 : ℝ) < f.val - n.val := sub_pos.2 nf
  have w1 : |(f.val : ℝ) - n.val| = f.val - n.val := abs_of_pos w0
  have w2 : |(n.val : ℝ) - f.val| = f.val - n.val := by rw [abs_sub_comm]; exact w1
  have W := rel_sub ffar fn (by rw [w1]; linarith)
  have W' := rel_sub fn ffar (by rw [w2]; linarith)
  have p0 : (0 : ℝ) < f.val + n.val := by positivity
  have S := rel_add ffar fn (by rw [abs_of_pos p0]; linarith)
  have m1 : 1 / 2 ^ 60 ≤ (f.val : ℝ) * n.val := by
    calc (1 : ℝ) / 2 ^ 60 = 1 / 2 ^ 30 * (1 / 2 ^ 30) := by norm_num
      _ ≤ _ := by gcongr; linarith
  have m2 : (f.val : ℝ) * n.val ≤ 2 ^ 60 := by
    calc (f.val : ℝ) * n.val ≤ 2 ^ 30 * 2 ^ 30 := by gcongr; linarith
      _ = _ := by norm_num
  have m0 : (0 : ℝ) < f.val * n.val := by positivity
  have P := Rel.mul (g := 1 / 2 ^ 24) (Rel.exact ffar) (Rel.exact fn) (by norm_num) (by norm_num)
    (by rw [abs_of_pos m0]; exact le_trans (by norm_num) m1) (by rw [abs_of_pos m0]; exact m2.trans (by norm_num))
  have t0 : (0 : ℝ) < 2 * f.val := by positivity
  have D := Rel.mul (g := 1 / 2 ^ 24) (Rel.lit lit_two_real.1 lit_two_real.2) (Rel.exact ffar) (by norm_num) (by norm_num)
    (by rw [abs_of_pos t0]; exact le_trans (by norm_num) (show 1 / 2 ^ 30 ≤ 2 * (f.val : ℝ) by linarith))
    (by rw [abs_of_pos t0]; linarith)
  have d0 : (0 : ℝ) < 2 * f.val * n.val := by positivity
  have Q := Rel.mul (g := 2.1 / 2 ^ 24) D (Rel.exact fn) (by norm_num) (by norm_num)
    (by rw [abs_of_pos d0]; linarith) (by rw [abs_of_pos d0]; linarith)
  refine ⟨⟨?_, ?_, ?_, ?_⟩, ?_, ?_, n0, nf, gap'⟩
  · exact (over_gap (Rel.exact ffar) W le_rfl (by norm_num) (by norm_num) (by rw [abs_of_pos f0]; linarith)
      (by rw [abs_of_pos f0]; linarith) (by rw [w1]; exact gap) (by rw [w1]; linarith)).1
  · exact (over_gap (Rel.exact ffar) W' le_rfl (by norm_num) (by norm_num) (by rw [abs_of_pos f0]; linarith)
      (by rw [abs_of_pos f0]; linarith) (by rw [w2]; exact gap) (by rw [w2]; linarith)).1
  · exact (over_gap S W (by norm_num) (by norm_num) (by norm_num) (by rw [abs_of_pos p0]; linarith)
      (by rw [abs_of_pos p0]; linarith) (by rw [w1]; exact gap) (by rw [w1]; linarith)).1
  · exact (over_gap S.neg W (by norm_num) (by norm_num) (by norm_num) (by rw [abs_neg, abs_of_pos p0]; linarith)
      (by rw [abs_neg, abs_of_pos p0]; linarith) (by rw [w1]; exact gap) (by rw [w1]; linarith)).1
  · exact (over_gap P.neg W (by norm_num) (by norm_num) (by norm_num) (by rw [abs_neg, abs_of_pos m0]; exact m1)
      (by rw [abs_neg, abs_of_pos m0]; linarith) (by rw [w1]; exact gap) (by rw [w1]; linarith)).1
  · exact (over_gap Q.neg W (by norm_num) (by norm_num) (by norm_num) (by rw [abs_neg, abs_of_pos d0]; linarith)
      (by rw [abs_neg, abs_of_pos d0]; linarith) (by rw [w1]; exact gap) (by rw [w1]; linarith)).1

/-- the zero pattern of a perspective matrix -/
structure F32.Frust (m : M4 F32) : Prop where
  h0y : IsZ m.c0.y
  h0z : IsZ m.c0.z
  h0w : IsZ m.c0.w
  h1x : IsZ m.c1.x
  h1z : IsZ m.c1.z
  h1w : IsZ m.c1.w
  h2x : IsZ m.c2.x
  h2y : IsZ m.c2.y
  h3x : IsZ m.c3.x
  h3y : IsZ m.c3.y
  h3w : IsZ m.c3.w

theorem frust_entries {m : M4 F32} {X Y A B s : ℝ} (hd : Frust m) (h0 : Rel m.c0.x X (6.4 / 2 ^ 24))
    (h1 : Rel m.c1.y Y (6.4 / 2 ^ 24)) (h2 : Rel m.c2.z A (3.3 / 2 ^ 24)) (h3 : Rel m.c3.z B (4.4 / 2 ^ 24))
    (h4 : Rel m.c2.w s 0) (c r : Fin 4) :
    Near (entry m c r) (frustumMatrix X Y A B s r c) (7 / 2 ^ 24 * |frustumMatrix X Y A B s r c|) := by
  have z : (0 : ℝ) ≤ 7 / 2 ^ 24 * |(0 : ℝ)| := by simp
  have up : ∀ {x : F32} {r e : ℝ}, Rel x r e → e ≤ 7 / 2 ^ 24 → Near x r (7 / 2 ^ 24 * |r|) := fun h he =>
    near_of_rel (h.mono he)
  fin_cases c <;> fin_cases r
  · exact up h0 (by norm_num)
  · exact near_z hd.h0y z
  · exact near_z hd.h0z z
  · exact near_z hd.h0w z
  · exact near_z hd.h1x z
  · exact up h1 (by norm_num)
  · exact near_z hd.h1z z
  · exact near_z hd.h1w z
  · exact near_z hd.h2x z
  · exact near_z hd.h2y z
  · exact up h2 (by norm_num)
  · exact up h4 (by norm_num)
  · exact near_z hd.h3x z
  · exact near_z hd.h3y z
  · exact up h3 (by norm_num)
  · exact near_z hd.h3w z

theorem frust_rows {m : M4 F32} (hd : Frust m) {p : V3 F32} (fx : p.x.IsFin = true) (fy : p.y.IsFin = true)
    (fz : p.z.IsFin = true) :
    SameNumber (coord (m * V4.ofXYZ_W p (lit 1)) 0) (m.c0.x * p.x) ∧
    SameNumber (coord (m * V4.ofXYZ_W p (lit 1)) 1) (m.c1.y * p.y) ∧
    SameNumber (coord (m * V4.ofXYZ_W p (lit 1)) 2) (m.c2.z * p.z + m.c3.z) ∧
    SameNumber (coord (m * V4.ofXYZ_W p (lit 1)) 3) (m.c2.w * p.z) := by
  obtain ⟨rx, ry, rz, rw'⟩ := mulV_rows m (V4.ofXYZ_W p (lit 1))
  have e : ∀ v : V4 F32, coord v 0 = v.x ∧ coord v 1 = v.y ∧ coord v 2 = v.z ∧ coord v 3 = v.w := fun _ => ⟨rfl, rfl, rfl, rfl⟩
  obtain ⟨e0, e1, e2, e3⟩ := e (m * V4.ofXYZ_W p (lit 1))
  rw [e0, e1, e2, e3, rx, ry, rz, rw']
  have w : (V4.ofXYZ_W p (lit 1)).w = lit 1 := rfl
  rw [w, mul_one', mul_one', mul_one', mul_one']
  exact ⟨same4_0 (hd.h1x.mulL fy) (hd.h2x.mulL fz) hd.h3x, same4_1 (hd.h0y.mulL fx) (hd.h2y.mulL fz) hd.h3y,
    same4_23 (hd.h0z.mulL fx) (hd.h1z.mulL fy), same4_2 (hd.h0w.mulL fx) (hd.h1w.mulL fy) hd.h3w⟩

/-- division by the exact fourth component -/
theorem div_near {x w : F32} {r d e t : ℝ} (hx : Near x r (e + t)) (hw : Near w d 0) (h0 : 1 / 2 ^ 30 ≤ |d|)
    (ht : t ≤ 1 / 2 ^ 148) (hr : |r| ≤ 2 ^ 90) (he : e ≤ 2 ^ 90) :
    Near (x / w) (r / d) ((1 + 1 / 2 ^ 24) * (e / |d|) + |r / d| / 2 ^ 24 + 1 / 2 ^ 117) := by
  have d0 : 0 < |d| := lt_of_lt_of_le (by norm_num) h0
  have ew : (w.val : ℝ) = d := by
    have := abs_nonpos_iff.1 hw.2
    linarith
  have wne : w.val ≠ 0 := by
    have : (w.val : ℝ) ≠ 0 := by rw [ew]; exact abs_pos.1 d0
    exact_mod_cast this
  have E := div_fin hx.1 hw.1 wne
  have q1 : |((x.val / w.val : ℚ) : ℝ) - r / d| ≤ e / |d| + t / |d| := by
    push_cast
    rw [ew, ← sub_div, abs_div, ← add_div]
    gcongr
    exact hx.2
  have td : t / |d| ≤ 1 / 2 ^ 118 := by
    rw [div_le_iff₀ d0]
    calc t ≤ 1 / 2 ^ 118 * (1 / 2 ^ 30) := ht.trans (by norm_num)
      _ ≤ _ := by gcongr
  have ed : e / |d| ≤ 2 ^ 120 := by
    rw [div_le_iff₀ d0]
    calc e ≤ 2 ^ 120 * (1 / 2 ^ 30) := he.trans (by norm_num)
      _ ≤ _ := by gcongr
  have rd : |r / d| ≤ 2 ^ 120 := by
    rw [abs_div, div_le_iff₀ d0]
    calc |r| ≤ 2 ^ 120 * (1 / 2 ^ 30) := hr.trans (by norm_num)
      _ ≤ _ := by gcongr
  have q2 : |((x.val / w.val : ℚ) : ℝ)| ≤ |r / d| + (e / |d| + 1 / 2 ^ 118) := by
    calc |((x.val / w.val : ℚ) : ℝ)| = |r / d + (((x.val / w.val : ℚ) : ℝ) - r / d)| := by congr 1; ring
      _ ≤ |r / d| + |((x.val / w.val : ℚ) : ℝ) - r / d| := abs_add_le _ _
      _ ≤ _ := by linarith
  have f : (x / w).IsFin = true := by
    rw [E]
    apply isFin_round
    have : ((|x.val / w.val| : ℚ) : ℝ) ≤ (((2 ^ 24 - 1) * 2 ^ 104 : ℚ) : ℝ) := by
      rw [Rat.cast_abs]
      refine q2.trans ?_
      push_cast
      linarith
    exact Rat.cast_le.1 this
  refine ⟨f, ?_⟩
  rw [E] at f ⊢
  have R := round_error_real f
  set R' := (round (x.sgn ^^ w.sgn) (x.val / w.val)) with hR
  have tri : |(R'.val : ℝ) - r / d| ≤ |(R'.val : ℝ) - ((x.val / w.val : ℚ) : ℝ)| + |((x.val / w.val : ℚ) : ℝ) - r / d| := by
    calc |(R'.val : ℝ) - r / d| = |((R'.val : ℝ) - ((x.val / w.val : ℚ) : ℝ)) + (((x.val / w.val : ℚ) : ℝ) - r / d)| := by
          congr 1; ring
      _ ≤ _ := abs_add_le _ _
  linarith

/-- The image of a point under a perspective matrix, before and after the division by the fourth coordinate. -/
theorem frust_point {m : M4 F32} {X Y A B s d : ℝ} (hd : Frust m) (h0 : Rel m.c0.x X (6.4 / 2 ^ 24))
    (h1 : Rel m.c1.y Y (6.4 / 2 ^ 24)) (h2 : Rel m.c2.z A (3.3 / 2 ^ 24)) (h3 : Rel m.c3.z B (4.4 / 2 ^ 24))
    (h4 : m.c2.w = lit 1 ∧ s = 1 ∨ m.c2.w = -(lit 1) ∧ s = -1) {p : V3 F32} (hp : InFront p d) (e : d = s * p.z.val)
    (bX : |X| ≤ 2 ^ 45) (bY : |Y| ≤ 2 ^ 45) (bA : |A| ≤ 2 ^ 30) (bB : |B| ≤ 2 ^ 60) :
    let q := m * V4.ofXYZ_W p (lit 1)
    (Near (coord q 0) (X * p.x.val) (8 / 2 ^ 24 * |X * p.x.val| + 1 / 2 ^ 150) ∧
      Near (coord q 1) (Y * p.y.val) (8 / 2 ^ 24 * |Y * p.y.val| + 1 / 2 ^ 150) ∧
      Near (coord q 2) (A * p.z.val + B) (6 / 2 ^ 24 * (|A| * d + |B|) + 1 / 2 ^ 148) ∧ Near (coord q 3) d 0) ∧
    Near (coord q 0 / coord q 3) (X * p.x.val / d) (9 / 2 ^ 24 * |X * p.x.val / d| + 1 / 2 ^ 117) ∧
    Near (coord q 1 / coord q 3) (Y * p.y.val / d) (9 / 2 ^ 24 * |Y * p.y.val / d| + 1 / 2 ^ 117) ∧
    Near (coord q 2 / coord q 3) ((A * p.z.val + B) / d) (7 / 2 ^ 24 * ((|A| * d + |B|) / d) + 1 / 2 ^ 117) := by
  obtain ⟨⟨fx, fy, fz⟩, bx, by', d1, d2⟩ := hp
  obtain ⟨x, y, z, w⟩ := frust_rows hd fx fy fz
  have d0 : 0 < d := lt_of_lt_of_le (by norm_num) d1
  have ad : |d| = d := abs_of_pos d0
  have pz : |(p.z.val : ℝ)| = d := by
    rw [← ad, e]
    rcases h4 with ⟨-, rfl⟩ | ⟨-, rfl⟩
    · rw [one_mul]
    · rw [neg_one_mul, abs_neg]
  have bXp : |X * (p.x.val : ℝ)| ≤ 2 ^ 85 := by
    rw [abs_mul]
    calc |X| * |(p.x.val : ℝ)| ≤ 2 ^ 45 * 2 ^ 40 := by gcongr
      _ = _ := by norm_num
  have bYp : |Y * (p.y.val : ℝ)| ≤ 2 ^ 85 := by
    rw [abs_mul]
    calc |Y| * |(p.y.val : ℝ)| ≤ 2 ^ 45 * 2 ^ 40 := by gcongr
      _ = _ := by norm_num
  have eAp : |A * (p.z.val : ℝ)| = |A| * d := by rw [abs_mul, pz]
  have bAp : |A| * d ≤ 2 ^ 60 := by
    calc |A| * d ≤ 2 ^ 30 * 2 ^ 30 := by gcongr
      _ = _ := by norm_num
  have nAp : 0 ≤ |A| * d := by positivity
  have nB := abs_nonneg B
  have NX : Near (coord (m * V4.ofXYZ_W p (lit 1)) 0) (X * p.x.val) (7.5 / 2 ^ 24 * |X * p.x.val| + 1 / 2 ^ 150) :=
    Near.same x (Rel.mul' h0 (Rel.exact fx) (by norm_num) (by norm_num) (bXp.trans (by norm_num)))
  have NY : Near (coord (m * V4.ofXYZ_W p (lit 1)) 1) (Y * p.y.val) (7.5 / 2 ^ 24 * |Y * p.y.val| + 1 / 2 ^ 150) :=
    Near.same y (Rel.mul' h1 (Rel.exact fy) (by norm_num) (by norm_num) (bYp.trans (by norm_num)))
  have NZ : Near (coord (m * V4.ofXYZ_W p (lit 1)) 2) (A * p.z.val + B) (5.5 / 2 ^ 24 * (|A| * d + |B|) + 1 / 2 ^ 148) := by
    rw [← eAp]
    exact Near.same z (two_terms h2 ((near_of_rel h3).mono (by
      have : (0 : ℝ) < 1 / 2 ^ 150 := by norm_num
      linarith)) fz le_rfl le_rfl (by rw [eAp]; linarith) (bB.trans (by norm_num)))
  have NW : Near (coord (m * V4.ofXYZ_W p (lit 1)) 3) d 0 := by
    refine Near.same w ?_
    rcases h4 with ⟨h, hs⟩ | ⟨h, hs⟩
    · rw [h, one_mul']
      exact near_exact fz (by rw [e, hs, one_mul]) le_rfl
    · rw [h, neg_mul', one_mul']
      obtain ⟨f, v⟩ := neg_fin_real fz rfl
      exact near_exact f (by rw [v, e, hs, neg_one_mul]) le_rfl
  have d1' : 1 / 2 ^ 30 ≤ |d| := by rw [ad]; exact d1
  have DX := div_near NX NW d1' (by norm_num) (bXp.trans (by norm_num)) (by linarith)
  have DY := div_near NY NW d1' (by norm_num) (bYp.trans (by norm_num)) (by linarith)
  have bS : |A * (p.z.val : ℝ) + B| ≤ |A| * d + |B| := by rw [← eAp]; exact abs_add_le _ _
  have DZ := div_near NZ NW d1' (by norm_num) (bS.trans (by linarith)) (by linarith)
  rw [mul_div_assoc _ |X * (p.x.val : ℝ)|] at DX
  rw [mul_div_assoc _ |Y * (p.y.val : ℝ)|] at DY
  rw [mul_div_assoc _ (|A| * d + |B|)] at DZ
  have aX : |X * (p.x.val : ℝ)| / |d| = |X * p.x.val / d| := (abs_div _ _).symm
  have aY : |Y * (p.y.val : ℝ)| / |d| = |Y * p.y.val / d| := (abs_div _ _).symm
  have bZ : |(A * (p.z.val : ℝ) + B) / d| ≤ (|A| * d + |B|) / d := by
    rw [abs_div, ad]; gcongr
  rw [aX] at DX
  rw [aY] at DY
  rw [ad] at DZ
  have nx := abs_nonneg (X * (p.x.val : ℝ) / d)
  have ny := abs_nonneg (Y * (p.y.val : ℝ) / d)
  have nz : 0 ≤ (|A| * d + |B|) / d := by positivity
  refine ⟨⟨NX.mono ?_, NY.mono ?_, NZ.mono ?_, NW⟩, DX.mono ?_, DY.mono ?_, DZ.mono ?_⟩
  · have := abs_nonneg (X * (p.x.val : ℝ)); linarith
  · have := abs_nonneg (Y * (p.y.val : ℝ)); linarith
  · linarith
  · linarith
  · linarith
  · linarith

/-- sizes of the focal lengths and of the depth coefficients -/
theorem lens_sizes {aspect t n f : ℝ} (ht : 1 / 2 ^ 21 ≤ t) (ha : 1 / 2 ^ 20 ≤ aspect) (hn : 0 < n) (hnf : n < f)
    (hf : f ≤ 2 ^ 30) (gap : f ≤ 2 ^ 25 * (f - n)) :
    |1 / (aspect * t)| ≤ 2 ^ 45 ∧ |1 / t| ≤ 2 ^ 45 ∧ f / (f - n) ≤ 2 ^ 30 ∧ (f + n) / (f - n) ≤ 2 ^ 30 ∧
      f * n / (f - n) ≤ 2 ^ 60 ∧ 2 * f * n / (f - n) ≤ 2 ^ 60 := by
  have t0 : 0 < t := lt_of_lt_of_le (by norm_num) ht
  have a0 : 0 < aspect := lt_of_lt_of_le (by norm_num) ha
  have at1 : 1 / 2 ^ 41 ≤ aspect * t := by
    calc (1 : ℝ) / 2 ^ 41 = 1 / 2 ^ 20 * (1 / 2 ^ 21) := by norm_num
      _ ≤ _ := by gcongr
  have at0 : 0 < aspect * t := by positivity
  have w0 : 0 < f - n := sub_pos.2 hnf
  have f0 : 0 < f := hn.trans hnf
  refine ⟨?_, ?_, ?_, ?_, ?_, ?_⟩
  · rw [abs_of_pos (by positivity), div_le_iff₀ at0]; linarith
  · rw [abs_of_pos (by positivity), div_le_iff₀ t0]; linarith
  · rw [div_le_iff₀ w0]; linarith
  · rw [div_le_iff₀ w0]; linarith
  · rw [div_le_iff₀ w0]
    calc f * n ≤ 2 ^ 25 * (f - n) * 2 ^ 30 := by gcongr; linarith
      _ ≤ _ := by linarith
  · rw [div_le_iff₀ w0]
    calc 2 * f * n ≤ 2 * (2 ^ 25 * (f - n)) * 2 ^ 30 := by gcongr; linarith
      _ ≤ _ := by linarith

/-- every number in the range of binary32 has a float close to it -/
theorem exists_float_near {y : ℝ} (h : |y| ≤ 2 ^ 100) :
    ∃ x : F32, x.IsFin = true ∧ |(x.val : ℝ) - y| ≤ |y| / 2 ^ 24 + 1 / 2 ^ 140 := by
  obtain ⟨q, q1, q2⟩ := exists_rat_btwn (show y < y + 1 / 2 ^ 149 by linarith [show (0 : ℝ) < 1 / 2 ^ 149 by norm_num])
  have d : |(q : ℝ) - y| ≤ 1 / 2 ^ 149 := by rw [abs_of_pos (sub_pos.2 q1)]; linarith
  have b : |(q : ℝ)| ≤ |y| + 1 / 2 ^ 149 := by
    calc |(q : ℝ)| = |y + (q - y)| := by congr 1; ring
      _ ≤ _ := (abs_add_le _ _).trans (by linarith)
  have f : (round false q).IsFin = true := by
    apply isFin_round
    have : ((|q| : ℚ) : ℝ) ≤ (((2 ^ 24 - 1) * 2 ^ 104 : ℚ) : ℝ) := by
      rw [Rat.cast_abs]; push_cast; linarith
    exact Rat.cast_le.1 this
  refine ⟨round false q, f, ?_⟩
  have e := round_error_real f
  have t := abs_sub_le ((round false q).val : ℝ) q y
  linarith

open Classical in
/-- a float close to `y` -/
noncomputable def closeFloat (y : ℝ) : F32 := if h : |y| ≤ 2 ^ 100 then (exists_float_near h).choose else .nan

theorem closeFloat_close {y : ℝ} (h : |y| ≤ 2 ^ 100) :
    (closeFloat y).IsFin = true ∧ |((closeFloat y).val : ℝ) - y| ≤ |y| / 2 ^ 24 + 1 / 2 ^ 140 := by
  unfold closeFloat
  rw [dif_pos h]
  exact (exists_float_near h).choose_spec

/-- a C library with a good tangent (and nothing else) -/
@[instance_reducible]
noncomputable def tanLibm : Libm F32 where
  expf := id
  logf := id
  log2f := id
  powf x _ := x
  cbrtf := id
  sinf := id
  cosf := id
  tanf x := closeFloat (Real.tan x.val)
  asinf := id
  acosf := id
  atanf := id
  atan2f x _ := x
  sinhf := id
  coshf := id
  tanhf := id
  asinhf := id
  acoshf := id
  atanhf := id

end Zcm
