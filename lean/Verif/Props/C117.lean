import Verif.Lemmas.F32Normal

/-!
# C117  The inverse of a transform takes world coordinates back to local coordinates in IEEE arithmetic

`Transform m` (Spec/Transform): last row 0 0 0 1, three axes that are perpendicular up to 1/100 (so rotation times scale with any
rounding), of length `2^-16` to `2^20`, and a translation of length at most `2^20`.  `placed m x` is the exact point with local
coordinates `x`.  The error of a local coordinate is relative to the length of its own axis: strongly different scales along
the axes do no harm.
-/

set_option exponentiation.threshold 300

namespace Zcm

open WithLp F32
open scoped RealInnerProductSpace Matrix

variable {m : M4 F32}

/-- C117: every point has exactly one triple of local coordinates. -/
theorem C117_unique (m : M4 F32) (h : Transform m) (P : Space) : ∃! x : Fin 3 → ℝ, P = placed m x := by
  obtain ⟨s, hs⟩ : ∃ s : Fin 4 → ℝ, ∀ c, s c = ∑ j, ((exactMat m)⁻¹ c j : ℝ) * ![P 0, P 1, P 2, 1] j := ⟨_, fun _ => rfl⟩
  refine ⟨fun i => s i.castSucc, ?_, fun x hx => ?_⟩
  · have e : exactMat m * (exactMat m)⁻¹ = 1 := Matrix.mul_nonsing_inv _ (isUnit_iff_ne_zero.2 h.det_ne)
    have e' : ∀ r j, ∑ c, ((exactMat m r c : ℚ) : ℝ) * ((exactMat m)⁻¹ c j : ℚ) = if r = j then 1 else 0 := by
      intro r j
      have := congrFun (congrFun e r) j
      rw [Matrix.mul_apply, Matrix.one_apply] at this
      have := congrArg (fun x : ℚ => (x : ℝ)) this
      push_cast at this
      rw [this]
      split_ifs <;> simp
    have all : ∀ r : Fin 4, ∑ c, ((exactMat m r c : ℚ) : ℝ) * s c = ![P 0, P 1, P 2, 1] r := by
      intro r
      calc _ = ∑ j, (∑ c, ((exactMat m r c : ℚ) : ℝ) * ((exactMat m)⁻¹ c j : ℚ)) * ![P 0, P 1, P 2, 1] j := by
            simp only [hs, Finset.mul_sum, Finset.sum_mul]
            rw [Finset.sum_comm]
            exact Finset.sum_congr rfl fun j _ => Finset.sum_congr rfl fun c _ => by ring
        _ = _ := by simp [e']
    simp only [exactMat, Matrix.of_apply, Fin.sum_univ_four] at all
    have last := all 3
    have l0 : (entry m 0 3).val = 0 := h.last 0
    have l1 : (entry m 1 3).val = 0 := h.last 1
    have l2 : (entry m 2 3).val = 0 := h.last 2
    rw [l0, l1, l2, h.one] at last
    simp only [Rat.cast_zero, zero_mul, zero_add, Rat.cast_one, one_mul] at last
    ext r
    rw [placed_apply]
    have k := all r.castSucc
    rw [last] at k
    simp only [axisOf_apply]
    fin_cases r <;> exact k.symm.trans (by simp only [Fin.castSucc_zero, Fin.castSucc_one, Matrix.cons_val]; ring_nf; rfl)
  · have := (h.local_coords (v := ![P 0, P 1, P 2, 1]) (x := x) (w := 1) (fun r => by
      have e := placed_apply m x r
      rw [← hx] at e
      fin_cases r <;> exact e.trans (by ring)) rfl).1
    exact funext fun i => by rw [hs]; exact (this i).symm

/-- C117: `inverse(m) * vec4(P, 1)` gives the local coordinates of the point `P`, and 1. -/
theorem C117_point (m : M4 F32) (h : Transform m) (P : V3 F32) (fP : ∀ i, (coord P i).IsFin = true) (hP : ‖exactly P‖ ≤ 2 ^ 40)
    (x : Fin 3 → ℝ) (hx : exactly P = placed m x) :
    (∀ i : Fin 3, Near (coord (M4.inverse m * V4.ofXYZ_W P (lit 1)) i.castSucc) (x i)
      (104 / 2 ^ 24 * (‖exactly P‖ + ‖axisOf m 3‖) / ‖axisOf m i.castSucc‖ + 1 / 2 ^ 73)) ∧
    Near (coord (M4.inverse m * V4.ofXYZ_W P (lit 1)) 3) 1 (104 / 2 ^ 24) := by
  have one : ((lit 1 : F32).val : ℝ) = 1 ∧ (lit 1 : F32).IsFin = true := by
    have : (lit 1 : F32).val = 1 ∧ (lit 1 : F32).IsFin = true := by decide +kernel
    exact ⟨by rw [this.1]; simp, this.2⟩
  have fv : ∀ i, (coord (V4.ofXYZ_W P (lit 1)) i).IsFin = true := fun i => by
    fin_cases i
    exacts [fP 0, fP 1, fP 2, one.2]
  have hS : |((coord (V4.ofXYZ_W P (lit 1)) 0).val : ℝ)| + |((coord (V4.ofXYZ_W P (lit 1)) 1).val : ℝ)| +
      |((coord (V4.ofXYZ_W P (lit 1)) 2).val : ℝ)| ≤ 1.7321 * ‖exactly P‖ := sum_abs_le_norm (exactly P)
  have w : ((coord (V4.ofXYZ_W P (lit 1)) 3).val : ℝ) = 1 := one.1
  obtain ⟨k1, k2⟩ := h.local_coords (v := fun j => ((coord (V4.ofXYZ_W P (lit 1)) j).val : ℝ)) (x := x) (w := 1) (fun r => by
    have e := placed_apply m x r
    rw [← hx] at e
    fin_cases r <;> exact e.trans (by ring)) one.1
  have n0 := norm_nonneg (exactly P)
  have t0 := norm_nonneg (axisOf m 3)
  refine ⟨fun i => ?_, ?_⟩
  · have a := h.apply_linear fv hS (by linarith) (by rw [w]; norm_num) i
    rw [k1 i, w, abs_one, mul_one] at a
    refine ⟨a.1, a.2.trans ?_⟩
    rw [add_assoc]
    refine add_le_add ?_ (by norm_num)
    have := h.pos i
    gcongr
    linarith
  · have a := h.apply_last fv hS (by linarith) (by rw [w]; norm_num)
    rw [k2, w, abs_one, mul_one] at a
    refine ⟨a.1, a.2.trans ?_⟩
    have t : 1.7321 * (2 : ℝ) ^ 40 / 2 ^ 74 + 103.2 / 2 ^ 24 + 1 / 2 ^ 147 ≤ 104 / 2 ^ 24 := by norm_num
    have : 1.7321 * ‖exactly P‖ / 2 ^ 74 ≤ 1.7321 * (2 : ℝ) ^ 40 / 2 ^ 74 := by gcongr
    linarith

/-- C117: `inverse(m) * vec4(P, 0)` gives the local coordinates of the direction `P`; the translation plays no part. -/
theorem C117_direction (m : M4 F32) (h : Transform m) (P : V3 F32) (fP : ∀ i, (coord P i).IsFin = true) (hP : ‖exactly P‖ ≤ 2 ^ 40)
    (x : Fin 3 → ℝ) (hx : exactly P = ∑ c : Fin 3, x c • axisOf m c.castSucc) :
    (∀ i : Fin 3, Near (coord (M4.inverse m * V4.ofXYZ_W P (lit 0)) i.castSucc) (x i)
      (104 / 2 ^ 24 * ‖exactly P‖ / ‖axisOf m i.castSucc‖ + 1 / 2 ^ 147)) ∧
    Near (coord (M4.inverse m * V4.ofXYZ_W P (lit 0)) 3) 0 (‖exactly P‖ / 2 ^ 73 + 1 / 2 ^ 147) := by
  have zero : ((lit 0 : F32).val : ℝ) = 0 ∧ (lit 0 : F32).IsFin = true := by
    have : (lit 0 : F32).val = 0 ∧ (lit 0 : F32).IsFin = true := by decide +kernel
    exact ⟨by rw [this.1]; simp, this.2⟩
  have fv : ∀ i, (coord (V4.ofXYZ_W P (lit 0)) i).IsFin = true := fun i => by
    fin_cases i
    exacts [fP 0, fP 1, fP 2, zero.2]
  have hS : |((coord (V4.ofXYZ_W P (lit 0)) 0).val : ℝ)| + |((coord (V4.ofXYZ_W P (lit 0)) 1).val : ℝ)| +
      |((coord (V4.ofXYZ_W P (lit 0)) 2).val : ℝ)| ≤ 1.7321 * ‖exactly P‖ := sum_abs_le_norm (exactly P)
  have w : ((coord (V4.ofXYZ_W P (lit 0)) 3).val : ℝ) = 0 := zero.1
  obtain ⟨k1, k2⟩ := h.local_coords (v := fun j => ((coord (V4.ofXYZ_W P (lit 0)) j).val : ℝ)) (x := x) (w := 0) (fun r => by
    have e : exactly P r = x 0 * axisOf m 0 r + x 1 * axisOf m 1 r + x 2 * axisOf m 2 r := by
      rw [hx]; simp [Fin.sum_univ_three]
    fin_cases r <;> exact e.trans (by ring)) zero.1
  have n0 := norm_nonneg (exactly P)
  refine ⟨fun i => ?_, ?_⟩
  · have a := h.apply_linear fv hS (by linarith) (by rw [w]; norm_num) i
    rw [k1 i, w, abs_zero, mul_zero, add_zero, zero_div, add_zero] at a
    refine ⟨a.1, a.2.trans ?_⟩
    refine add_le_add ?_ le_rfl
    refine div_le_div_of_nonneg_right ?_ (h.pos i).le
    linarith
  · have a := h.apply_last fv hS (by linarith) (by rw [w]; norm_num)
    rw [k2, w, abs_zero, mul_zero, add_zero] at a
    refine ⟨a.1, a.2.trans ?_⟩
    refine add_le_add ?_ le_rfl
    linarith

/-- C117: local to world and back. -/
theorem C117_roundtrip (m : M4 F32) (h : Transform m) (p : V3 F32) (fp : ∀ i, (coord p i).IsFin = true)
    (hp : ∑ c : Fin 3, ‖axisOf m c.castSucc‖ * |((coord p c).val : ℝ)| ≤ 2 ^ 40) :
    (∀ i : Fin 3, Near (coord (M4.inverse m * (m * V4.ofXYZ_W p (lit 1))) i.castSucc) (coord p i).val
      (227 / 2 ^ 24 * (∑ c : Fin 3, ‖axisOf m c.castSucc‖ * |((coord p c).val : ℝ)| + ‖axisOf m 3‖) / ‖axisOf m i.castSucc‖ + 1 / 2 ^ 72)) ∧
    Near (coord (M4.inverse m * (m * V4.ofXYZ_W p (lit 1))) 3) 1 (112 / 2 ^ 24) := by
  have one : ((lit 1 : F32).val : ℝ) = 1 ∧ (lit 1 : F32).IsFin = true := by
    have : (lit 1 : F32).val = 1 ∧ (lit 1 : F32).IsFin = true := by decide +kernel
    exact ⟨by rw [this.1]; simp, this.2⟩
  have fv : ∀ i, (coord (V4.ofXYZ_W p (lit 1)) i).IsFin = true := fun i => by
    fin_cases i
    exacts [fp 0, fp 1, fp 2, one.2]
  have w : ((coord (V4.ofXYZ_W p (lit 1)) 3).val : ℝ) = 1 := one.1
  have far := h.far
  have far0 := norm_nonneg (axisOf m 3)
  have hL : ∑ c : Fin 3, ‖axisOf m c.castSucc‖ * |((coord (V4.ofXYZ_W p (lit 1)) c.castSucc).val : ℝ)| +
      ‖axisOf m 3‖ * |((coord (V4.ofXYZ_W p (lit 1)) 3).val : ℝ)| ≤
      ∑ c : Fin 3, ‖axisOf m c.castSucc‖ * |((coord p c).val : ℝ)| + ‖axisOf m 3‖ := by
    rw [w, abs_one, mul_one]
    refine le_of_eq (congrArg (· + ‖axisOf m 3‖) ?_)
    rw [Fin.sum_univ_three, Fin.sum_univ_three]
    rfl
  have s0 : 0 ≤ ∑ c : Fin 3, ‖axisOf m c.castSucc‖ * |((coord p c).val : ℝ)| := Finset.sum_nonneg fun _ _ => by positivity
  obtain ⟨f1, f2⟩ := h.forward fv hL (by linarith) (by rw [w]; norm_num)
  rw [w, abs_one, mul_one] at f2
  have I := imageOf_norm m fun j => ((coord (V4.ofXYZ_W p (lit 1)) j).val : ℝ)
  replace I := I.trans hL
  obtain ⟨k1, k2⟩ := h.local_coords (x := fun i => ((coord p i).val : ℝ)) (w := 1)
    (v := Fin.snoc (imageOf m fun j => ((coord (V4.ofXYZ_W p (lit 1)) j).val : ℝ)) (1 : ℝ)) (fun r => by
      rw [Fin.snoc_castSucc]
      show imageOf m (fun j => ((coord (V4.ofXYZ_W p (lit 1)) j).val : ℝ)) r = _
      simp only [imageOf]
      rw [w]
      show ((coord p 0).val : ℝ) * _ + ((coord p 1).val : ℝ) * _ + ((coord p 2).val : ℝ) * _ + _ = _
      ring) (Fin.snoc_last _ _)
  generalize ∑ c : Fin 3, ‖axisOf m c.castSucc‖ * |((coord p c).val : ℝ)| = K at *
  set J := imageOf m fun j => ((coord (V4.ofXYZ_W p (lit 1)) j).val : ℝ)
  set q := m * V4.ofXYZ_W p (lit 1) with hq
  have fq : ∀ i, (coord q i).IsFin = true := fun i => by
    rcases Fin.eq_castSucc_or_eq_last i with ⟨i, rfl⟩ | rfl
    · exact (f1 i).1
    · exact f2.1
  obtain ⟨s1, s2⟩ := h.inverse_shift (v := fun j => ((coord q j).val : ℝ)) (v' := Fin.snoc J (1 : ℝ)) (fun r => by
      rw [Fin.snoc_castSucc]
      exact (f1 r).2) (w := 4.001 / 2 ^ 24 + 1 / 2 ^ 147) (f2.2)
  rw [k2] at s2
  have hS : |((coord q 0).val : ℝ)| + |((coord q 1).val : ℝ)| + |((coord q 2).val : ℝ)| ≤ 1.73211 * (K + ‖axisOf m 3‖) + 1 / 2 ^ 145 := by
    have a0 := abs_sub_abs_le_abs_sub ((coord q 0).val : ℝ) (J 0)
    have a1 := abs_sub_abs_le_abs_sub ((coord q 1).val : ℝ) (J 1)
    have a2 := abs_sub_abs_le_abs_sub ((coord q 2).val : ℝ) (J 2)
    have b0 : |((coord q 0).val : ℝ) - J 0| ≤ _ := (f1 0).2
    have b1 : |((coord q 1).val : ℝ) - J 1| ≤ _ := (f1 1).2
    have b2 : |((coord q 2).val : ℝ) - J 2| ≤ _ := (f1 2).2
    have n := sum_abs_le_norm J
    linarith
  have q3 : |((coord q 3).val : ℝ)| ≤ 1.00001 := by
    have := abs_sub_abs_le_abs_sub ((coord q 3).val : ℝ) 1
    have g := f2.2
    rw [abs_one] at this
    norm_num at g this ⊢
    linarith
  refine ⟨fun i => ?_, ?_⟩
  · have a := h.apply_linear fq hS (by linarith) (by linarith) i
    have s := s1 i
    rw [k1 i] at s
    refine ⟨a.1, (abs_sub_le _ _ _).trans ((add_le_add a.2 s).trans ?_)⟩
    have p := h.pos i
    have l : ‖axisOf m i.castSucc‖⁻¹ ≤ 2 ^ 16 := by
      rw [inv_le_comm₀ p (by norm_num), ← one_div]
      exact h.box.low i
    simp only [div_eq_mul_inv _ ‖axisOf m i.castSucc‖]
    have R0 : 0 < ‖axisOf m i.castSucc‖⁻¹ := by positivity
    generalize ‖axisOf m i.castSucc‖⁻¹ = R at *
    generalize ‖axisOf m 3‖ = N at *
    have x1 : N * |((coord q 3).val : ℝ)| ≤ N * 1.00001 := mul_le_mul_of_nonneg_left q3 far0
    have x2 : 59.7 / 2 ^ 24 * (1.73211 * (K + N) + 1 / 2 ^ 145) + 103.2 / 2 ^ 24 * N * |((coord q 3).val : ℝ)| +
        (3.0007 * (4.001 / 2 ^ 24 * (K + N) + 1 / 2 ^ 147) + 1.7326 * N * (4.001 / 2 ^ 24 + 1 / 2 ^ 147)) ≤
        227 / 2 ^ 24 * (K + N) + 1 / 2 ^ 140 := by
      nlinarith
    have x3 := mul_le_mul_of_nonneg_right x2 R0.le
    have t : 1 / 2 ^ 140 * (2 : ℝ) ^ 16 + 1.00001 / 2 ^ 74 + 1 / 2 ^ 147 ≤ 1 / 2 ^ 72 := by norm_num
    nlinarith
  · have a := h.apply_last fq hS (by linarith) (by linarith)
    refine ⟨a.1, (abs_sub_le _ _ _).trans ((add_le_add a.2 s2).trans ?_)⟩
    have t : (1.73211 * (2 ^ 40 + 2 ^ 20) + 1 / 2 ^ 145) / (2 : ℝ) ^ 74 + 103.2 / 2 ^ 24 * 1.00001 + 1 / 2 ^ 147 + 1.7326 * (4.001 / 2 ^ 24 + 1 / 2 ^ 147) ≤ 112 / 2 ^ 24 := by
      norm_num
    linarith

/-- C117: world to local and back. -/
theorem C117_roundtrip_world (m : M4 F32) (h : Transform m) (P : V3 F32) (fP : ∀ i, (coord P i).IsFin = true) (hP : ‖exactly P‖ ≤ 2 ^ 40) :
    (∀ r : Fin 3, Near (coord (m * (M4.inverse m * V4.ofXYZ_W P (lit 1))) r.castSucc) (coord P r).val
      (442 / 2 ^ 24 * (‖exactly P‖ + ‖axisOf m 3‖) + 1 / 2 ^ 50)) ∧
    Near (coord (m * (M4.inverse m * V4.ofXYZ_W P (lit 1))) 3) 1 (109 / 2 ^ 24) := by
  obtain ⟨x, hx, -⟩ := C117_unique m h (exactly P)
  obtain ⟨p1, p2⟩ := C117_point m h P fP hP x hx
  have far := h.far
  have far0 := norm_nonneg (axisOf m 3)
  have P0 := norm_nonneg (exactly P)
  have hN : ∀ i : Fin 3, ‖axisOf m i.castSucc‖ * |x i| ≤ 1.733 * (‖exactly P‖ + ‖axisOf m 3‖) := by
    intro i
    have k := (h.local_coords (v := ![exactly P 0, exactly P 1, exactly P 2, 1]) (x := x) (w := 1) (fun r => by
      have e := placed_apply m x r
      rw [← hx] at e
      fin_cases r <;> exact e.trans (by ring)) rfl).1 i
    have c0 : |((exactMat m)⁻¹ i.castSucc 0 : ℝ)| * |exactly P 0| ≤ _ := mul_le_mul_of_nonneg_right (h.entry_linear i 0).2.2 (abs_nonneg (exactly P 0))
    have c1 : |((exactMat m)⁻¹ i.castSucc 1 : ℝ)| * |exactly P 1| ≤ _ := mul_le_mul_of_nonneg_right (h.entry_linear i 1).2.2 (abs_nonneg (exactly P 1))
    have c2 : |((exactMat m)⁻¹ i.castSucc 2 : ℝ)| * |exactly P 2| ≤ _ := mul_le_mul_of_nonneg_right (h.entry_linear i 2).2.2 (abs_nonneg (exactly P 2))
    have c3 := (h.entry_translation i).2.2
    have s := sum_abs_le_norm (exactly P)
    have b : |x i| ≤ 1.00021 * (1 / ‖axisOf m i.castSucc‖) * (1.7321 * ‖exactly P‖) + 1.7326 * (‖axisOf m 3‖ / ‖axisOf m i.castSucc‖) := by
      rw [← k, Fin.sum_univ_four]
      have ab : ∀ a b c d : ℝ, |a + b + c + d| ≤ |a| + |b| + |c| + |d| := fun a b c d => by
        linarith [abs_add_le (a + b + c) d, abs_add_le (a + b) c, abs_add_le a b]
      refine (ab _ _ _ _).trans ?_
      simp only [abs_mul, Matrix.cons_val, abs_one, mul_one]
      have p := h.pos i
      have g := mul_le_mul_of_nonneg_left s (show 0 ≤ 1.00021 * (1 / ‖axisOf m i.castSucc‖) by positivity)
      linarith
    have p := h.pos i
    calc ‖axisOf m i.castSucc‖ * |x i| ≤ ‖axisOf m i.castSucc‖ * _ := mul_le_mul_of_nonneg_left b p.le
      _ = 1.00021 * (1.7321 * ‖exactly P‖) + 1.7326 * ‖axisOf m 3‖ := by field_simp
      _ ≤ _ := by linarith
  set y := M4.inverse m * V4.ofXYZ_W P (lit 1) with hy
  have fy : ∀ i, (coord y i).IsFin = true := fun i => by
    rcases Fin.eq_castSucc_or_eq_last i with ⟨i, rfl⟩ | rfl
    · exact (p1 i).1
    · exact p2.1
  have y3 : |((coord y 3).val : ℝ)| ≤ 1.00001 := by
    have := abs_sub_abs_le_abs_sub ((coord y 3).val : ℝ) 1
    have g := p2.2
    rw [abs_one] at this
    norm_num at g this ⊢
    linarith
  have dev : ∀ i : Fin 3, ‖axisOf m i.castSucc‖ * |((coord y i.castSucc).val : ℝ) - x i| ≤
      104 / 2 ^ 24 * (‖exactly P‖ + ‖axisOf m 3‖) + 1 / 2 ^ 53 := by
    intro i
    have p := h.pos i
    have b := h.box.high i
    refine (mul_le_mul_of_nonneg_left (p1 i).2 p.le).trans ?_
    rw [mul_add, mul_div_cancel₀ _ p.ne']
    have : ‖axisOf m i.castSucc‖ * (1 / 2 ^ 73) ≤ 2 ^ 20 * (1 / 2 ^ 73) := by gcongr
    norm_num at this ⊢
    linarith
  have size : ∀ i : Fin 3, ‖axisOf m i.castSucc‖ * |((coord y i.castSucc).val : ℝ)| ≤ 1.7331 * (‖exactly P‖ + ‖axisOf m 3‖) + 1 / 2 ^ 53 := by
    intro i
    have a := abs_add_le (((coord y i.castSucc).val : ℝ) - x i) (x i)
    rw [sub_add_cancel] at a
    have := mul_le_mul_of_nonneg_left a (h.pos i).le
    rw [mul_add] at this
    linarith [dev i, hN i]
  have hL : ∑ c : Fin 3, ‖axisOf m c.castSucc‖ * |((coord y c.castSucc).val : ℝ)| + ‖axisOf m 3‖ * |((coord y 3).val : ℝ)| ≤
      6.2 * (‖exactly P‖ + ‖axisOf m 3‖) + 1 / 2 ^ 51 := by
    rw [Fin.sum_univ_three]
    have := mul_le_mul_of_nonneg_left y3 far0
    linarith [size 0, size 1, size 2]
  obtain ⟨f1, f2⟩ := h.forward fy hL (by linarith) (by linarith)
  refine ⟨fun r => ?_, ?_⟩
  · refine ⟨(f1 r).1, (abs_sub_le _ _ _).trans ((add_le_add (f1 r).2 (?_ : _ ≤ 312 / 2 ^ 24 * (‖exactly P‖ + ‖axisOf m 3‖) + 3 / 2 ^ 53 +
      104 / 2 ^ 24 * ‖axisOf m 3‖)).trans ?_)⟩
    · have e : imageOf m (fun j => ((coord y j).val : ℝ)) r - (coord P r).val =
          imageOf m ![(coord y 0).val - x 0, (coord y 1).val - x 1, (coord y 2).val - x 2, (coord y 3).val - 1] r := by
        have e : ((coord P r).val : ℝ) = placed m x r := by rw [← hx]; rfl
        rw [e, placed_apply]
        simp only [imageOf, Matrix.cons_val]
        ring
      rw [e]
      refine (coord_le_norm3 _ _).trans ((imageOf_norm _ _).trans ?_)
      rw [Fin.sum_univ_three]
      have d0 : ‖axisOf m (Fin.castSucc 0)‖ * |((coord y 0).val : ℝ) - x 0| ≤ _ := dev 0
      have d1 : ‖axisOf m (Fin.castSucc 1)‖ * |((coord y 1).val : ℝ) - x 1| ≤ _ := dev 1
      have d2 : ‖axisOf m (Fin.castSucc 2)‖ * |((coord y 2).val : ℝ) - x 2| ≤ _ := dev 2
      have d3 := mul_le_mul_of_nonneg_left p2.2 far0
      refine (add_le_add (add_le_add (add_le_add d0 d1) d2) d3).trans ?_
      linarith
    · have t : 4.001 / 2 ^ 24 * (1 / 2 ^ 51) + 1 / 2 ^ 147 + 3 / 2 ^ 53 ≤ (1 / 2 ^ 50 : ℝ) := by norm_num
      linarith
  · refine ⟨f2.1, (abs_sub_le _ _ _).trans ((add_le_add f2.2 p2.2).trans ?_)⟩
    have t : 4.001 / 2 ^ 24 * 1.00001 + 1 / 2 ^ 147 + 104 / 2 ^ 24 ≤ (109 / 2 ^ 24 : ℝ) := by norm_num
    linarith

/-- C117: `inverseTranspose(m) * n` for a mat3.  Its scalar product with the image of any direction `x` is the scalar product of `n` with `x`:
what is perpendicular to `n` becomes perpendicular to the result, and what is in front of a surface stays in front. -/
theorem C117_normal (m : M3 F32) (fm : FiniteMat m) (h : NearlyBox (columnOf m)) (n : V3 F32) (fn : ∀ i, (coord n i).IsFin = true)
    (n1 : 1 / 2 ^ 20 ≤ ‖exactly n‖) (n2 : ‖exactly n‖ ≤ 2 ^ 20) :
    (∀ i, (coord (M3.inverseTranspose m * n) i).IsFin = true) ∧ exactly (M3.inverseTranspose m * n) ≠ 0 ∧
    ∀ x : Fin 3 → ℝ, |⟪exactly (M3.inverseTranspose m * n), ∑ c, x c • columnOf m c⟫ - ∑ c, ((coord n c).val : ℝ) * x c| ≤
      312 / 2 ^ 24 * (‖exactly (M3.inverseTranspose m * n)‖ * ‖∑ c, x c • columnOf m c‖) := by
  have E := C98_inverseTranspose_mat3 m (2 ^ 20) (by norm_num) (by norm_num) (h.bounded fm) h.invertible
  set N := M3.inverseTranspose m * n with hN
  set A := exactMat m with hA
  obtain ⟨Z, hZ⟩ : ∃ Z : Space, Z = covector m fun c => ((coord n c).val : ℝ) := ⟨_, rfl⟩
  have Zr : ∀ r, Z r = ∑ c, ((A⁻¹ c r : ℚ) : ℝ) * (coord n c).val := fun r => by rw [hZ]; rfl
  set W := ∑ c, 1 / ‖columnOf m c‖ * |((coord n c).val : ℝ)| with hW
  have W0 : 0 ≤ W := Finset.sum_nonneg fun c _ => by positivity
  have low : ∀ c, 1 / ‖columnOf m c‖ ≤ 2 ^ 16 := fun c => by
    rw [div_le_iff₀ (h.pos c)]
    linarith [h.low c]
  have nle : ∀ c, |((coord n c).val : ℝ)| ≤ 2 ^ 20 := fun c => (coord_le_norm3 (exactly n) c).trans n2
  have W1 : W ≤ 2 ^ 38 := by
    have : ∀ c ∈ Finset.univ, 1 / ‖columnOf m c‖ * |((coord n c).val : ℝ)| ≤ 2 ^ 36 := fun c _ =>
      (mul_le_mul (low c) (nle c) (abs_nonneg _) (by norm_num)).trans (by norm_num)
    refine (Finset.sum_le_card_nsmul _ _ _ this).trans ?_
    simp
    norm_num
  have near : ∀ r, Near (coord N r) (Z r) (59.7 / 2 ^ 24 * W + 1 / 2 ^ 147) := by
    intro r
    have k := near_perturbed (by norm_num) (C81_mat3_vec (M3.inverseTranspose m) n r) (fun c => (E c r).1) fn
      (b := fun c => ((A⁻¹ c r : ℚ) : ℝ)) (p := fun c => 1.00021 * (1 / ‖columnOf m c‖)) (e := fun c => 55.6 / 2 ^ 24 * (1 / ‖columnOf m c‖))
      (fun c => (h.entry fm (E c r)).2) (fun c => (h.entry fm (E c r)).1)
      (by
        have e : ∑ c, (1.00021 * (1 / ‖columnOf m c‖) + 55.6 / 2 ^ 24 * (1 / ‖columnOf m c‖)) * |((coord n c).val : ℝ)| =
            (1.00021 + 55.6 / 2 ^ 24) * W := by
          rw [hW, Finset.mul_sum]
          exact Finset.sum_congr rfl fun c _ => by ring
        rw [e]
        have t : (1.00021 + 55.6 / 2 ^ 24 : ℝ) * 2 ^ 38 ≤ 2 ^ 126 := by norm_num
        have := mul_le_mul_of_nonneg_left W1 (show (0 : ℝ) ≤ 1.00021 + 55.6 / 2 ^ 24 by norm_num)
        linarith)
    rw [Zr r]
    refine ⟨k.1, k.2.trans (add_le_add ?_ le_rfl)⟩
    have e : ∑ c, (55.6 / 2 ^ 24 * (1 / ‖columnOf m c‖) + 4.001 / 2 ^ 24 * (1.00021 * (1 / ‖columnOf m c‖) + 55.6 / 2 ^ 24 * (1 / ‖columnOf m c‖))) *
        |((coord n c).val : ℝ)| = (55.6 / 2 ^ 24 + 4.001 / 2 ^ 24 * (1.00021 + 55.6 / 2 ^ 24)) * W := by
      rw [hW, Finset.mul_sum]
      exact Finset.sum_congr rfl fun c _ => by ring
    rw [e]
    exact mul_le_mul_of_nonneg_right (by norm_num) W0
  have pair : ∀ x : Fin 3 → ℝ, ⟪Z, ∑ c, x c • columnOf m c⟫ = ∑ c, ((coord n c).val : ℝ) * x c := by
    intro x
    rw [hZ]
    exact covector_inner h.det_ne _ x
  have comp : ∀ c, |((coord n c).val : ℝ)| ≤ ‖Z‖ * ‖columnOf m c‖ := by
    intro c
    have := pair (Pi.single c 1)
    simp [Pi.single_apply, Finset.sum_ite_eq] at this
    rw [← this]
    exact abs_real_inner_le_norm _ _
  have W3 : W ≤ 3 * ‖Z‖ := by
    have : ∀ c ∈ Finset.univ, 1 / ‖columnOf m c‖ * |((coord n c).val : ℝ)| ≤ ‖Z‖ := fun c _ => by
      rw [one_div, inv_mul_le_iff₀ (h.pos c), mul_comm]
      exact comp c
    refine (Finset.sum_le_card_nsmul _ _ _ this).trans ?_
    simp
  have Zlow : 1 / 2 ^ 42 ≤ ‖Z‖ := by
    have s := norm_le_sum_abs (exactly n)
    have q : ∀ c, |((coord n c).val : ℝ)| ≤ ‖Z‖ * 2 ^ 20 := fun c => (comp c).trans (mul_le_mul_of_nonneg_left (h.high c) (norm_nonneg _))
    have q0 : |exactly n 0| ≤ _ := q 0
    have q1 : |exactly n 1| ≤ _ := q 1
    have q2 : |exactly n 2| ≤ _ := q 2
    have t : (1 : ℝ) / 2 ^ 42 * (3 * 2 ^ 20) ≤ 1 / 2 ^ 20 := by norm_num
    nlinarith
  have diff : ‖exactly N - Z‖ ≤ 311 / 2 ^ 24 * ‖Z‖ := near_normal (fun r => (near r).2) W0 W3 Zlow
  have back : ‖Z‖ ≤ 1.0001 * ‖exactly N‖ := by
    have := norm_sub_norm_le Z (exactly N)
    rw [norm_sub_rev] at this
    linarith
  refine ⟨fun i => (near i).1, fun z => ?_, fun x => ?_⟩
  · rw [z, norm_zero] at back
    have : (0 : ℝ) < 1 / 2 ^ 42 := by norm_num
    linarith
  · rw [← pair x, ← inner_sub_left]
    refine (abs_real_inner_le_norm _ _).trans ?_
    rw [← mul_assoc]
    refine mul_le_mul_of_nonneg_right (diff.trans ?_) (norm_nonneg _)
    linarith

/-! ### The hypotheses can be met: a turn of the xy-plane with scale 5, scale 2 along z, and a translation -/

private def exT : M4 F32 := ⟨⟨lit 3, lit 4, lit 0, lit 0⟩, ⟨-lit 4, lit 3, lit 0, lit 0⟩, ⟨lit 0, lit 0, lit 2, lit 0⟩, ⟨lit 2, lit 3, lit 4, lit 1⟩⟩

private def exN : M3 F32 := ⟨⟨lit 3, lit 4, lit 0⟩, ⟨-lit 4, lit 3, lit 0⟩, ⟨lit 0, lit 0, lit 2⟩⟩

private theorem exVals : ((lit 0 : F32).val : ℝ) = 0 ∧ ((lit 1 : F32).val : ℝ) = 1 ∧ ((lit 2 : F32).val : ℝ) = 2 ∧ ((lit 3 : F32).val : ℝ) = 3 ∧
    ((lit 4 : F32).val : ℝ) = 4 ∧ ((-lit 4 : F32).val : ℝ) = -4 := by
  have h : (lit 0 : F32).val = 0 ∧ (lit 1 : F32).val = 1 ∧ (lit 2 : F32).val = 2 ∧ (lit 3 : F32).val = 3 ∧ (lit 4 : F32).val = 4 ∧
      (-lit 4 : F32).val = -4 := by decide +kernel
  obtain ⟨h0, h1, h2, h3, h4, h5⟩ := h
  rw [h0, h1, h2, h3, h4, h5]
  norm_num

private theorem exAxes : (∀ c : Fin 3, axisOf exT c.castSucc = ![!₂[3, 4, 0], !₂[-4, 3, 0], !₂[0, 0, 2]] c) ∧ axisOf exT 3 = !₂[2, 3, 4] := by
  obtain ⟨h0, h1, h2, h3, h4, h5⟩ := exVals
  refine ⟨fun c => ?_, ?_⟩
  · fin_cases c <;> ext r <;> fin_cases r <;> assumption
  · ext r; fin_cases r <;> assumption

private theorem exColumns : columnOf exN = ![!₂[3, 4, 0], !₂[-4, 3, 0], !₂[0, 0, 2]] := by
  obtain ⟨h0, h1, h2, h3, h4, h5⟩ := exVals
  funext c
  fin_cases c <;> ext r <;> fin_cases r <;> assumption

private theorem exBox : NearlyBox ![!₂[3, 4, 0], !₂[-4, 3, 0], !₂[0, 0, 2]] := by
  have n0 : ‖(!₂[3, 4, 0] : Space)‖ = 5 := by
    rw [EuclideanSpace.norm_eq, Fin.sum_univ_three, Real.sqrt_eq_iff_mul_self_eq_of_pos (by norm_num)]
    norm_num [show (![3, 4, 0] : Fin 3 → ℝ) 2 = 0 from rfl]
  have n1 : ‖(!₂[-4, 3, 0] : Space)‖ = 5 := by
    rw [EuclideanSpace.norm_eq, Fin.sum_univ_three, Real.sqrt_eq_iff_mul_self_eq_of_pos (by norm_num)]
    norm_num [show (![-4, 3, 0] : Fin 3 → ℝ) 2 = 0 from rfl]
  have n2 : ‖(!₂[0, 0, 2] : Space)‖ = 2 := by
    rw [EuclideanSpace.norm_eq, Fin.sum_univ_three, Real.sqrt_eq_iff_mul_self_eq_of_pos (by norm_num)]
    norm_num [show (![0, 0, 2] : Fin 3 → ℝ) 2 = 2 from rfl]
  refine ⟨fun c => ?_, fun c => ?_, fun c d hcd => ?_⟩
  · fin_cases c
    · exact le_of_le_of_eq (by norm_num) n0.symm
    · exact le_of_le_of_eq (by norm_num) n1.symm
    · exact le_of_le_of_eq (by norm_num) n2.symm
  · fin_cases c
    · exact le_of_eq_of_le n0 (by norm_num)
    · exact le_of_eq_of_le n1 (by norm_num)
    · exact le_of_eq_of_le n2 (by norm_num)
  · have : ⟪(![!₂[3, 4, 0], !₂[-4, 3, 0], !₂[0, 0, 2]] : Fin 3 → Space) c, (![!₂[3, 4, 0], !₂[-4, 3, 0], !₂[0, 0, 2]] : Fin 3 → Space) d⟫ = (0 : ℝ) := by
      rw [PiLp.inner_apply, Fin.sum_univ_three]
      fin_cases c <;> fin_cases d <;> first | exact absurd rfl hcd | simp
      all_goals norm_num
    rw [this, abs_zero]
    positivity

example : Transform exT := by
  refine ⟨by decide +kernel, by decide +kernel, by decide +kernel, ?_, ?_⟩
  · rw [funext exAxes.1]
    exact exBox
  · rw [exAxes.2, EuclideanSpace.norm_eq, Fin.sum_univ_three, Real.sqrt_le_left (by norm_num)]
    norm_num [show (![2, 3, 4] : Fin 3 → ℝ) 2 = 4 from rfl]

example : FiniteMat exN ∧ NearlyBox (columnOf exN) :=
  ⟨by unfold FiniteMat; decide +kernel, by rw [exColumns]; exact exBox⟩

end Zcm
