import Verif.Lemmas.F32Approx

/-!
# Running error analysis of straight-line binary32 code

`Close x r P M E`: the float `x` was computed for the exact number `r`; relative to the scale `P` the number is at most
`M` and the error at most `E`.
-/

set_option exponentiation.threshold 300

namespace Zcm.F32

structure Close (x : F32) (r P M E : ℝ) : Prop where
  fin : x.IsFin = true
  le : |r| ≤ M * P
  err : |(x.val : ℝ) - r| ≤ E * P

theorem Close.exact {x : F32} {P : ℝ} (h : x.IsFin = true) (hp : |(x.val : ℝ)| ≤ P) : Close x x.val P 1 0 :=
  ⟨h, by rwa [one_mul], by simp⟩

theorem Close.weaken {x : F32} {r P M E M' E' : ℝ} (h : Close x r P M E) (hp : 0 ≤ P) (hm : M ≤ M') (he : E ≤ E') :
    Close x r P M' E' :=
  ⟨h.fin, h.le.trans (by gcongr), h.err.trans (by gcongr)⟩

theorem Close.tighten {x : F32} {r P M E M' : ℝ} (h : Close x r P M E) (hm : |r| ≤ M' * P) : Close x r P M' E :=
  ⟨h.fin, hm, h.err⟩

theorem Close.congr {x : F32} {r r' P M E : ℝ} (h : Close x r P M E) (e : r = r') : Close x r' P M E := e ▸ h

theorem Close.abs_le {x : F32} {r P M E : ℝ} (h : Close x r P M E) : |(x.val : ℝ)| ≤ (M + E) * P := by
  calc |(x.val : ℝ)| = |r + (x.val - r)| := by congr 1; ring
    _ ≤ |r| + |(x.val : ℝ) - r| := abs_add_le _ _
    _ ≤ _ := by have := h.le; have := h.err; linarith

theorem Close.neg {x : F32} {r P M E : ℝ} (h : Close x r P M E) : Close (-x) (-r) P M E := by
  refine ⟨by rw [isFin_neg]; exact h.fin, by rw [abs_neg]; exact h.le, ?_⟩
  rw [val_neg]
  push_cast
  rw [← neg_sub', abs_neg]
  exact h.err

theorem Close.add {x y : F32} {r s P M E N F : ℝ} (hx : Close x r P M E) (hy : Close y s P N F) (hp : 0 ≤ P)
    (hP : P ≤ 2 ^ 120) (hb : M + E + (N + F) ≤ 2 ^ 7) :
    Close (x + y) (r + s) P (M + N) (E + F + (M + E + (N + F)) / 2 ^ 24) := by
  have ax := hx.abs_le
  have ay := hy.abs_le
  have axy : |(x.val : ℝ) + y.val| ≤ (M + E + (N + F)) * P := by
    refine (abs_add_le _ _).trans ?_
    linarith
  have b : |(x.val : ℝ) + y.val| ≤ 2 ^ 127 := axy.trans (by
    calc (M + E + (N + F)) * P ≤ 2 ^ 7 * P := by gcongr
      _ ≤ 2 ^ 7 * 2 ^ 120 := by gcongr
      _ = 2 ^ 127 := by norm_num)
  have bq : |x.val + y.val| ≤ 2 ^ 127 := by exact_mod_cast b
  have f : (x + y).IsFin = true := by
    rw [add_fin hx.fin hy.fin]
    exact isFin_round (bq.trans (by norm_num))
  have e : |((x + y).val : ℝ) - (x.val + y.val)| ≤ |(x.val : ℝ) + y.val| / 2 ^ 24 := by
    exact_mod_cast add_error_rel f
  refine ⟨f, ?_, ?_⟩
  · refine (abs_add_le _ _).trans ?_
    have := hx.le
    have := hy.le
    linarith
  · have e1 := hx.err
    have e2 := hy.err
    calc |((x + y).val : ℝ) - (r + s)| = |(((x + y).val : ℝ) - (x.val + y.val)) + ((x.val - r) + (y.val - s))| := by
          congr 1; ring
      _ ≤ |((x + y).val : ℝ) - (x.val + y.val)| + (|(x.val : ℝ) - r| + |(y.val : ℝ) - s|) :=
          (abs_add_le _ _).trans (add_le_add le_rfl (abs_add_le _ _))
      _ ≤ ((M + E + (N + F)) * P) / 2 ^ 24 + (E * P + F * P) := by
          refine add_le_add (e.trans ?_) (add_le_add e1 e2)
          gcongr
      _ = _ := by ring

theorem Close.sub {x y : F32} {r s P M E N F : ℝ} (hx : Close x r P M E) (hy : Close y s P N F) (hp : 0 ≤ P)
    (hP : P ≤ 2 ^ 120) (hb : M + E + (N + F) ≤ 2 ^ 7) :
    Close (x - y) (r - s) P (M + N) (E + F + (M + E + (N + F)) / 2 ^ 24) := by
  rw [sub_eq, sub_eq_add_neg r]
  exact hx.add hy.neg hp hP hb

theorem Close.mul {x y : F32} {r s P Q M E N F : ℝ} (hx : Close x r P M E) (hy : Close y s Q N F) (hp : 0 ≤ P)
    (hq : 0 ≤ Q) (hE : 0 ≤ E) (hM : 0 ≤ M) (hN : 0 ≤ N) (_hF : 0 ≤ F) (hP : P * Q ≤ 2 ^ 120) (hl : 1 / 2 ^ 100 ≤ P * Q)
    (hb : (M + E) * (N + F) ≤ 2 ^ 7) :
    Close (x * y) (r * s) (P * Q) (M * N) (M * F + N * E + E * F + (M + E) * (N + F) / 2 ^ 24 + 1 / 2 ^ 50) := by
  have ax := hx.abs_le
  have ay := hy.abs_le
  have axy : |(x.val : ℝ) * y.val| ≤ (M + E) * (N + F) * (P * Q) := by
    rw [abs_mul]
    calc |(x.val : ℝ)| * |(y.val : ℝ)| ≤ ((M + E) * P) * ((N + F) * Q) := by gcongr
      _ = _ := by ring
  have b : |(x.val : ℝ) * y.val| ≤ 2 ^ 127 := axy.trans (by
    calc (M + E) * (N + F) * (P * Q) ≤ 2 ^ 7 * 2 ^ 120 := by gcongr
      _ = 2 ^ 127 := by norm_num)
  have bq : |x.val * y.val| ≤ 2 ^ 127 := by exact_mod_cast b
  have f : (x * y).IsFin = true := by
    rw [mul_fin hx.fin hy.fin]
    exact isFin_round (bq.trans (by norm_num))
  have e : |((x * y).val : ℝ) - x.val * y.val| ≤ |(x.val : ℝ) * y.val| / 2 ^ 24 + 1 / 2 ^ 150 := by
    have := mul_error hx.fin hy.fin f
    have h : ((|(x * y).val - x.val * y.val| : ℚ) : ℝ) ≤ ((|x.val * y.val| / 2 ^ 24 + 1 / 2 ^ 150 : ℚ) : ℝ) :=
      Rat.cast_le.2 this
    simpa only [Rat.cast_abs, Rat.cast_sub, Rat.cast_mul, Rat.cast_add, Rat.cast_div, Rat.cast_pow, Rat.cast_ofNat,
      Rat.cast_one] using h
  refine ⟨f, ?_, ?_⟩
  · rw [abs_mul]
    have := hx.le
    have := hy.le
    calc |r| * |s| ≤ (M * P) * (N * Q) := by gcongr
      _ = _ := by ring
  · have e1 := hx.err
    have e2 := hy.err
    have le := hx.le
    have eta : (1 : ℝ) / 2 ^ 150 ≤ 1 / 2 ^ 50 * (P * Q) := by
      calc (1 : ℝ) / 2 ^ 150 = 1 / 2 ^ 50 * (1 / 2 ^ 100) := by norm_num
        _ ≤ _ := by gcongr
    have m : |(x.val : ℝ) * y.val - r * s| ≤ (M * F + N * E + E * F) * (P * Q) := by
      have ls := hy.le
      calc |(x.val : ℝ) * y.val - r * s| = |r * (y.val - s) + (s * (x.val - r) + (x.val - r) * (y.val - s))| := by
            congr 1; ring
        _ ≤ |r| * |(y.val : ℝ) - s| + (|s| * |(x.val : ℝ) - r| + |(x.val : ℝ) - r| * |(y.val : ℝ) - s|) := by
            refine (abs_add_le _ _).trans (add_le_add (abs_mul _ _).le ((abs_add_le _ _).trans ?_))
            rw [abs_mul, abs_mul]
        _ ≤ (M * P) * (F * Q) + ((N * Q) * (E * P) + (E * P) * (F * Q)) := by gcongr
        _ = _ := by ring
    calc |((x * y).val : ℝ) - r * s| = |(((x * y).val : ℝ) - x.val * y.val) + (x.val * y.val - r * s)| := by
          congr 1; ring
      _ ≤ |((x * y).val : ℝ) - x.val * y.val| + |(x.val : ℝ) * y.val - r * s| := abs_add_le _ _
      _ ≤ ((M + E) * (N + F) * (P * Q) / 2 ^ 24 + 1 / 2 ^ 50 * (P * Q)) + (M * F + N * E + E * F) * (P * Q) := by
          refine add_le_add (e.trans (add_le_add ?_ eta)) m
          gcongr
      _ = _ := by ring

/-- multiplication by an exact constant -/
theorem Close.lit_mul {c : F32} {x : F32} {k r P M E : ℝ} (hc : c.IsFin = true) (hk : (c.val : ℝ) = k) (h0 : 0 ≤ k)
    (hx : Close x r P M E) (hp : 0 ≤ P) (hE : 0 ≤ E) (hM : 0 ≤ M) (hP : P ≤ 2 ^ 120) (hl : 1 / 2 ^ 100 ≤ P)
    (hb : k * (M + E) ≤ 2 ^ 7) :
    Close (c * x) (k * r) P (k * M) (k * E + k * (M + E) / 2 ^ 24 + 1 / 2 ^ 50) := by
  have hcc : Close c k 1 k 0 := ⟨hc, by rw [abs_of_nonneg h0, mul_one], by rw [hk]; simp⟩
  have m := hcc.mul hx zero_le_one hp le_rfl h0 hM hE (by rwa [one_mul]) (by rwa [one_mul]) (by simpa using hb)
  simpa using m

end Zcm.F32
