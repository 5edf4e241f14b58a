import Verif.Spec.Coord
import Verif.Lemmas.Ops
import Verif.Model.ColorSpace
import Mathlib.Tactic.Polyrith

/-!
# C69: sRGB conversions

Alpha and the agreement of the `vec4` and `vec3` overloads hold in any arithmetic, so bit for bit on
floats.  The rest is exact arithmetic.  The claim that `convertLinearToSRGB(c, g)` inverts
`convertSRGBToLinear(c, g)` is false (`C69_inverse_false`): the code raises to the power `g` in both
directions.  With the reciprocal gamma it is an inverse to 30 digits (`C69_reciprocal_partial`).
-/

namespace Zcm

section alpha

variable {α : Type} [Add α] [Sub α] [Mul α] [Div α] [Neg α] [FloatOps α] [Libm α]
  [LT α] [DecidableLT α] [LE α] [DecidableLE α] [BEq α]

/-- C69: the `vec4` overload of `convertLinearToSRGB` returns alpha unchanged and converts red, green and
blue like the `vec3` overload. -/
theorem C69_alpha_linear_gamma (c : V4 α) (g : α) :
    coord (V4.convertLinearToSRGBG c g) 3 = coord c 3 ∧
    ∀ i : Fin 3, coord (V4.convertLinearToSRGBG c g) i.castSucc =
      coord (V3.convertLinearToSRGBG ⟨coord c 0, coord c 1, coord c 2⟩ g) i :=
  ⟨rfl, fun i => by fin_cases i <;> rfl⟩

/-- C69: the `vec4` overload of `convertLinearToSRGB` returns alpha unchanged and converts red, green and
blue like the `vec3` overload. -/
theorem C69_alpha_linear (c : V4 α) :
    coord (V4.convertLinearToSRGB c) 3 = coord c 3 ∧
    ∀ i : Fin 3, coord (V4.convertLinearToSRGB c) i.castSucc =
      coord (V3.convertLinearToSRGB ⟨coord c 0, coord c 1, coord c 2⟩) i :=
  ⟨rfl, fun i => by fin_cases i <;> rfl⟩

/-- C69: the `vec4` overload of `convertSRGBToLinear` returns alpha unchanged and converts red, green and
blue like the `vec3` overload. -/
theorem C69_alpha_srgb_gamma (c : V4 α) (g : α) :
    coord (V4.convertSRGBToLinearG c g) 3 = coord c 3 ∧
    ∀ i : Fin 3, coord (V4.convertSRGBToLinearG c g) i.castSucc =
      coord (V3.convertSRGBToLinearG ⟨coord c 0, coord c 1, coord c 2⟩ g) i :=
  ⟨rfl, fun i => by fin_cases i <;> rfl⟩

/-- C69: the `vec4` overload of `convertSRGBToLinear` returns alpha unchanged and converts red, green and
blue like the `vec3` overload. -/
theorem C69_alpha_srgb (c : V4 α) :
    coord (V4.convertSRGBToLinear c) 3 = coord c 3 ∧
    ∀ i : Fin 3, coord (V4.convertSRGBToLinear c) i.castSucc =
      coord (V3.convertSRGBToLinear ⟨coord c 0, coord c 1, coord c 2⟩) i :=
  ⟨rfl, fun i => by fin_cases i <;> rfl⟩

/-- C69: the default gamma is 2.4. -/
theorem C69_default (c : V3 α) : V3.convertSRGBToLinear c = V3.convertSRGBToLinearG c (lit 2.4) := rfl

end alpha

/-- `0.94786729857819905213270142180095` is 1/1.055 and `0.07739938080495356037151702786378` is
1/12.92, to 31 digits. -/
theorem srgb_factors :
    |(0.94786729857819905213270142180095 : ℝ) * 1.055 - 1| ≤ 1 / 10 ^ 31 ∧
    |(0.07739938080495356037151702786378 : ℝ) * 12.92 - 1| ≤ 1 / 10 ^ 31 := by
  constructor <;> rw [abs_le] <;> constructor <;> norm_num

/-- C69: what `convertSRGBToLinear` computes for each component. -/
theorem C69_decode (c : V3 ℝ) (g : ℝ) (i : Fin 3) :
    coord (V3.convertSRGBToLinearG c g) i =
      if coord c i ≤ 0.04045 then coord c i * 0.07739938080495356037151702786378
      else F.pow ((coord c i + 0.055) * 0.94786729857819905213270142180095) g := by
  have h : ∀ x : ℝ, F.mixB (F.pow ((x + (lit 0.055 : ℝ)) * (lit 0.94786729857819905213270142180095 : ℝ)) g)
      (x * (lit 0.07739938080495356037151702786378 : ℝ)) (decide (x ≤ (lit 0.04045 : ℝ))) =
      if x ≤ 0.04045 then x * 0.07739938080495356037151702786378
      else F.pow ((x + 0.055) * 0.94786729857819905213270142180095) g := by
    intro x
    simp only [lit_real, F.mixB, F.pow, powf_real, decide_eq_true_eq]
    norm_num
  fin_cases i <;> exact h _

/-- C69: what `convertLinearToSRGB` computes for each component in [0, 1]. -/
theorem C69_encode (c : V3 ℝ) (g : ℝ) (i : Fin 3) (h0 : 0 ≤ coord c i) (h1 : coord c i ≤ 1) :
    coord (V3.convertLinearToSRGBG c g) i =
      if coord c i < 0.0031308 then coord c i * 12.92 else F.pow (coord c i) g * 1.055 - 0.055 := by
  have h : ∀ x : ℝ, 0 ≤ x → x ≤ 1 →
      F.mixB (F.pow (F.clamp x (V3.ofInt 0 : V3 ℝ).x (V3.ofInt 1 : V3 ℝ).x) g * (lit 1.055 : ℝ) - (lit 0.055 : ℝ))
      (F.clamp x (V3.ofInt 0 : V3 ℝ).x (V3.ofInt 1 : V3 ℝ).x * (lit 12.92 : ℝ))
      (decide (F.clamp x (V3.ofInt 0 : V3 ℝ).x (V3.ofInt 1 : V3 ℝ).x < (lit 0.0031308 : ℝ))) =
      if x < 0.0031308 then x * 12.92 else F.pow x g * 1.055 - 0.055 := by
    intro x h0 h1
    have e : F.clamp x (V3.ofInt 0 : V3 ℝ).x (V3.ofInt 1 : V3 ℝ).x = x := by
      simp only [F.clamp, F.min, F.max, V3.ofInt, V3.splat, lit_real]
      push_cast
      rw [if_neg (not_lt.2 h0), if_neg (not_lt.2 h1)]
    rw [e]
    simp only [lit_real, F.mixB, F.pow, powf_real, decide_eq_true_eq]
    norm_num
  fin_cases i <;> exact h _ h0 h1

/-- C69: components above 1 are cut off at 1. -/
theorem C69_encode_high (c : V3 ℝ) (g : ℝ) (i : Fin 3) (h1 : 1 ≤ coord c i) :
    coord (V3.convertLinearToSRGBG c g) i = 1 := by
  have h : ∀ x : ℝ, 1 ≤ x →
      F.mixB (F.pow (F.clamp x (V3.ofInt 0 : V3 ℝ).x (V3.ofInt 1 : V3 ℝ).x) g * (lit 1.055 : ℝ) - (lit 0.055 : ℝ))
      (F.clamp x (V3.ofInt 0 : V3 ℝ).x (V3.ofInt 1 : V3 ℝ).x * (lit 12.92 : ℝ))
      (decide (F.clamp x (V3.ofInt 0 : V3 ℝ).x (V3.ofInt 1 : V3 ℝ).x < (lit 0.0031308 : ℝ))) = 1 := by
    intro x h1
    have e : F.clamp x (V3.ofInt 0 : V3 ℝ).x (V3.ofInt 1 : V3 ℝ).x = 1 := by
      simp only [F.clamp, F.min, F.max, V3.ofInt, V3.splat, lit_real]
      push_cast
      rw [if_neg (not_lt.2 (by linarith : (0 : ℝ) ≤ x))]
      split_ifs with h
      · rfl
      · exact le_antisymm (not_lt.1 h) h1
    rw [e]
    simp only [lit_real, F.mixB, F.pow, powf_real, decide_eq_true_eq, Real.one_rpow]
    norm_num
  fin_cases i <;> exact h _ h1

/-- a power with exponent 2.4, against a fifth power -/
theorem rpow_12_5 {b y : ℝ} (hb : 0 ≤ b) (hy : 0 ≤ y) (h : y ^ 5 ≤ b ^ 12) : y ≤ b ^ (2.4 : ℝ) := by
  have e : (b ^ (2.4 : ℝ)) ^ 5 = b ^ 12 := by
    rw [← Real.rpow_natCast, ← Real.rpow_mul hb, ← Real.rpow_natCast]
    norm_num
  refine le_of_pow_le_pow_left₀ (n := 5) (by norm_num) (Real.rpow_nonneg hb _) ?_
  rwa [e]

/-- a power with exponent 0.4, against a fifth power -/
theorem rpow_2_5 {b y : ℝ} (hb : 0 ≤ b) (hy : 0 ≤ y) (h : y ^ 5 ≤ b ^ 2) : y ≤ b ^ (0.4 : ℝ) := by
  have e : (b ^ (0.4 : ℝ)) ^ 5 = b ^ 2 := by
    rw [← Real.rpow_natCast, ← Real.rpow_mul hb, ← Real.rpow_natCast]
    norm_num
  refine le_of_pow_le_pow_left₀ (n := 5) (by norm_num) (Real.rpow_nonneg hb _) ?_
  rwa [e]

/-- C69: `convertSRGBToLinear(c, g)` is monotone for every gamma up to the default 2.4. -/
theorem C69_decode_monotone (c d : V3 ℝ) (g : ℝ) (h0 : 0 < g) (hg : g ≤ 2.4) (i : Fin 3)
    (h : coord c i ≤ coord d i) :
    coord (V3.convertSRGBToLinearG c g) i ≤ coord (V3.convertSRGBToLinearG d g) i := by
  rw [C69_decode, C69_decode]
  generalize coord c i = x at *
  generalize coord d i = y at *
  show (if x ≤ 0.04045 then x * 0.07739938080495356037151702786378
      else ((x + 0.055) * 0.94786729857819905213270142180095) ^ g) ≤
    if y ≤ 0.04045 then y * 0.07739938080495356037151702786378
      else ((y + 0.055) * 0.94786729857819905213270142180095) ^ g
  split_ifs with hx hy hy'
  · exact mul_le_mul_of_nonneg_right h (by norm_num)
  · have s1 : x * 0.07739938080495356037151702786378 ≤ 0.04045 * 0.07739938080495356037151702786378 :=
      mul_le_mul_of_nonneg_right hx (by norm_num)
    have s2 : (0.04045 * 0.07739938080495356037151702786378 : ℝ) ≤
        ((0.04045 + 0.055) * 0.94786729857819905213270142180095) ^ (2.4 : ℝ) :=
      rpow_12_5 (by norm_num) (by norm_num) (by norm_num)
    have s3 : (((0.04045 + 0.055) * 0.94786729857819905213270142180095) ^ (2.4 : ℝ) : ℝ) ≤
        ((0.04045 + 0.055) * 0.94786729857819905213270142180095) ^ g :=
      Real.rpow_le_rpow_of_exponent_ge (by norm_num) (by norm_num) hg
    have s4 : (((0.04045 + 0.055) * 0.94786729857819905213270142180095) ^ g : ℝ) ≤
        ((y + 0.055) * 0.94786729857819905213270142180095) ^ g :=
      Real.rpow_le_rpow (by norm_num)
        (mul_le_mul_of_nonneg_right (by linarith) (by norm_num)) h0.le
    exact s1.trans (s2.trans (s3.trans s4))
  · exact absurd (h.trans hy') hx
  · push Not at hx
    refine Real.rpow_le_rpow (mul_nonneg ?_ (by norm_num))
      (mul_le_mul_of_nonneg_right (by linarith) (by norm_num)) h0.le
    norm_num at hx
    linarith

example : (0 : ℝ) < 2.2 ∧ (2.2 : ℝ) ≤ 2.4 := by norm_num

/-- C69: `convertLinearToSRGB(c, g)` is monotone on [0, 1] for the exponents `g` up to 0.4. -/
theorem C69_encode_monotone (c d : V3 ℝ) (g : ℝ) (h0 : 0 < g) (hg : g ≤ 0.4) (i : Fin 3)
    (hc : 0 ≤ coord c i) (h : coord c i ≤ coord d i) (hd : coord d i ≤ 1) :
    coord (V3.convertLinearToSRGBG c g) i ≤ coord (V3.convertLinearToSRGBG d g) i := by
  rw [C69_encode c g i hc (h.trans hd), C69_encode d g i (hc.trans h) hd]
  generalize coord c i = x at *
  generalize coord d i = y at *
  show (if x < 0.0031308 then x * 12.92 else x ^ g * 1.055 - 0.055) ≤
    if y < 0.0031308 then y * 12.92 else y ^ g * 1.055 - 0.055
  split_ifs with hx hy hy'
  · exact mul_le_mul_of_nonneg_right h (by norm_num)
  · have s2 : (0.0031308 * 12.92 + 0.055 : ℝ) / 1.055 ≤ 0.0031308 ^ (0.4 : ℝ) :=
      rpow_2_5 (by norm_num) (by norm_num) (by norm_num)
    have s3 : (0.0031308 : ℝ) ^ (0.4 : ℝ) ≤ 0.0031308 ^ g :=
      Real.rpow_le_rpow_of_exponent_ge (by norm_num) (by norm_num) hg
    have s4 : (0.0031308 : ℝ) ^ g ≤ y ^ g := Real.rpow_le_rpow (by norm_num) (not_lt.1 hy) h0.le
    have s5 := s2.trans (s3.trans s4)
    clear s2 s3 s4
    norm_num at *
    linarith
  · exact absurd (lt_of_le_of_lt h hy') hx
  · have := Real.rpow_le_rpow hc h h0.le
    norm_num at *
    linarith

example : (0 : ℝ) < 1 / 2.6 ∧ (1 / 2.6 : ℝ) ≤ 0.4 := by norm_num

/-- C69, defect: with the gamma for which `convertSRGBToLinear` is meant, `convertLinearToSRGB` is not
monotone, and not inside [0, 1]: the darker grey 0.003 becomes brighter than the grey 0.01, which
becomes negative. -/
theorem C69_encode_monotone_false (i : Fin 3) :
    coord (V3.convertLinearToSRGBG (V3.splat (0.01 : ℝ)) 2.4) i < 0 ∧
    0 < coord (V3.convertLinearToSRGBG (V3.splat (0.003 : ℝ)) 2.4) i := by
  have e : ∀ x : ℝ, coord (V3.splat x) i = x := fun x => by fin_cases i <;> rfl
  rw [C69_encode _ _ _ (by rw [e]; norm_num) (by rw [e]; norm_num),
    C69_encode _ _ _ (by rw [e]; norm_num) (by rw [e]; norm_num), e, e]
  constructor
  · rw [if_neg (by norm_num)]
    have : (0.01 : ℝ) ^ (2.4 : ℝ) ≤ 0.01 ^ (1 : ℝ) :=
      Real.rpow_le_rpow_of_exponent_ge (by norm_num) (by norm_num) (by norm_num)
    rw [Real.rpow_one] at this
    show (0.01 : ℝ) ^ (2.4 : ℝ) * 1.055 - 0.055 < 0
    norm_num at *
    linarith
  · rw [if_pos (by norm_num)]
    norm_num

/-- C69, defect: with the same gamma `convertLinearToSRGB` does not invert `convertSRGBToLinear`: the
grey 0.5 comes back as something below 0.1. -/
theorem C69_inverse_false (i : Fin 3) :
    coord (V3.convertLinearToSRGBG (V3.convertSRGBToLinearG (V3.splat (0.5 : ℝ)) 2.4) 2.4) i < 0.1 := by
  have e : coord (V3.splat (0.5 : ℝ)) i = 0.5 := by fin_cases i <;> rfl
  have hd : coord (V3.convertSRGBToLinearG (V3.splat (0.5 : ℝ)) 2.4) i =
      ((0.5 + 0.055) * 0.94786729857819905213270142180095) ^ (2.4 : ℝ) := by
    rw [C69_decode, e, if_neg (by norm_num)]; rfl
  have b0 : (0 : ℝ) ≤ ((0.5 + 0.055) * 0.94786729857819905213270142180095) ^ (2.4 : ℝ) := by positivity
  have b1 : (((0.5 + 0.055) * 0.94786729857819905213270142180095) ^ (2.4 : ℝ) : ℝ) ≤ 0.3 := by
    have : (((0.5 + 0.055) * 0.94786729857819905213270142180095) ^ (2.4 : ℝ) : ℝ) ≤
        ((0.5 + 0.055) * 0.94786729857819905213270142180095) ^ (2 : ℝ) :=
      Real.rpow_le_rpow_of_exponent_ge (by norm_num) (by norm_num) (by norm_num)
    refine this.trans ?_
    rw [Real.rpow_two]
    norm_num
  rw [C69_encode _ _ _ (by rw [hd]; exact b0) (by rw [hd]; norm_num at *; linarith), hd]
  generalize (((0.5 + 0.055) * 0.94786729857819905213270142180095) ^ (2.4 : ℝ) : ℝ) = y at *
  split_ifs with h
  · norm_num at *; linarith
  · have : y ^ (2.4 : ℝ) ≤ 0.09 := by
      have s1 : y ^ (2.4 : ℝ) ≤ 0.3 ^ (2.4 : ℝ) := Real.rpow_le_rpow b0 b1 (by norm_num)
      have s2 : (0.3 : ℝ) ^ (2.4 : ℝ) ≤ 0.3 ^ (2 : ℝ) :=
        Real.rpow_le_rpow_of_exponent_ge (by norm_num) (by norm_num) (by norm_num)
      refine s1.trans (s2.trans ?_)
      rw [Real.rpow_two]
      norm_num
    show y ^ (2.4 : ℝ) * 1.055 - 0.055 < 0.1
    norm_num at *
    linarith

/-- C69, what does hold: with the reciprocal gamma `convertLinearToSRGB` brings every component in
[0, 1] back to within 10⁻³⁰, when both directions take the same of the two formulas. Missing: the
claim as stated, with the same gamma in both directions, which is false (`C69_inverse_false`). -/
theorem C69_reciprocal_partial (c : V3 ℝ) (g : ℝ) (h0 : 0 < g) (i : Fin 3)
    (hc : 0 ≤ coord c i) (hc1 : coord c i ≤ 1)
    (hseam : coord c i ≤ 0.04045 ↔ coord (V3.convertSRGBToLinearG c g) i < 0.0031308) :
    |coord (V3.convertLinearToSRGBG (V3.convertSRGBToLinearG c g) (1 / g)) i - coord c i| ≤ 1 / 10 ^ 30 := by
  have hd := C69_decode c g i
  have hm : coord c i ≤ 0.04045 → 0 ≤ coord (V3.convertSRGBToLinearG c g) i ∧
      coord (V3.convertSRGBToLinearG c g) i ≤ 1 := by
    intro h
    rw [hd, if_pos h]
    constructor
    · positivity
    · norm_num at *; linarith
  by_cases h : coord c i ≤ 0.04045
  · rw [C69_encode _ _ _ (hm h).1 (hm h).2, if_pos (hseam.1 h), hd, if_pos h, mul_assoc]
    rw [show ∀ a b : ℝ, a * b - a = a * (b - 1) from fun a b => by ring, abs_mul, abs_of_nonneg hc]
    have := srgb_factors.2
    have h2 : coord c i * |(0.07739938080495356037151702786378 : ℝ) * 12.92 - 1| ≤ 1 * (1 / 10 ^ 31) :=
      mul_le_mul hc1 this (abs_nonneg _) zero_le_one
    refine h2.trans (by norm_num)
  · rw [if_neg h] at hd
    have hb : 0 ≤ (coord c i + 0.055) * 0.94786729857819905213270142180095 := by positivity
    by_cases hb1 : ¬ (coord c i + 0.055) * 0.94786729857819905213270142180095 ≤ 1
    · rw [C69_encode_high _ _ _ (by rw [hd]; exact Real.one_le_rpow (not_le.1 hb1).le h0.le), abs_le]
      push Not at hb1
      constructor <;> norm_num at * <;> linarith
    push Not at hb1
    have hp0 : 0 ≤ F.pow ((coord c i + 0.055) * 0.94786729857819905213270142180095) g :=
      Real.rpow_nonneg hb g
    have hp1 : F.pow ((coord c i + 0.055) * 0.94786729857819905213270142180095) g ≤ 1 :=
      Real.rpow_le_one hb hb1 h0.le
    rw [C69_encode _ _ _ (by rw [hd]; exact hp0) (by rw [hd]; exact hp1),
      if_neg (fun hh => h (hseam.2 hh)), hd]
    have e : F.pow (F.pow ((coord c i + 0.055) * 0.94786729857819905213270142180095) g) (1 / g) =
        (coord c i + 0.055) * 0.94786729857819905213270142180095 := by
      show (((coord c i + 0.055) * 0.94786729857819905213270142180095) ^ g) ^ (1 / g) = _
      rw [← Real.rpow_mul hb, mul_one_div_cancel h0.ne', Real.rpow_one]
    rw [e]
    rw [show ∀ a b : ℝ, (a + 0.055) * b * 1.055 - 0.055 - a = (a + 0.055) * (b * 1.055 - 1) from
      fun a b => by ring, abs_mul, abs_of_nonneg (show 0 ≤ coord c i + 0.055 by positivity)]
    have h2 : (coord c i + 0.055) * |(0.94786729857819905213270142180095 : ℝ) * 1.055 - 1| ≤
        10 * (1 / 10 ^ 31) :=
      mul_le_mul (by norm_num; linarith) srgb_factors.1 (abs_nonneg _) (by norm_num)
    refine h2.trans (by norm_num)

/-- the mid grey is on the same side in both directions -/
example : coord (V3.splat (0.5 : ℝ)) 0 ≤ 0.04045 ↔
    coord (V3.convertSRGBToLinearG (V3.splat (0.5 : ℝ)) 1) 0 < 0.0031308 := by
  rw [C69_decode]
  have e : coord (V3.splat (0.5 : ℝ)) 0 = 0.5 := rfl
  rw [e, if_neg (by norm_num)]
  show _ ↔ ((0.5 + 0.055) * 0.94786729857819905213270142180095 : ℝ) ^ (1 : ℝ) < _
  rw [Real.rpow_one]
  norm_num

/-- C69: what the approximation `convertLinearToSRGB(c)` without gamma computes. -/
theorem C69_approx (c : V3 ℝ) (i : Fin 3) :
    coord (V3.convertLinearToSRGB c) i =
      0.662002687 * F.sqrt (coord c i) + 0.684122060 * F.sqrt (F.sqrt (coord c i)) -
      0.323583601 * F.sqrt (F.sqrt (F.sqrt (coord c i))) - 0.0225411470 * coord c i := by
  fin_cases i <;> simp [V3.convertLinearToSRGB, V3.sqrt, coord]

/-- C69, defect: the approximation is negative for dark colours, so it is neither monotone on [0, 1] nor
inside it. -/
theorem C69_approx_false (i : Fin 3) :
    coord (V3.convertLinearToSRGB (V3.splat (1 / 65536 : ℝ))) i < -0.03 ∧
    coord (V3.convertLinearToSRGB (V3.splat (0 : ℝ))) i = 0 := by
  have e : ∀ x : ℝ, coord (V3.splat x) i = x := fun x => by fin_cases i <;> rfl
  have s : ∀ x : ℝ, 0 ≤ x → F.sqrt (x * x) = x := fun x h => Real.sqrt_mul_self h
  rw [C69_approx, C69_approx, e, e]
  constructor
  · rw [show (1 / 65536 : ℝ) = (1 / 256) * (1 / 256) by norm_num, s _ (by norm_num),
      show (1 / 256 : ℝ) = (1 / 16) * (1 / 16) by norm_num, s _ (by norm_num),
      show (1 / 16 : ℝ) = (1 / 4) * (1 / 4) by norm_num, s _ (by norm_num)]
    norm_num
  · simp

/-- C69, what does hold of the approximation: from 1/256 up to 1 it is monotone and inside [0, 1].
Missing: the dark colours (`C69_approx_false`). -/
theorem C69_approx_partial (c d : V3 ℝ) (i : Fin 3) (h0 : 1 / 256 ≤ coord c i)
    (h : coord c i ≤ coord d i) (h1 : coord d i ≤ 1) :
    0 ≤ coord (V3.convertLinearToSRGB c) i ∧
    coord (V3.convertLinearToSRGB c) i ≤ coord (V3.convertLinearToSRGB d) i ∧
    coord (V3.convertLinearToSRGB d) i ≤ 1 := by
  rw [C69_approx, C69_approx]
  generalize coord c i = x at *
  generalize coord d i = y at *
  have r : ∀ x : ℝ, 1 / 256 ≤ x → x ≤ 1 → ∃ u : ℝ, 1 / 2 ≤ u ∧ u ≤ 1 ∧ x = u ^ 8 ∧ F.sqrt x = u ^ 4 ∧
      F.sqrt (F.sqrt x) = u ^ 2 ∧ F.sqrt (F.sqrt (F.sqrt x)) = u := by
    intro x hx hx1
    have hx0 : 0 ≤ x := le_trans (by norm_num) hx
    have a1 := Real.sq_sqrt hx0
    have a2 := Real.sq_sqrt (Real.sqrt_nonneg x)
    have a3 := Real.sq_sqrt (Real.sqrt_nonneg (Real.sqrt x))
    refine ⟨Real.sqrt (Real.sqrt (Real.sqrt x)), ?_, ?_, ?_, ?_, ?_, rfl⟩
    · refine Real.le_sqrt_of_sq_le (Real.le_sqrt_of_sq_le (Real.le_sqrt_of_sq_le ?_))
      norm_num at *; exact hx
    · rw [Real.sqrt_le_one, Real.sqrt_le_one, Real.sqrt_le_one]; exact hx1
    · rw [show ∀ t : ℝ, t ^ 8 = ((t ^ 2) ^ 2) ^ 2 from fun t => by ring, a3, a2, a1]
    · rw [F.sqrt_real, show ∀ t : ℝ, t ^ 4 = (t ^ 2) ^ 2 from fun t => by ring, a3, a2]
    · rw [F.sqrt_real, F.sqrt_real, a3]
  obtain ⟨u, hu0, hu1, ex, e1, e2, e3⟩ := r x h0 (h.trans h1)
  obtain ⟨v, hv0, hv1, ey, f1, f2, f3⟩ := r y (h0.trans h) h1
  rw [e3, e2, e1, f3, f2, f1, ex, ey]
  have huv : u ≤ v := by
    rw [← e3, ← f3]
    simp only [F.sqrt_real]
    exact Real.sqrt_le_sqrt (Real.sqrt_le_sqrt (Real.sqrt_le_sqrt h))
  have mono : ∀ u v : ℝ, 1 / 2 ≤ u → u ≤ v → v ≤ 1 →
      0.662002687 * u ^ 4 + 0.684122060 * u ^ 2 - 0.323583601 * u - 0.0225411470 * u ^ 8 ≤
      0.662002687 * v ^ 4 + 0.684122060 * v ^ 2 - 0.323583601 * v - 0.0225411470 * v ^ 8 := by
    intro u v hu huv hv
    have hv0 : 0 ≤ v := by linarith
    have hu0 : 0 ≤ u := by linarith
    have hu1 : u ≤ 1 := by linarith
    have k1 : 0 ≤ 0.662002687 * ((v + u) * (v ^ 2 + u ^ 2)) := by positivity
    have k2 : v ^ 7 + v ^ 6 * u + v ^ 5 * u ^ 2 + v ^ 4 * u ^ 3 + v ^ 3 * u ^ 4 + v ^ 2 * u ^ 5 +
        v * u ^ 6 + u ^ 7 ≤ 8 := by
      have p : ∀ m n : ℕ, v ^ m * u ^ n ≤ 1 := fun m n =>
        mul_le_one₀ (pow_le_one₀ hv0 hv) (pow_nonneg hu0 n) (pow_le_one₀ hu0 hu1)
      have p0 := p 7 0
      have p1 := p 6 1
      have p2 := p 5 2
      have p3 := p 4 3
      have p4 := p 3 4
      have p5 := p 2 5
      have p6 := p 1 6
      have p7 := p 0 7
      simp only [pow_zero, pow_one, mul_one, one_mul] at p0 p1 p2 p3 p4 p5 p6 p7
      linarith
    have k3 : 0 ≤ (v - u) * (0.662002687 * ((v + u) * (v ^ 2 + u ^ 2)) + 0.684122060 * (v + u) -
        0.323583601 - 0.0225411470 * (v ^ 7 + v ^ 6 * u + v ^ 5 * u ^ 2 + v ^ 4 * u ^ 3 +
          v ^ 3 * u ^ 4 + v ^ 2 * u ^ 5 + v * u ^ 6 + u ^ 7)) := by
      refine mul_nonneg (by linarith) ?_
      norm_num at *
      linarith
    linarith
  have m1 := mono (1 / 2) u le_rfl hu0 hu1
  have m3 := mono v 1 hv0 hv1 le_rfl
  refine ⟨le_trans (by norm_num) m1, mono u v hu0 huv hv1, m3.trans (by norm_num)⟩

example : (1 / 256 : ℝ) ≤ coord (V3.splat (1 / 2 : ℝ)) 0 := by
  show (1 / 256 : ℝ) ≤ 1 / 2
  norm_num

end Zcm
