import Verif.Lemmas.F32Srgb
import Verif.Spec.Coord

/-!
# C116: the sRGB conversions in IEEE arithmetic

`convertSRGBToLinear` and `convertLinearToSRGB` in binary32, against the transfer curve of the standard (`srgbDecode`,
`srgbEncode`, exact). The C library's `powf` is assumed to have a relative error of at most `2^-22` (`GoodPow`).
-/

set_option exponentiation.threshold 300

namespace Zcm

open F32

/-- C116: `convertSRGBToLinear(c)` follows the standard's curve. -/
theorem C116_decode [Libm F32] (hp : GoodPow) (c : V3 F32) (i : Fin 3) (hf : (coord c i).IsFin = true)
    (h0 : 0 ≤ ((coord c i).val : ℝ)) (h1 : ((coord c i).val : ℝ) ≤ 1.01) :
    Near (coord (V3.convertSRGBToLinear c) i) (srgbDecode (coord c i).val)
      (20 / 2 ^ 24 * srgbDecode (coord c i).val + 1 / 2 ^ 150) := by
  have := decode_float hp hf h0 h1
  fin_cases i <;> exact this

/-- C116: `convertLinearToSRGB(c, 1/2.4f)` follows the standard's curve; numbers outside [0, 1] are cut off. -/
theorem C116_encode [Libm F32] (hp : GoodPow) (c : V3 F32) (g : F32) (hg : EncodingGamma g) (i : Fin 3)
    (hf : (coord c i).IsFin = true) :
    Near (coord (V3.convertLinearToSRGBG c g) i) (srgbEncode (max 0 (min 1 (coord c i).val))) (1 / 2 ^ 20) := by
  have := encode_float hp hf hg
  fin_cases i <;> exact this

/-- C116: decoding and encoding again gives the component back to within `2^-18`, on both sides of the seam between the
two formulas. -/
theorem C116_roundtrip [Libm F32] (hp : GoodPow) (c : V3 F32) (g : F32) (hg : EncodingGamma g) (i : Fin 3)
    (hc : Component (coord c i)) :
    Near (coord (V3.convertLinearToSRGBG (V3.convertSRGBToLinear c) g) i) (coord c i).val (1 / 2 ^ 18) := by
  obtain ⟨fc, c0, c1⟩ := hc
  obtain ⟨fd, hd⟩ := C116_decode hp c i fc c0 (by norm_num at *; linarith)
  obtain ⟨fe, he⟩ := C116_encode hp (V3.convertSRGBToLinear c) g hg i fd
  refine ⟨fe, ?_⟩
  obtain ⟨D0, D1⟩ := srgbDecode_range c0 c1
  generalize coord (V3.convertSRGBToLinear c) i = d at *
  generalize hx : ((coord c i).val : ℝ) = x at *
  have cl : |max 0 (min 1 (d.val : ℝ)) - srgbDecode x| ≤ |(d.val : ℝ) - srgbDecode x| := by
    generalize srgbDecode x = D at *
    rcases le_total (d.val : ℝ) 1 with h | h
    · rw [min_eq_right h]
      rcases le_total 0 (d.val : ℝ) with k | k
      · rw [max_eq_right k]
      · rw [max_eq_left k, abs_of_nonpos (by linarith), abs_of_nonpos (by linarith)]
        linarith
    · rw [min_eq_left h, max_eq_right zero_le_one, abs_of_nonneg (by linarith), abs_of_nonneg (by linarith)]
      linarith
  have hm := cl.trans hd
  have key : |srgbEncode (max 0 (min 1 (d.val : ℝ))) - x| ≤ 1.06 / 2 ^ 19 := by
    rcases le_total (1 / 2 ^ 120) (srgbDecode x) with h | h
    · refine encode_decode_near c0 c1 (hm.trans ?_)
      norm_num at *
      linarith
    · have xs : x ≤ 1 / 2 ^ 110 := by
        by_contra hn
        push Not at hn
        unfold srgbDecode at h
        split_ifs at h with k
        · norm_num at *
          linarith
        · have : (0.001 : ℝ) ≤ ((x + 0.055) / 1.055) ^ (2.4 : ℝ) := le_rpow_of_pow12 (by positivity) (by
            have : (0.09 : ℝ) ≤ (x + 0.055) / 1.055 := by
              rw [le_div_iff₀ (by norm_num)]; norm_num at *; linarith
            refine le_trans ?_ (pow_le_pow_left₀ (by norm_num) this 12)
            norm_num)
          norm_num at *
          linarith
      have m0 : 0 ≤ max 0 (min 1 (d.val : ℝ)) := le_max_left _ _
      generalize max 0 (min 1 (d.val : ℝ)) = m at *
      have ml : m ≤ 1 / 2 ^ 100 := by
        have := (abs_le.1 hm).2
        norm_num at *
        linarith
      unfold srgbEncode
      rw [if_pos (ml.trans (by norm_num)), abs_le]
      norm_num at *
      constructor <;> linarith
  have := abs_sub_le ((coord (V3.convertLinearToSRGBG (V3.convertSRGBToLinear c) g) i).val : ℝ)
    (srgbEncode (max 0 (min 1 (d.val : ℝ)))) x
  norm_num at *
  linarith

/-- C116: encoding and decoding again gives the linear component back to within `2^-17`. -/
theorem C116_roundtrip_linear [Libm F32] (hp : GoodPow) (c : V3 F32) (g : F32) (hg : EncodingGamma g) (i : Fin 3)
    (hc : Component (coord c i)) :
    Near (coord (V3.convertSRGBToLinear (V3.convertLinearToSRGBG c g)) i) (coord c i).val (1 / 2 ^ 17) := by
  obtain ⟨fc, c0, c1⟩ := hc
  obtain ⟨fe, he⟩ := C116_encode hp c g hg i fc
  rw [min_eq_right c1, max_eq_right c0] at he
  obtain ⟨E0, E1⟩ := srgbEncode_range c0 c1
  have e1 := abs_le.1 he
  have nn : 0 ≤ ((coord (V3.convertLinearToSRGBG c g) i).val : ℝ) := by
    have := encode_float_nonneg hp fc hg
    fin_cases i <;> exact this
  obtain ⟨fd, hd⟩ := C116_decode hp (V3.convertLinearToSRGBG c g) i fe nn (by norm_num at *; linarith)
  refine ⟨fd, ?_⟩
  have k := decode_encode_near c0 c1 he
  generalize ((coord (V3.convertLinearToSRGBG c g) i).val : ℝ) = e at *
  generalize srgbDecode e = D at *
  have := abs_sub_le ((coord (V3.convertSRGBToLinear (V3.convertLinearToSRGBG c g)) i).val : ℝ) D (coord c i).val
  have k' := abs_le.1 k
  have : D ≤ 1.01 := by norm_num at *; linarith
  norm_num at *
  linarith

/-- C116: colour codes survive: with up to 16 bits per component, code `k` out of `N` converted to a float fraction,
decoded, encoded, multiplied by `N` and rounded to the nearest integer is `k` again. -/
theorem C116_codes [Libm F32] (hp : GoodPow) (c : V3 F32) (g : F32) (hg : EncodingGamma g) (i : Fin 3) (k N : ℕ) (hN : 0 < N)
    (hN' : N ≤ 65535) (hc : Component (coord c i)) (hk : |((coord c i).val : ℝ) - k / N| ≤ 1 / 2 ^ 24) :
    |((coord (V3.convertLinearToSRGBG (V3.convertSRGBToLinear c) g) i).val : ℝ) * N - k| < 1 / 2 := by
  have r := (C116_roundtrip hp c g hg i hc).2
  have n0 : (0 : ℝ) < N := by exact_mod_cast hN
  have n1 : (N : ℝ) ≤ 65535 := by exact_mod_cast hN'
  have t := abs_sub_le ((coord (V3.convertLinearToSRGBG (V3.convertSRGBToLinear c) g) i).val : ℝ) (coord c i).val (k / N)
  generalize ((coord (V3.convertLinearToSRGBG (V3.convertSRGBToLinear c) g) i).val : ℝ) = y at *
  have e : y * N - k = (y - k / N) * N := by field_simp
  rw [e, abs_mul, abs_of_pos n0]
  have b : |y - k / N| ≤ 1 / 2 ^ 18 + 1 / 2 ^ 24 := by linarith
  calc |y - k / N| * N ≤ (1 / 2 ^ 18 + 1 / 2 ^ 24) * 65535 := by gcongr
    _ < _ := by norm_num

/-- C116: the overload `convertLinearToSRGB(c)` without an exponent is within 1/1000 of the standard's curve from 0.0031308
up, and within 0.041 everywhere in [0, 1]. -/
theorem C116_approx (c : V3 F32) (i : Fin 3) (hc : Component (coord c i)) :
    Near (coord (V3.convertLinearToSRGB c) i) (srgbEncode (coord c i).val) 0.041 ∧
    (0.0031308 ≤ ((coord c i).val : ℝ) → Near (coord (V3.convertLinearToSRGB c) i) (srgbEncode (coord c i).val) (1 / 1000)) := by
  have h : Near (coord (V3.convertLinearToSRGB c) i) (srgbRoots (coord c i).val) (1 / 2 ^ 20) := by
    have := roots_float hc
    fin_cases i <;> exact this
  obtain ⟨f, e⟩ := h
  have t := abs_sub_le ((coord (V3.convertLinearToSRGB c) i).val : ℝ) (srgbRoots (coord c i).val) (srgbEncode (coord c i).val)
  refine ⟨⟨f, ?_⟩, fun h => ⟨f, ?_⟩⟩
  · have := roots_near_dark hc.2.1 hc.2.2
    norm_num at *
    linarith
  · have := roots_near h hc.2.2
    norm_num at *
    linarith

/-! ### The hypotheses are met -/

/-- a C library meeting the assumption -/
example : @GoodPow powLibm := powLibm_good

/-- `1 / 2.4f` is a good exponent -/
theorem gamma_good : EncodingGamma (lit 1 / lit 2.4) := by
  refine ⟨by decide +kernel, ?_⟩
  have : |(lit 1 / lit 2.4 : F32).val - 1 / 2.4| ≤ 1 / 2 ^ 26 := by decide +kernel
  have := (Rat.cast_le (K := ℝ)).2 this
  push_cast at this ⊢
  exact this

/-- A dark grey next to the seam, a middle grey and white. -/
def greys : V3 F32 := ⟨lit 0.0405, lit 0.5, lit 1⟩

private theorem greys_good (i : Fin 3) : Component (coord greys i) := by
  have h : (coord greys i).IsFin = true ∧ 0 ≤ (coord greys i).val ∧ (coord greys i).val ≤ 1 := by
    fin_cases i <;> decide +kernel
  exact ⟨h.1, by exact_mod_cast h.2.1, by exact_mod_cast h.2.2⟩

example (i : Fin 3) := @C116_roundtrip powLibm powLibm_good greys _ gamma_good i (greys_good i)

example (i : Fin 3) := @C116_roundtrip_linear powLibm powLibm_good greys _ gamma_good i (greys_good i)

/-- the code 255 of 255 -/
example : letI := powLibm
    |((coord (V3.convertLinearToSRGBG (V3.convertSRGBToLinear greys) (lit 1 / lit 2.4)) 2).val : ℝ) * (255 : ℕ) - (255 : ℕ)| < 1 / 2 :=
  @C116_codes powLibm powLibm_good greys _ gamma_good 2 255 255 (by norm_num) (by norm_num) (greys_good 2) (by
    change |((lit 1 : F32).val : ℝ) - _| ≤ _
    rw [val_lit_one]
    norm_num)

example (i : Fin 3) := C116_approx greys i (greys_good i)

end Zcm
