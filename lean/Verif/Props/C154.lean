import Verif.Spec.Coord
import Verif.Spec.Pixel
import Verif.Spec.Clip
import Verif.Spec.IntValued
import Verif.Lemmas.F32Pixel
import Verif.Props.C21
import Mathlib.Tactic.FinCases

/-!
# C154  Coordinates from 0 to 1, pixels and quantised values

The caller's code is in `Spec/Pixel`.
-/

set_option exponentiation.threshold 300

namespace Zcm

open F32

/-- C154, one float: a factor `0 <= u < 1` makes every normal number `s` strictly smaller, rounding included. -/
theorem C154_float_shrink (u s : F32) (fu : u.IsFin = true) (fs : s.IsFin = true) (h0 : lit 0 ≤ u) (h1 : u < lit 1)
    (hs : 1 / 2 ^ 125 ≤ s.val) : lit 0 ≤ u * s ∧ u * s < s ∧ s * u < s := by
  have v1 : (lit 1 : F32).val = 1 := by decide +kernel
  have v0 : (lit 0 : F32).val = 0 := by decide +kernel
  have a := key_le_iff.1 h0.2.2
  have b := key_lt_iff.1 h1.2.2
  rw [v0] at a
  rw [v1] at b
  obtain ⟨f, c, d⟩ := mul_lt_self fu fs a b hs
  rw [mul_comm' s u]
  exact ⟨⟨by decide +kernel, isFin_ne_nan f, key_le_iff.2 (by rw [v0]; exact c)⟩, ⟨isFin_ne_nan f, isFin_ne_nan fs, key_lt_iff.2 d⟩,
    ⟨isFin_ne_nan f, isFin_ne_nan fs, key_lt_iff.2 d⟩⟩

/-- C154, the half is needed: with the corner `i / size` instead of the centre, pixel 1 of 41 is not found again but pixel 0. -/
theorem C154_corner : ∀ i : Fin 2,
    IsInt (coord (pixel2 (V2.splat (lit 41)) ((V2.splat (lit 1) : V2 F32) / V2.splat (lit 41))) i) 0 := by
  unfold IsInt
  decide +kernel

/-- C154, wrapping with `fract` can leave the image: for `u = -2^-25` the pixel of `fract(u)` is 41 in an image of 41 pixels. -/
theorem C154_wrap_outside : ∀ i : Fin 2,
    IsInt (coord (pixel2 (V2.splat (lit 41)) (V2.fract (V2.splat (lit (-1 / 2 ^ 25))))) i) 41 := by
  unfold IsInt
  decide +kernel

/-- C154, `vec2`: texture coordinates from 0 to below 1 never address a pixel outside the image. In a component with `0 <= u < 1` and an
integer size `n` from 1 to `2^24` the pixel is an integer from 0 to `n - 1`; it is the pixel of `u * n`, or the next one if `u * n` is just below
an integer. -/
theorem C154_vec2_pixel (size uv : V2 F32) (i : Fin 2) (n : ℤ) (fu : (coord uv i).IsFin = true) (h0 : lit 0 ≤ coord uv i)
    (h1 : coord uv i < lit 1) (hs : IsInt (coord size i) n) (n1 : 1 ≤ n) (n2 : n ≤ 2 ^ 24) :
    ∃ j : ℤ, IsInt (coord (pixel2 size uv) i) j ∧ 0 ≤ j ∧ j < n ∧
      (j : ℚ) ≤ (coord uv i).val * n + n / 2 ^ 24 ∧ (coord uv i).val * n < j + 1 := by
  have e : coord (pixel2 size uv) i = F.floor (coord uv i * coord size i) := by fin_cases i <;> rfl
  have a := key_le_iff.1 h0.2.2
  have b := key_lt_iff.1 h1.2.2
  rw [show (lit 0 : F32).val = 0 by decide +kernel] at a
  rw [show (lit 1 : F32).val = 1 by decide +kernel] at b
  rw [e]
  exact pixel_index fu a b hs n1 n2

/-- C154, `vec2`: pixels are ordered like texture coordinates. -/
theorem C154_vec2_ordered (size u v : V2 F32) (i : Fin 2) (fu : (coord u i).IsFin = true) (fv : (coord v i).IsFin = true)
    (fs : (coord size i).IsFin = true) (hs : lit 0 ≤ coord size i) (h : coord u i ≤ coord v i) :
    coord (pixel2 size u) i ≤ coord (pixel2 size v) i := by
  have e : ∀ w, coord (pixel2 size w) i = F.floor (coord w i * coord size i) := fun w => by fin_cases i <;> rfl
  rw [e, e]
  exact integral_le Int.floor_mono (mul_le' h fu fv fs hs)

/-- C154, `vec2`: the centre of a pixel has coordinates strictly between 0 and 1, accurate to `2^-23`, and exactly that pixel is found at
them again, for every pixel of an image of at most `2^21` pixels a side. -/
theorem C154_vec2_center (size x : V2 F32) (i : Fin 2) (j n : ℤ) (hx : IsInt (coord x i) j) (hs : IsInt (coord size i) n)
    (h0 : 0 ≤ j) (h1 : j < n) (n2 : n ≤ 2 ^ 21) :
    Near (coord (center2 size x) i) ((j + 1 / 2) / n) (1 / 2 ^ 23) ∧
    lit 0 < coord (center2 size x) i ∧ coord (center2 size x) i < lit 1 ∧
    IsInt (coord (pixel2 size (center2 size x)) i) j := by
  have e1 : coord (center2 size x) i = (coord x i + lit (1 / 2)) / coord size i := by fin_cases i <;> rfl
  have e2 : coord (pixel2 size (center2 size x)) i = F.floor ((coord x i + lit (1 / 2)) / coord size i * coord size i) := by fin_cases i <;> rfl
  rw [e1, e2]
  obtain ⟨a, b, c, d⟩ := pixel_center hx hs h0 h1 n2
  exact ⟨a, ⟨by decide +kernel, isFin_ne_nan a.1, key_lt_iff.2 (by rw [show (lit 0 : F32).val = 0 by decide +kernel]; exact b)⟩,
    ⟨isFin_ne_nan a.1, by decide +kernel, key_lt_iff.2 (by rw [show (lit 1 : F32).val = 1 by decide +kernel]; exact c)⟩, d⟩

/-- C154, `vec2`: wrapping. The pixel of `fract(u)` is an integer from 0 to `n`, and below `n` unless `fract(u)` is 1, which it is not for
`u >= 0` or `u <= -1/2`. -/
theorem C154_vec2_wrap (size u : V2 F32) (i : Fin 2) (n : ℤ) (fu : (coord u i).IsFin = true) (hs : IsInt (coord size i) n)
    (n1 : 1 ≤ n) (n2 : n ≤ 2 ^ 24) :
    ∃ j : ℤ, IsInt (coord (pixel2 size (V2.fract u)) i) j ∧ 0 ≤ j ∧ j ≤ n ∧ (j = n ↔ (coord (V2.fract u) i).val = 1) ∧
      (lit 0 ≤ coord u i ∨ coord u i ≤ lit (-1 / 2) → j < n) := by
  have e0 : coord (V2.fract u) i = F.fract (coord u i) := by fin_cases i <;> rfl
  have e : coord (pixel2 size (V2.fract u)) i = F.floor (F.fract (coord u i) * coord size i) := by fin_cases i <;> rfl
  rw [e, e0]
  obtain ⟨j, a, b, c, d⟩ := wrap_index fu hs n1 n2
  refine ⟨j, a, b, c, d, fun h => lt_of_le_of_ne c fun g => ?_⟩
  have v := (fract_exact_far fu (h.imp (fun h => by
    have := key_le_iff.1 h.2.2
    rwa [show (lit 0 : F32).val = 0 by decide +kernel] at this) fun h => by
    have := key_le_iff.1 h.2.2
    rwa [show (lit (-1 / 2) : F32).val = -1 / 2 by decide +kernel] at this)).2
  rw [d.1 g] at v
  exact absurd v.symm (Int.fract_lt_one _).ne

/-- C154, `vec2`: quantising. `round(clamp(c, 0, 1) * n)` of any numbers but NaN, infinities included, is an integer from 0 to `n`: 0 for
`c <= 0`, `n` for `c >= 1`, and between them the nearest level up to rounding. -/
theorem C154_vec2_quantise (s : F32) (c : V2 F32) (i : Fin 2) (n : ℤ) (hc : coord c i ≠ .nan) (hs : IsInt s n) (n1 : 1 ≤ n) (n2 : n ≤ 2 ^ 24) :
    ∃ j : ℤ, IsInt (coord (quantise2 s c) i) j ∧ 0 ≤ j ∧ j ≤ n ∧ (coord c i ≤ lit 0 → j = 0) ∧ (lit 1 ≤ coord c i → j = n) ∧
      (lit 0 ≤ coord c i → coord c i ≤ lit 1 → |(j : ℚ) - (coord c i).val * n| ≤ 1 / 2 + n / 2 ^ 23) := by
  have e : coord (quantise2 s c) i = F.round (F.clamp (coord c i) (lit 0) (lit 1) * s) := by fin_cases i <;> rfl
  rw [e]
  exact quantise_range hc hs n1 n2

/-- C154, `vec2`: quantised values survive the way back and forth: dividing the levels `j` by `n` and quantising again gives exactly `j`, for
every level and every `n` up to `2^21`. -/
theorem C154_vec2_levels (s : F32) (x : V2 F32) (i : Fin 2) (j n : ℤ) (hx : IsInt (coord x i) j) (hs : IsInt s n) (h0 : 0 ≤ j) (h1 : j ≤ n)
    (n1 : 1 ≤ n) (n2 : n ≤ 2 ^ 21) : IsInt (coord (quantise2 s (x / s)) i) j := by
  have e : coord (quantise2 s (x / s)) i = F.round (F.clamp (coord x i / s) (lit 0) (lit 1) * s) := by fin_cases i <;> rfl
  rw [e]
  exact quantise_back hx hs h0 h1 n1 n2

/-- Non-vacuity: an image 640 pixels wide, colours with 255 levels. -/
example : let size : V2 F32 := ⟨lit 640, lit 480⟩
    let uv : V2 F32 := ⟨lit (1 / 4), lit 0⟩
    let x : V2 F32 := ⟨lit 639, lit 0⟩
    IsInt (coord size 0) 640 ∧ IsInt (coord size 1) 480 ∧ (∀ i, lit 0 ≤ coord uv i ∧ coord uv i < lit 1) ∧ IsInt (coord x 0) 639 ∧
    coord (pixel2 size uv) 0 = lit 160 ∧ coord (pixel2 size (center2 size x)) 0 = lit 639 ∧
    coord (quantise2 (lit 255) uv) 0 = lit 64 ∧ coord (quantise2 (lit 255) (x / (lit 255 : F32))) 1 = lit 0 := by
  unfold IsInt
  decide +kernel

/-- C154, `vec3`: texture coordinates from 0 to below 1 never address a pixel outside the image. In a component with `0 <= u < 1` and an
integer size `n` from 1 to `2^24` the pixel is an integer from 0 to `n - 1`; it is the pixel of `u * n`, or the next one if `u * n` is just below
an integer. -/
theorem C154_vec3_pixel (size uv : V3 F32) (i : Fin 3) (n : ℤ) (fu : (coord uv i).IsFin = true) (h0 : lit 0 ≤ coord uv i)
    (h1 : coord uv i < lit 1) (hs : IsInt (coord size i) n) (n1 : 1 ≤ n) (n2 : n ≤ 2 ^ 24) :
    ∃ j : ℤ, IsInt (coord (pixel3 size uv) i) j ∧ 0 ≤ j ∧ j < n ∧
      (j : ℚ) ≤ (coord uv i).val * n + n / 2 ^ 24 ∧ (coord uv i).val * n < j + 1 := by
  have e : coord (pixel3 size uv) i = F.floor (coord uv i * coord size i) := by fin_cases i <;> rfl
  have a := key_le_iff.1 h0.2.2
  have b := key_lt_iff.1 h1.2.2
  rw [show (lit 0 : F32).val = 0 by decide +kernel] at a
  rw [show (lit 1 : F32).val = 1 by decide +kernel] at b
  rw [e]
  exact pixel_index fu a b hs n1 n2

/-- C154, `vec3`: pixels are ordered like texture coordinates. -/
theorem C154_vec3_ordered (size u v : V3 F32) (i : Fin 3) (fu : (coord u i).IsFin = true) (fv : (coord v i).IsFin = true)
    (fs : (coord size i).IsFin = true) (hs : lit 0 ≤ coord size i) (h : coord u i ≤ coord v i) :
    coord (pixel3 size u) i ≤ coord (pixel3 size v) i := by
  have e : ∀ w, coord (pixel3 size w) i = F.floor (coord w i * coord size i) := fun w => by fin_cases i <;> rfl
  rw [e, e]
  exact integral_le Int.floor_mono (mul_le' h fu fv fs hs)

/-- C154, `vec3`: the centre of a pixel has coordinates strictly between 0 and 1, accurate to `2^-23`, and exactly that pixel is found at
them again, for every pixel of an image of at most `2^21` pixels a side. -/
theorem C154_vec3_center (size x : V3 F32) (i : Fin 3) (j n : ℤ) (hx : IsInt (coord x i) j) (hs : IsInt (coord size i) n)
    (h0 : 0 ≤ j) (h1 : j < n) (n2 : n ≤ 2 ^ 21) :
    Near (coord (center3 size x) i) ((j + 1 / 2) / n) (1 / 2 ^ 23) ∧
    lit 0 < coord (center3 size x) i ∧ coord (center3 size x) i < lit 1 ∧
    IsInt (coord (pixel3 size (center3 size x)) i) j := by
  have e1 : coord (center3 size x) i = (coord x i + lit (1 / 2)) / coord size i := by fin_cases i <;> rfl
  have e2 : coord (pixel3 size (center3 size x)) i = F.floor ((coord x i + lit (1 / 2)) / coord size i * coord size i) := by fin_cases i <;> rfl
  rw [e1, e2]
  obtain ⟨a, b, c, d⟩ := pixel_center hx hs h0 h1 n2
  exact ⟨a, ⟨by decide +kernel, isFin_ne_nan a.1, key_lt_iff.2 (by rw [show (lit 0 : F32).val = 0 by decide +kernel]; exact b)⟩,
    ⟨isFin_ne_nan a.1, by decide +kernel, key_lt_iff.2 (by rw [show (lit 1 : F32).val = 1 by decide +kernel]; exact c)⟩, d⟩

/-- C154, `vec3`: wrapping. The pixel of `fract(u)` is an integer from 0 to `n`, and below `n` unless `fract(u)` is 1, which it is not for
`u >= 0` or `u <= -1/2`. -/
theorem C154_vec3_wrap (size u : V3 F32) (i : Fin 3) (n : ℤ) (fu : (coord u i).IsFin = true) (hs : IsInt (coord size i) n)
    (n1 : 1 ≤ n) (n2 : n ≤ 2 ^ 24) :
    ∃ j : ℤ, IsInt (coord (pixel3 size (V3.fract u)) i) j ∧ 0 ≤ j ∧ j ≤ n ∧ (j = n ↔ (coord (V3.fract u) i).val = 1) ∧
      (lit 0 ≤ coord u i ∨ coord u i ≤ lit (-1 / 2) → j < n) := by
  have e0 : coord (V3.fract u) i = F.fract (coord u i) := by fin_cases i <;> rfl
  have e : coord (pixel3 size (V3.fract u)) i = F.floor (F.fract (coord u i) * coord size i) := by fin_cases i <;> rfl
  rw [e, e0]
  obtain ⟨j, a, b, c, d⟩ := wrap_index fu hs n1 n2
  refine ⟨j, a, b, c, d, fun h => lt_of_le_of_ne c fun g => ?_⟩
  have v := (fract_exact_far fu (h.imp (fun h => by
    have := key_le_iff.1 h.2.2
    rwa [show (lit 0 : F32).val = 0 by decide +kernel] at this) fun h => by
    have := key_le_iff.1 h.2.2
    rwa [show (lit (-1 / 2) : F32).val = -1 / 2 by decide +kernel] at this)).2
  rw [d.1 g] at v
  exact absurd v.symm (Int.fract_lt_one _).ne

/-- C154, `vec3`: quantising. `round(clamp(c, 0, 1) * n)` of any numbers but NaN, infinities included, is an integer from 0 to `n`: 0 for
`c <= 0`, `n` for `c >= 1`, and between them the nearest level up to rounding. -/
theorem C154_vec3_quantise (s : F32) (c : V3 F32) (i : Fin 3) (n : ℤ) (hc : coord c i ≠ .nan) (hs : IsInt s n) (n1 : 1 ≤ n) (n2 : n ≤ 2 ^ 24) :
    ∃ j : ℤ, IsInt (coord (quantise3 s c) i) j ∧ 0 ≤ j ∧ j ≤ n ∧ (coord c i ≤ lit 0 → j = 0) ∧ (lit 1 ≤ coord c i → j = n) ∧
      (lit 0 ≤ coord c i → coord c i ≤ lit 1 → |(j : ℚ) - (coord c i).val * n| ≤ 1 / 2 + n / 2 ^ 23) := by
  have e : coord (quantise3 s c) i = F.round (F.clamp (coord c i) (lit 0) (lit 1) * s) := by fin_cases i <;> rfl
  rw [e]
  exact quantise_range hc hs n1 n2

/-- C154, `vec3`: quantised values survive the way back and forth: dividing the levels `j` by `n` and quantising again gives exactly `j`, for
every level and every `n` up to `2^21`. -/
theorem C154_vec3_levels (s : F32) (x : V3 F32) (i : Fin 3) (j n : ℤ) (hx : IsInt (coord x i) j) (hs : IsInt s n) (h0 : 0 ≤ j) (h1 : j ≤ n)
    (n1 : 1 ≤ n) (n2 : n ≤ 2 ^ 21) : IsInt (coord (quantise3 s (x / s)) i) j := by
  have e : coord (quantise3 s (x / s)) i = F.round (F.clamp (coord x i / s) (lit 0) (lit 1) * s) := by fin_cases i <;> rfl
  rw [e]
  exact quantise_back hx hs h0 h1 n1 n2

/-- Non-vacuity: an image 640 pixels wide, colours with 255 levels. -/
example : let size : V3 F32 := ⟨lit 640, lit 480, lit 41⟩
    let uv : V3 F32 := ⟨lit (1 / 4), lit 0, lit (1 - 1 / 2 ^ 24)⟩
    let x : V3 F32 := ⟨lit 639, lit 0, lit 1⟩
    IsInt (coord size 0) 640 ∧ IsInt (coord size 1) 480 ∧ (∀ i, lit 0 ≤ coord uv i ∧ coord uv i < lit 1) ∧ IsInt (coord x 0) 639 ∧
    coord (pixel3 size uv) 0 = lit 160 ∧ coord (pixel3 size (center3 size x)) 0 = lit 639 ∧
    coord (quantise3 (lit 255) uv) 0 = lit 64 ∧ coord (quantise3 (lit 255) (x / (lit 255 : F32))) 1 = lit 0 := by
  unfold IsInt
  decide +kernel

/-- C154, `vec4`: texture coordinates from 0 to below 1 never address a pixel outside the image. In a component with `0 <= u < 1` and an
integer size `n` from 1 to `2^24` the pixel is an integer from 0 to `n - 1`; it is the pixel of `u * n`, or the next one if `u * n` is just below
an integer. -/
theorem C154_vec4_pixel (size uv : V4 F32) (i : Fin 4) (n : ℤ) (fu : (coord uv i).IsFin = true) (h0 : lit 0 ≤ coord uv i)
    (h1 : coord uv i < lit 1) (hs : IsInt (coord size i) n) (n1 : 1 ≤ n) (n2 : n ≤ 2 ^ 24) :
    ∃ j : ℤ, IsInt (coord (pixel4 size uv) i) j ∧ 0 ≤ j ∧ j < n ∧
      (j : ℚ) ≤ (coord uv i).val * n + n / 2 ^ 24 ∧ (coord uv i).val * n < j + 1 := by
  have e : coord (pixel4 size uv) i = F.floor (coord uv i * coord size i) := by fin_cases i <;> rfl
  have a := key_le_iff.1 h0.2.2
  have b := key_lt_iff.1 h1.2.2
  rw [show (lit 0 : F32).val = 0 by decide +kernel] at a
  rw [show (lit 1 : F32).val = 1 by decide +kernel] at b
  rw [e]
  exact pixel_index fu a b hs n1 n2

/-- C154, `vec4`: pixels are ordered like texture coordinates. -/
theorem C154_vec4_ordered (size u v : V4 F32) (i : Fin 4) (fu : (coord u i).IsFin = true) (fv : (coord v i).IsFin = true)
    (fs : (coord size i).IsFin = true) (hs : lit 0 ≤ coord size i) (h : coord u i ≤ coord v i) :
    coord (pixel4 size u) i ≤ coord (pixel4 size v) i := by
  have e : ∀ w, coord (pixel4 size w) i = F.floor (coord w i * coord size i) := fun w => by fin_cases i <;> rfl
  rw [e, e]
  exact integral_le Int.floor_mono (mul_le' h fu fv fs hs)

/-- C154, `vec4`: the centre of a pixel has coordinates strictly between 0 and 1, accurate to `2^-23`, and exactly that pixel is found at
them again, for every pixel of an image of at most `2^21` pixels a side. -/
theorem C154_vec4_center (size x : V4 F32) (i : Fin 4) (j n : ℤ) (hx : IsInt (coord x i) j) (hs : IsInt (coord size i) n)
    (h0 : 0 ≤ j) (h1 : j < n) (n2 : n ≤ 2 ^ 21) :
    Near (coord (center4 size x) i) ((j + 1 / 2) / n) (1 / 2 ^ 23) ∧
    lit 0 < coord (center4 size x) i ∧ coord (center4 size x) i < lit 1 ∧
    IsInt (coord (pixel4 size (center4 size x)) i) j := by
  have e1 : coord (center4 size x) i = (coord x i + lit (1 / 2)) / coord size i := by fin_cases i <;> rfl
  have e2 : coord (pixel4 size (center4 size x)) i = F.floor ((coord x i + lit (1 / 2)) / coord size i * coord size i) := by fin_cases i <;> rfl
  rw [e1, e2]
  obtain ⟨a, b, c, d⟩ := pixel_center hx hs h0 h1 n2
  exact ⟨a, ⟨by decide +kernel, isFin_ne_nan a.1, key_lt_iff.2 (by rw [show (lit 0 : F32).val = 0 by decide +kernel]; exact b)⟩,
    ⟨isFin_ne_nan a.1, by decide +kernel, key_lt_iff.2 (by rw [show (lit 1 : F32).val = 1 by decide +kernel]; exact c)⟩, d⟩

/-- C154, `vec4`: wrapping. The pixel of `fract(u)` is an integer from 0 to `n`, and below `n` unless `fract(u)` is 1, which it is not for
`u >= 0` or `u <= -1/2`. -/
theorem C154_vec4_wrap (size u : V4 F32) (i : Fin 4) (n : ℤ) (fu : (coord u i).IsFin = true) (hs : IsInt (coord size i) n)
    (n1 : 1 ≤ n) (n2 : n ≤ 2 ^ 24) :
    ∃ j : ℤ, IsInt (coord (pixel4 size (V4.fract u)) i) j ∧ 0 ≤ j ∧ j ≤ n ∧ (j = n ↔ (coord (V4.fract u) i).val = 1) ∧
      (lit 0 ≤ coord u i ∨ coord u i ≤ lit (-1 / 2) → j < n) := by
  have e0 : coord (V4.fract u) i = F.fract (coord u i) := by fin_cases i <;> rfl
  have e : coord (pixel4 size (V4.fract u)) i = F.floor (F.fract (coord u i) * coord size i) := by fin_cases i <;> rfl
  rw [e, e0]
  obtain ⟨j, a, b, c, d⟩ := wrap_index fu hs n1 n2
  refine ⟨j, a, b, c, d, fun h => lt_of_le_of_ne c fun g => ?_⟩
  have v := (fract_exact_far fu (h.imp (fun h => by
    have := key_le_iff.1 h.2.2
    rwa [show (lit 0 : F32).val = 0 by decide +kernel] at this) fun h => by
    have := key_le_iff.1 h.2.2
    rwa [show (lit (-1 / 2) : F32).val = -1 / 2 by decide +kernel] at this)).2
  rw [d.1 g] at v
  exact absurd v.symm (Int.fract_lt_one _).ne

/-- C154, `vec4`: quantising. `round(clamp(c, 0, 1) * n)` of any numbers but NaN, infinities included, is an integer from 0 to `n`: 0 for
`c <= 0`, `n` for `c >= 1`, and between them the nearest level up to rounding. -/
theorem C154_vec4_quantise (s : F32) (c : V4 F32) (i : Fin 4) (n : ℤ) (hc : coord c i ≠ .nan) (hs : IsInt s n) (n1 : 1 ≤ n) (n2 : n ≤ 2 ^ 24) :
    ∃ j : ℤ, IsInt (coord (quantise4 s c) i) j ∧ 0 ≤ j ∧ j ≤ n ∧ (coord c i ≤ lit 0 → j = 0) ∧ (lit 1 ≤ coord c i → j = n) ∧
      (lit 0 ≤ coord c i → coord c i ≤ lit 1 → |(j : ℚ) - (coord c i).val * n| ≤ 1 / 2 + n / 2 ^ 23) := by
  have e : coord (quantise4 s c) i = F.round (F.clamp (coord c i) (lit 0) (lit 1) * s) := by fin_cases i <;> rfl
  rw [e]
  exact quantise_range hc hs n1 n2

/-- C154, `vec4`: quantised values survive the way back and forth: dividing the levels `j` by `n` and quantising again gives exactly `j`, for
every level and every `n` up to `2^21`. -/
theorem C154_vec4_levels (s : F32) (x : V4 F32) (i : Fin 4) (j n : ℤ) (hx : IsInt (coord x i) j) (hs : IsInt s n) (h0 : 0 ≤ j) (h1 : j ≤ n)
    (n1 : 1 ≤ n) (n2 : n ≤ 2 ^ 21) : IsInt (coord (quantise4 s (x / s)) i) j := by
  have e : coord (quantise4 s (x / s)) i = F.round (F.clamp (coord x i / s) (lit 0) (lit 1) * s) := by fin_cases i <;> rfl
  rw [e]
  exact quantise_back hx hs h0 h1 n1 n2

/-- Non-vacuity: an image 640 pixels wide, colours with 255 levels. -/
example : let size : V4 F32 := ⟨lit 640, lit 480, lit 41, lit 3⟩
    let uv : V4 F32 := ⟨lit (1 / 4), lit 0, lit (1 - 1 / 2 ^ 24), lit (1 / 2)⟩
    let x : V4 F32 := ⟨lit 639, lit 0, lit 1, lit 2⟩
    IsInt (coord size 0) 640 ∧ IsInt (coord size 1) 480 ∧ (∀ i, lit 0 ≤ coord uv i ∧ coord uv i < lit 1) ∧ IsInt (coord x 0) 639 ∧
    coord (pixel4 size uv) 0 = lit 160 ∧ coord (pixel4 size (center4 size x)) 0 = lit 639 ∧
    coord (quantise4 (lit 255) uv) 0 = lit 64 ∧ coord (quantise4 (lit 255) (x / (lit 255 : F32))) 1 = lit 0 := by
  unfold IsInt
  decide +kernel

end Zcm
