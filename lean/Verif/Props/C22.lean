import Verif.Lemmas.F32Fract

/-!
# C22: roundEven

The library computes `nearbyint(x*0.5)*2`, i.e. the nearest *even* integer.  This is not the GLSL
function: every number nearer to an odd integer is sent to an even one, e.g. 1 to 0.
-/

namespace Zcm

open F32

/-- The full claim, for exact real arithmetic on the inputs in `dom`. -/
def RoundEvenSpec (f : ℝ → ℝ) (dom : ℝ → Prop) : Prop :=
  ∀ x, dom x → ∃ n : ℤ, f x = n ∧ IsRoundEven x n

/-- The full claim, for finite floats in `dom`. -/
def RoundEvenFloatSpec (f : F32 → F32) (dom : ℚ → Prop) : Prop :=
  ∀ x : F32, x.IsFin = true → dom x.val →
    (f x).IsFin = true ∧ ∃ n : ℤ, (f x).val = n ∧ IsRoundEven x.val n

theorem roundEven_real (x : ℝ) : F.roundEven x = 2 * (roundHalfEven (x / 2) : ℤ) := by
  show ((roundHalfEven (x * ((0.5 : ℚ) : ℝ)) : ℤ) : ℝ) * ((2 : ℚ) : ℝ) = _
  have : x * ((0.5 : ℚ) : ℝ) = x / 2 := by push_cast; ring
  rw [this]; push_cast; ring

theorem rhe_half_of_even {K : Type} [Field K] [LinearOrder K] [IsStrictOrderedRing K] [FloorRing K]
    (x : K) (m : ℤ) (h : |x - 2 * m| ≤ 1 / 2) : roundHalfEven (x / 2) = m := by
  apply IsRoundEven.unique (isRoundEven_rhe _)
  have h1 : |x / 2 - m| ≤ 1 / 4 := by
    have : x / 2 - m = (x - 2 * m) / 2 := by ring
    rw [this, abs_div, abs_two]; linarith
  exact ⟨by linarith, fun h2 => by linarith⟩

theorem even_isRoundEven {K : Type} [Field K] [LinearOrder K] [IsStrictOrderedRing K] {x : K} {m : ℤ}
    (h : |x - 2 * m| ≤ 1 / 2) : IsRoundEven x (2 * m) :=
  ⟨by push_cast; exact h, fun _ => even_two_mul m⟩

/-- C22 fails in exact arithmetic: `roundEven(1) = 0`. -/
theorem C22_real_false : ¬ RoundEvenSpec F.roundEven (fun _ => True) := by
  intro h
  obtain ⟨n, h1, h2⟩ := h 1 trivial
  have h3 : roundHalfEven ((1 : ℝ) / 2) = 0 := by
    apply IsRoundEven.unique (isRoundEven_rhe _)
    refine ⟨by norm_num, fun _ => by simp⟩
  rw [roundEven_real, h3] at h1
  have h4 : n = 0 := by
    have : ((n : ℤ) : ℝ) = 0 := by rw [← h1]; norm_num
    exact_mod_cast this
  rw [h4] at h2
  have := h2.1
  norm_num at this

/-- C22 fails for floats: `roundEven(1.0f)` is 0. -/
theorem C22_float_false : ¬ RoundEvenFloatSpec F.roundEven (fun _ => True) := by
  intro h
  obtain ⟨-, n, h1, h2⟩ := h (lit 1) (by decide +kernel) trivial
  have h3 : (F.roundEven (lit 1 : F32)).val = 0 := by decide +kernel
  rw [h3] at h1
  have h4 : n = 0 := by exact_mod_cast h1.symm
  rw [h4, val_lit_one] at h2
  have := h2.1
  norm_num at this

/-- C22 restricted to numbers within 1/2 of an even integer; missing: all others, where it is false. -/
theorem C22_real_partial : RoundEvenSpec F.roundEven (fun x => ∃ m : ℤ, |x - 2 * m| ≤ 1 / 2) := by
  rintro x ⟨m, hm⟩
  refine ⟨2 * m, ?_, even_isRoundEven hm⟩
  rw [roundEven_real, rhe_half_of_even x m hm]; push_cast; ring

/-- The same for floats. -/
theorem C22_float_partial :
    RoundEvenFloatSpec F.roundEven (fun x => ∃ m : ℤ, |x - 2 * m| ≤ 1 / 2) := by
  rintro x hx ⟨m, hm⟩
  obtain ⟨h1, h2⟩ := roundEven_val hx
  refine ⟨h1, 2 * m, ?_, even_isRoundEven hm⟩
  rw [h2, rhe_half_of_even _ m hm]; push_cast; ring

/-- What the function really returns, for every finite float: an even integer at distance at most 1,
hence a nearest even integer. -/
theorem C22_float_actual (x : F32) (hx : x.IsFin = true) :
    ∃ n : ℤ, (F.roundEven x).val = n ∧ Even n ∧ |x.val - n| ≤ 1 ∧ ∀ m : ℤ, Even m → |x.val - n| ≤ |x.val - m| := by
  obtain ⟨-, h2⟩ := roundEven_val hx
  refine ⟨2 * roundHalfEven (x.val / 2), by rw [h2]; push_cast; ring, even_two_mul _, ?_, ?_⟩
  · have h3 := rhe_abs_sub_le (x.val / 2)
    have h4 : x.val - ((2 * roundHalfEven (x.val / 2) : ℤ) : ℚ) = 2 * (x.val / 2 - roundHalfEven (x.val / 2)) := by
      push_cast; ring
    rw [h4, abs_mul, abs_two]; linarith
  · rintro m ⟨j, rfl⟩
    have h3 := rhe_nearest (x.val / 2) j
    have h4 : ∀ z : ℤ, x.val - ((2 * z : ℤ) : ℚ) = 2 * (x.val / 2 - z) := by intro z; push_cast; ring
    rw [show j + j = 2 * j by ring, h4, h4, abs_mul, abs_mul]
    gcongr

/-- Non-vacuity: 2.5 is within 1/2 of 2 and is sent there. -/
example : F.roundEven (lit 2.5 : F32) = lit 2 ∧ F.roundEven (lit 1 : F32) = lit 0 := by decide +kernel
example : |(2.5 : ℚ) - 2 * (1 : ℤ)| ≤ 1 / 2 := by norm_num [abs_le]

end Zcm
