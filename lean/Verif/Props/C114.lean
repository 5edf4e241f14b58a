import Verif.Lemmas.F32Mod

/-!
# C114  Floored remainders in IEEE arithmetic

`mod(x, y)` for binary32 numbers.  `Near m r e` says that `m` is finite and within `e` of the real number `r`; `IsInt x a`
that the float `x` is the integer `a`.  The vector overloads apply the scalar one to each component (C28).
-/

set_option exponentiation.threshold 300

namespace Zcm

open F32

/-- C114: if `x` is at most `2^24` times `y`, then `mod(x, y)` is `x - n y` up to `(|x| + 4|y|) / 2^24`, where `n` is the floor of
`x / y`, or the integer above it if `x` is that close to `n y`. -/
theorem C114_mod (x y : F32) (hx : x.IsFin = true) (hy : y.IsFin = true) (h0 : (y.val : ℝ) ≠ 0)
    (hq : |(x.val : ℝ)| ≤ 2 ^ 24 * |(y.val : ℝ)|) (bx : |(x.val : ℝ)| ≤ 2 ^ 126) (yb : |(y.val : ℝ)| ≤ 2 ^ 125) :
    ∃ n : ℤ, Near (F.mod x y) (x.val - n * y.val) ((|(x.val : ℝ)| + 4 * |(y.val : ℝ)|) / 2 ^ 24 + 1 / 2 ^ 148) ∧
      (n = ⌊(x.val : ℝ) / y.val⌋ ∨
        n = ⌊(x.val : ℝ) / y.val⌋ + 1 ∧ |(x.val : ℝ) - n * y.val| ≤ |(x.val : ℝ)| / 2 ^ 24 + |(y.val : ℝ)| / 2 ^ 150) := by
  obtain ⟨n, f, e, k⟩ := mod_near hx hy (by exact_mod_cast h0) (by exact_mod_cast hq) (by exact_mod_cast bx) (by exact_mod_cast yb)
  have fl : ⌊(x.val : ℝ) / y.val⌋ = ⌊x.val / y.val⌋ := by rw [← Rat.cast_div, Rat.floor_cast]
  refine ⟨n, ⟨f, by have := (Rat.cast_le (K := ℝ)).2 e; push_cast at this; exact this⟩, ?_⟩
  rw [fl]
  exact k.imp id fun h => ⟨h.1, by have := (Rat.cast_le (K := ℝ)).2 h.2; push_cast at this; exact this⟩

/-- C114: so for positive `y` the result lies in `[0, y]` up to `(2|x| + 5y) / 2^24`, and it is congruent to `x` modulo `y` up to
the same error. -/
theorem C114_range (x y : F32) (hx : x.IsFin = true) (hy : y.IsFin = true) (h0 : 0 < (y.val : ℝ))
    (hq : |(x.val : ℝ)| ≤ 2 ^ 24 * y.val) (bx : |(x.val : ℝ)| ≤ 2 ^ 126) (yb : (y.val : ℝ) ≤ 2 ^ 125) :
    let tol : ℝ := (2 * |(x.val : ℝ)| + 5 * y.val) / 2 ^ 24 + 1 / 2 ^ 148;
    -tol ≤ (F.mod x y).val ∧ (F.mod x y).val ≤ y.val + tol ∧ ∃ n : ℤ, |(x.val - (F.mod x y).val : ℝ) - n * y.val| ≤ tol := by
  intro tol
  have ya := abs_of_pos h0
  obtain ⟨n, ⟨-, e⟩, k⟩ := C114_mod x y hx hy h0.ne' (by rwa [ya]) bx (by rwa [ya])
  rw [ya] at e k
  have a := Int.floor_le ((x.val : ℝ) / y.val)
  have b := Int.lt_floor_add_one ((x.val : ℝ) / y.val)
  rw [le_div_iff₀ h0] at a
  rw [div_lt_iff₀ h0] at b
  have x0 := abs_nonneg (x.val : ℝ)
  have small : |(x.val : ℝ)| / 2 ^ 24 + y.val / 2 ^ 150 + ((|(x.val : ℝ)| + 4 * y.val) / 2 ^ 24 + 1 / 2 ^ 148) ≤ tol := by
    simp only [tol]
    norm_num
    linarith
  have pos : 0 ≤ |(x.val : ℝ)| / 2 ^ 24 + (y.val : ℝ) / 2 ^ 150 := by positivity
  have low : -(|(x.val : ℝ)| / 2 ^ 24 + y.val / 2 ^ 150) ≤ x.val - n * y.val ∧ (x.val - n * y.val : ℝ) ≤ y.val := by
    rcases k with rfl | ⟨rfl, h⟩
    · constructor <;> linarith
    · refine ⟨(abs_le.1 h).1, ?_⟩
      push_cast
      linarith
  obtain ⟨e1, e2⟩ := abs_le.1 e
  refine ⟨by linarith, by linarith, n, ?_⟩
  rw [abs_le]
  constructor <;> linarith

/-- C114: a number that is already between 0 and `y` is returned unchanged, whatever its size. -/
theorem C114_small (x y : F32) (hx : x.IsFin = true) (hy : y.IsFin = true) (h0 : lit 0 ≤ x) (h : x < y) : (F.mod x y == x) = true := by
  refine mod_small hx hy ?_ (key_lt_iff.1 (lt_iff.1 h).2.2)
  have := key_le_iff.1 (le_iff.1 h0).2.2
  rwa [val_lit_zero] at this

/-- C114: on integers of magnitude up to `2^23` the result is exact: the integer congruent to `a` modulo `b` in `[0, b)`, or in
`(b, 0]` for negative `b`. -/
theorem C114_int (x y : F32) (a b : ℤ) (hx : IsInt x a) (hy : IsInt y b) (ha : |a| ≤ 2 ^ 23) (hb : |b| ≤ 2 ^ 23) (h0 : b ≠ 0) :
    ∃ r, IsInt (F.mod x y) r ∧ b ∣ a - r ∧ (0 < b → 0 ≤ r ∧ r < b) ∧ (b < 0 → b < r ∧ r ≤ 0) :=
  mod_int hx hy ha hb h0

/-- C114: the tolerance in `C114_range` is needed at both ends: `mod(27, 0.3f)` is negative, and `mod(-1e-10f, 1)` is 1. -/
theorem C114_ends : F.mod (lit 27 : F32) (lit 0.3) < lit 0 ∧ (F.mod (lit (-1 / 10 ^ 10) : F32) (lit 1) == lit 1) = true := by
  decide +kernel

/-! ### The hypotheses are met -/

/-- Non-vacuity: `C114_mod` and `C114_range` for 27 and 0.3, -/
example := C114_range (lit 27) (lit 0.3) (by decide +kernel) (by decide +kernel)
  (by rw [show (lit 0.3 : F32).val = 5033165 / 2 ^ 24 by decide +kernel]; norm_num)
  (by rw [show (lit 0.3 : F32).val = 5033165 / 2 ^ 24 by decide +kernel, show (lit 27 : F32).val = 27 by decide +kernel]; norm_num)
  (by rw [show (lit 27 : F32).val = 27 by decide +kernel]; norm_num)
  (by rw [show (lit 0.3 : F32).val = 5033165 / 2 ^ 24 by decide +kernel]; norm_num)

/-- `C114_small` for 0.1 and 0.3, and `C114_int` for -7 and 3 with result 2. -/
example : (lit 0 : F32) ≤ lit 0.1 ∧ (lit 0.1 : F32) < lit 0.3 ∧ IsInt (lit (-7)) (-7) ∧ IsInt (lit 3) 3 ∧
    (F.mod (lit (-7) : F32) (lit 3) == lit 2) = true := by
  refine ⟨by decide +kernel, by decide +kernel, ⟨by decide +kernel, by decide +kernel⟩, ⟨by decide +kernel, by decide +kernel⟩,
    by decide +kernel⟩

end Zcm
