import Verif.Spec.Coord
import Verif.Model.Exponential
import Verif.Model.Mat
import Verif.Model.Matrix
import Verif.Model.Common
import Verif.Lemmas.F32Correct

/-!
# C80  Arithmetic operators are correctly rounded

`CorrectlyRounded x r` (Spec/Nearest) is IEEE-754's round-to-nearest, ties-to-even, including overflow to infinity:
it says which binary32 number an operation must return when the exact real result is `r`. `x.val` is the exact number
a finite `x` stands for.
-/

namespace Zcm

open F32

/-- C80, `sqrt(float)`: the correctly rounded square root, for every finite number from 0 on. -/
theorem C80_sqrt (x : F32) (hx : x.IsFin = true) (h0 : 0 ≤ x.val) : CorrectlyRounded (F.sqrt x) (Real.sqrt x.val) :=
  sqrt_correct hx h0

/-- C80, `vec2`: every component of every arithmetic operator (vector with vector, vector with scalar, scalar with
vector) and of `sqrt`. -/
theorem C80_vec2 (a b : V2 F32) (s : F32) (i : Fin 2) (ha : (coord a i).IsFin = true)
    (hb : (coord b i).IsFin = true) (hs : s.IsFin = true) :
    CorrectlyRounded (coord (a + b) i) ((coord a i).val + (coord b i).val) ∧
    CorrectlyRounded (coord (a - b) i) ((coord a i).val - (coord b i).val) ∧
    CorrectlyRounded (coord (a * b) i) ((coord a i).val * (coord b i).val) ∧
    ((coord b i).val ≠ 0 → CorrectlyRounded (coord (a / b) i) ((coord a i).val / (coord b i).val)) ∧
    CorrectlyRounded (coord (a + s) i) ((coord a i).val + s.val) ∧
    CorrectlyRounded (coord (a - s) i) ((coord a i).val - s.val) ∧
    CorrectlyRounded (coord (a * s) i) ((coord a i).val * s.val) ∧
    (s.val ≠ 0 → CorrectlyRounded (coord (a / s) i) ((coord a i).val / s.val)) ∧
    CorrectlyRounded (coord (s + a) i) (s.val + (coord a i).val) ∧
    CorrectlyRounded (coord (s - a) i) (s.val - (coord a i).val) ∧
    CorrectlyRounded (coord (s * a) i) (s.val * (coord a i).val) ∧
    ((coord a i).val ≠ 0 → CorrectlyRounded (coord (s / a) i) (s.val / (coord a i).val)) ∧
    (0 ≤ (coord a i).val → CorrectlyRounded (coord (V2.sqrt a) i) (Real.sqrt (coord a i).val)) := by
  refine ⟨?_, ?_, ?_, fun h => ?_, ?_, ?_, ?_, fun h => ?_, ?_, ?_, ?_, fun h => ?_, fun h => ?_⟩
  all_goals fin_cases i
  iterate 2 exact add_correct ha hb
  iterate 2 exact sub_correct ha hb
  iterate 2 exact mul_correct ha hb
  iterate 2 exact div_correct ha hb h
  iterate 2 exact add_correct ha hs
  iterate 2 exact sub_correct ha hs
  iterate 2 exact mul_correct ha hs
  iterate 2 exact div_correct ha hs h
  iterate 2 exact add_correct hs ha
  iterate 2 exact sub_correct hs ha
  iterate 2 exact mul_correct hs ha
  iterate 2 exact div_correct hs ha h
  iterate 2 exact C80_sqrt _ ha h

/-- C80, `vec3`: every component of every arithmetic operator (vector with vector, vector with scalar, scalar with
vector) and of `sqrt`. -/
theorem C80_vec3 (a b : V3 F32) (s : F32) (i : Fin 3) (ha : (coord a i).IsFin = true)
    (hb : (coord b i).IsFin = true) (hs : s.IsFin = true) :
    CorrectlyRounded (coord (a + b) i) ((coord a i).val + (coord b i).val) ∧
    CorrectlyRounded (coord (a - b) i) ((coord a i).val - (coord b i).val) ∧
    CorrectlyRounded (coord (a * b) i) ((coord a i).val * (coord b i).val) ∧
    ((coord b i).val ≠ 0 → CorrectlyRounded (coord (a / b) i) ((coord a i).val / (coord b i).val)) ∧
    CorrectlyRounded (coord (a + s) i) ((coord a i).val + s.val) ∧
    CorrectlyRounded (coord (a - s) i) ((coord a i).val - s.val) ∧
    CorrectlyRounded (coord (a * s) i) ((coord a i).val * s.val) ∧
    (s.val ≠ 0 → CorrectlyRounded (coord (a / s) i) ((coord a i).val / s.val)) ∧
    CorrectlyRounded (coord (s + a) i) (s.val + (coord a i).val) ∧
    CorrectlyRounded (coord (s - a) i) (s.val - (coord a i).val) ∧
    CorrectlyRounded (coord (s * a) i) (s.val * (coord a i).val) ∧
    ((coord a i).val ≠ 0 → CorrectlyRounded (coord (s / a) i) (s.val / (coord a i).val)) ∧
    (0 ≤ (coord a i).val → CorrectlyRounded (coord (V3.sqrt a) i) (Real.sqrt (coord a i).val)) := by
  refine ⟨?_, ?_, ?_, fun h => ?_, ?_, ?_, ?_, fun h => ?_, ?_, ?_, ?_, fun h => ?_, fun h => ?_⟩
  all_goals fin_cases i
  iterate 3 exact add_correct ha hb
  iterate 3 exact sub_correct ha hb
  iterate 3 exact mul_correct ha hb
  iterate 3 exact div_correct ha hb h
  iterate 3 exact add_correct ha hs
  iterate 3 exact sub_correct ha hs
  iterate 3 exact mul_correct ha hs
  iterate 3 exact div_correct ha hs h
  iterate 3 exact add_correct hs ha
  iterate 3 exact sub_correct hs ha
  iterate 3 exact mul_correct hs ha
  iterate 3 exact div_correct hs ha h
  iterate 3 exact C80_sqrt _ ha h

/-- C80, `vec4`: every component of every arithmetic operator (vector with vector, vector with scalar, scalar with
vector) and of `sqrt`. -/
theorem C80_vec4 (a b : V4 F32) (s : F32) (i : Fin 4) (ha : (coord a i).IsFin = true)
    (hb : (coord b i).IsFin = true) (hs : s.IsFin = true) :
    CorrectlyRounded (coord (a + b) i) ((coord a i).val + (coord b i).val) ∧
    CorrectlyRounded (coord (a - b) i) ((coord a i).val - (coord b i).val) ∧
    CorrectlyRounded (coord (a * b) i) ((coord a i).val * (coord b i).val) ∧
    ((coord b i).val ≠ 0 → CorrectlyRounded (coord (a / b) i) ((coord a i).val / (coord b i).val)) ∧
    CorrectlyRounded (coord (a + s) i) ((coord a i).val + s.val) ∧
    CorrectlyRounded (coord (a - s) i) ((coord a i).val - s.val) ∧
    CorrectlyRounded (coord (a * s) i) ((coord a i).val * s.val) ∧
    (s.val ≠ 0 → CorrectlyRounded (coord (a / s) i) ((coord a i).val / s.val)) ∧
    CorrectlyRounded (coord (s + a) i) (s.val + (coord a i).val) ∧
    CorrectlyRounded (coord (s - a) i) (s.val - (coord a i).val) ∧
    CorrectlyRounded (coord (s * a) i) (s.val * (coord a i).val) ∧
    ((coord a i).val ≠ 0 → CorrectlyRounded (coord (s / a) i) (s.val / (coord a i).val)) ∧
    (0 ≤ (coord a i).val → CorrectlyRounded (coord (V4.sqrt a) i) (Real.sqrt (coord a i).val)) := by
  refine ⟨?_, ?_, ?_, fun h => ?_, ?_, ?_, ?_, fun h => ?_, ?_, ?_, ?_, fun h => ?_, fun h => ?_⟩
  all_goals fin_cases i
  iterate 4 exact add_correct ha hb
  iterate 4 exact sub_correct ha hb
  iterate 4 exact mul_correct ha hb
  iterate 4 exact div_correct ha hb h
  iterate 4 exact add_correct ha hs
  iterate 4 exact sub_correct ha hs
  iterate 4 exact mul_correct ha hs
  iterate 4 exact div_correct ha hs h
  iterate 4 exact add_correct hs ha
  iterate 4 exact sub_correct hs ha
  iterate 4 exact mul_correct hs ha
  iterate 4 exact div_correct hs ha h
  iterate 4 exact C80_sqrt _ ha h

/-- C80, `mat2`: every entry of the entrywise operators. -/
theorem C80_mat2 (a b : M2 F32) (s : F32) (i j : Fin 2) (ha : (entry a i j).IsFin = true)
    (hb : (entry b i j).IsFin = true) (hs : s.IsFin = true) :
    CorrectlyRounded (entry (a + b) i j) ((entry a i j).val + (entry b i j).val) ∧
    CorrectlyRounded (entry (a - b) i j) ((entry a i j).val - (entry b i j).val) ∧
    CorrectlyRounded (entry (a * s) i j) ((entry a i j).val * s.val) ∧
    (s.val ≠ 0 → CorrectlyRounded (entry (a / s) i j) ((entry a i j).val / s.val)) ∧
    CorrectlyRounded (entry (s * a) i j) (s.val * (entry a i j).val) ∧
    ((entry a i j).val ≠ 0 → CorrectlyRounded (entry (s / a) i j) (s.val / (entry a i j).val)) ∧
    CorrectlyRounded (entry (M2.matrixCompMult a b) i j) ((entry a i j).val * (entry b i j).val) := by
  refine ⟨?_, ?_, ?_, fun h => ?_, ?_, fun h => ?_, ?_⟩
  all_goals fin_cases i <;> fin_cases j
  iterate 4 exact add_correct ha hb
  iterate 4 exact sub_correct ha hb
  iterate 4 exact mul_correct ha hs
  iterate 4 exact div_correct ha hs h
  iterate 4 exact mul_correct hs ha
  iterate 4 exact div_correct hs ha h
  iterate 4 exact mul_correct ha hb

/-- C80, `mat3`: every entry of the entrywise operators. -/
theorem C80_mat3 (a b : M3 F32) (s : F32) (i j : Fin 3) (ha : (entry a i j).IsFin = true)
    (hb : (entry b i j).IsFin = true) (hs : s.IsFin = true) :
    CorrectlyRounded (entry (a + b) i j) ((entry a i j).val + (entry b i j).val) ∧
    CorrectlyRounded (entry (a - b) i j) ((entry a i j).val - (entry b i j).val) ∧
    CorrectlyRounded (entry (a * s) i j) ((entry a i j).val * s.val) ∧
    (s.val ≠ 0 → CorrectlyRounded (entry (a / s) i j) ((entry a i j).val / s.val)) ∧
    CorrectlyRounded (entry (s * a) i j) (s.val * (entry a i j).val) ∧
    ((entry a i j).val ≠ 0 → CorrectlyRounded (entry (s / a) i j) (s.val / (entry a i j).val)) ∧
    CorrectlyRounded (entry (M3.matrixCompMult a b) i j) ((entry a i j).val * (entry b i j).val) := by
  refine ⟨?_, ?_, ?_, fun h => ?_, ?_, fun h => ?_, ?_⟩
  all_goals fin_cases i <;> fin_cases j
  iterate 9 exact add_correct ha hb
  iterate 9 exact sub_correct ha hb
  iterate 9 exact mul_correct ha hs
  iterate 9 exact div_correct ha hs h
  iterate 9 exact mul_correct hs ha
  iterate 9 exact div_correct hs ha h
  iterate 9 exact mul_correct ha hb

/-- C80, `mat4`: every entry of the entrywise operators. -/
theorem C80_mat4 (a b : M4 F32) (s : F32) (i j : Fin 4) (ha : (entry a i j).IsFin = true)
    (hb : (entry b i j).IsFin = true) (hs : s.IsFin = true) :
    CorrectlyRounded (entry (a + b) i j) ((entry a i j).val + (entry b i j).val) ∧
    CorrectlyRounded (entry (a - b) i j) ((entry a i j).val - (entry b i j).val) ∧
    CorrectlyRounded (entry (a * s) i j) ((entry a i j).val * s.val) ∧
    (s.val ≠ 0 → CorrectlyRounded (entry (a / s) i j) ((entry a i j).val / s.val)) ∧
    CorrectlyRounded (entry (s * a) i j) (s.val * (entry a i j).val) ∧
    ((entry a i j).val ≠ 0 → CorrectlyRounded (entry (s / a) i j) (s.val / (entry a i j).val)) ∧
    CorrectlyRounded (entry (M4.matrixCompMult a b) i j) ((entry a i j).val * (entry b i j).val) := by
  refine ⟨?_, ?_, ?_, fun h => ?_, ?_, fun h => ?_, ?_⟩
  all_goals fin_cases i <;> fin_cases j
  iterate 16 exact add_correct ha hb
  iterate 16 exact sub_correct ha hb
  iterate 16 exact mul_correct ha hs
  iterate 16 exact div_correct ha hs h
  iterate 16 exact mul_correct hs ha
  iterate 16 exact div_correct hs ha h
  iterate 16 exact mul_correct ha hb

/-- C80, quaternions: `+`, `-`, scaling by and division by a float, `sqrt`. -/
theorem C80_quat (a b : Quat F32) (s : F32) (i : Fin 4) (ha : (coord a i).IsFin = true)
    (hb : (coord b i).IsFin = true) (hs : s.IsFin = true) :
    CorrectlyRounded (coord (a + b) i) ((coord a i).val + (coord b i).val) ∧
    CorrectlyRounded (coord (a - b) i) ((coord a i).val - (coord b i).val) ∧
    CorrectlyRounded (coord (a * s) i) ((coord a i).val * s.val) ∧
    (s.val ≠ 0 → CorrectlyRounded (coord (a / s) i) ((coord a i).val / s.val)) ∧
    (0 ≤ (coord a i).val → CorrectlyRounded (coord (Quat.sqrt a) i) (Real.sqrt (coord a i).val)) ∧
    CorrectlyRounded (coord (s * a) i) (s.val * (coord a i).val) ∧
    ((coord a i).val ≠ 0 → CorrectlyRounded (coord (s / a) i) (s.val / (coord a i).val)) := by
  refine ⟨?_, ?_, ?_, fun h => ?_, fun h => ?_, ?_, fun h => ?_⟩
  all_goals fin_cases i
  iterate 4 exact add_correct ha hb
  iterate 4 exact sub_correct ha hb
  iterate 4 exact mul_correct ha hs
  iterate 4 exact div_correct ha hs h
  iterate 4 exact C80_sqrt _ ha h
  iterate 4 (rw [mul_comm]; exact mul_correct ha hs)
  iterate 4 exact div_correct hs ha h

/-- C80, `fma`: one rounding only. -/
theorem C80_fma (a b c : F32) (ha : a.IsFin = true) (hb : b.IsFin = true) (hc : c.IsFin = true) :
    CorrectlyRounded (F.fma a b c) (a.val * b.val + c.val) := fma_correct ha hb hc

/-- C80, `fma` of vectors. -/
theorem C80_fma_vec (a b c : V2 F32) (a' b' c' : V3 F32) (a'' b'' c'' : V4 F32) :
    (∀ i, (coord a i).IsFin = true → (coord b i).IsFin = true → (coord c i).IsFin = true →
      CorrectlyRounded (coord (V2.fma a b c) i) ((coord a i).val * (coord b i).val + (coord c i).val)) ∧
    (∀ i, (coord a' i).IsFin = true → (coord b' i).IsFin = true → (coord c' i).IsFin = true →
      CorrectlyRounded (coord (V3.fma a' b' c') i) ((coord a' i).val * (coord b' i).val + (coord c' i).val)) ∧
    (∀ i, (coord a'' i).IsFin = true → (coord b'' i).IsFin = true → (coord c'' i).IsFin = true →
      CorrectlyRounded (coord (V4.fma a'' b'' c'') i) ((coord a'' i).val * (coord b'' i).val + (coord c'' i).val)) := by
  refine ⟨?_, ?_, ?_⟩ <;> intro i h h' h'' <;> fin_cases i <;> exact fma_correct h h' h''

/-- C80: "correctly rounded" leaves no freedom: two correctly rounded results of the same exact value are the same
float, except that a zero may have either sign. -/
theorem C80_unique (x y : F32) (r : ℝ) (hx : CorrectlyRounded x r) (hy : CorrectlyRounded y r) :
    x = y ∨ (x.IsFin = true ∧ y.IsFin = true ∧ x.val = 0 ∧ y.val = 0) := hx.unique hy

/-- Non-vacuity: 1/3 is the binary32 number with encoding 0x3eaaaaab. -/
example : (lit 1 / lit 3 : F32).bits = 0x3eaaaaab ∧ CorrectlyRounded (lit 1 / lit 3 : F32) (1 / 3) := by
  refine ⟨by decide +kernel, ?_⟩
  have := div_correct (a := lit 1) (b := lit 3) (by decide +kernel) (by decide +kernel) (by decide +kernel)
  rwa [show (lit 1 : F32).val = 1 by decide +kernel, show (lit 3 : F32).val = 3 by decide +kernel, Rat.cast_one,
    Rat.cast_ofNat] at this

end Zcm
