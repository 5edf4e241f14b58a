import Verif.Lemmas.F32Horner
import Verif.Model.Mat
import Verif.Model.QuatBasic
import Verif.Spec.Coord
import Mathlib.Tactic.IntervalCases

/-!
# C139  Polynomials by Horner's rule

`horner`, `exactPoly` and `AccuratePoly` are in Spec/Polynomial.lean.
-/

set_option exponentiation.threshold 300

namespace Zcm

open F32

private theorem horner_map {V : Type} [HMul V F32 V] [Add V] (c : V → F32) (t : F32)
    (h : ∀ x y : V, c (x * t + y) = c x * t + c y) (ys : List V) :
    ∀ x, c (horner t x ys) = horner t (c x) (ys.map c) := by
  unfold horner
  induction ys with
  | nil => intro x; rfl
  | cons y ys ih => intro x; rw [List.map_cons, List.foldl_cons, List.foldl_cons, ih, h]

/-- C139, `float`: `r = c0; r = r * t + c1; r = r * t + c2; ...` gives the polynomial accurately, for any number of
coefficients. -/
theorem C139_float (t : F32) (ht : t.IsFin = true) (a : F32) (cs : List F32) : AccuratePoly (horner t a cs) t a cs :=
  ⟨fun f => horner_error ht f, fun hn fl hb => horner_near ht fl hn hb⟩

/-- C139, `vec2`: a polynomial with vector coefficients (a curve in power form) is accurate in every component. -/
theorem C139_vec2 (t : F32) (ht : t.IsFin = true) (a : V2 F32) (cs : List (V2 F32)) (i : Fin 2) :
    AccuratePoly (coord (horner t a cs) i) t (coord a i) (cs.map fun c => coord c i) := by
  rw [horner_map (fun v : V2 F32 => coord v i) t fun x y => by fin_cases i <;> rfl]
  exact C139_float t ht _ _

/-- C139, `vec3`: a polynomial with vector coefficients (a curve in power form) is accurate in every component. -/
theorem C139_vec3 (t : F32) (ht : t.IsFin = true) (a : V3 F32) (cs : List (V3 F32)) (i : Fin 3) :
    AccuratePoly (coord (horner t a cs) i) t (coord a i) (cs.map fun c => coord c i) := by
  rw [horner_map (fun v : V3 F32 => coord v i) t fun x y => by fin_cases i <;> rfl]
  exact C139_float t ht _ _

/-- C139, `vec4`: a polynomial with vector coefficients (a curve in power form) is accurate in every component. -/
theorem C139_vec4 (t : F32) (ht : t.IsFin = true) (a : V4 F32) (cs : List (V4 F32)) (i : Fin 4) :
    AccuratePoly (coord (horner t a cs) i) t (coord a i) (cs.map fun c => coord c i) := by
  rw [horner_map (fun v : V4 F32 => coord v i) t fun x y => by fin_cases i <;> rfl]
  exact C139_float t ht _ _

/-- C139, `mat2`: a polynomial with matrix coefficients is accurate in every entry. -/
theorem C139_mat2 (t : F32) (ht : t.IsFin = true) (a : M2 F32) (cs : List (M2 F32)) (c r : Fin 2) :
    AccuratePoly (entry (horner t a cs) c r) t (entry a c r) (cs.map fun m => entry m c r) := by
  rw [horner_map (fun m : M2 F32 => entry m c r) t fun x y => by fin_cases c <;> fin_cases r <;> rfl]
  exact C139_float t ht _ _

/-- C139, `mat3`: a polynomial with matrix coefficients is accurate in every entry. -/
theorem C139_mat3 (t : F32) (ht : t.IsFin = true) (a : M3 F32) (cs : List (M3 F32)) (c r : Fin 3) :
    AccuratePoly (entry (horner t a cs) c r) t (entry a c r) (cs.map fun m => entry m c r) := by
  rw [horner_map (fun m : M3 F32 => entry m c r) t fun x y => by fin_cases c <;> fin_cases r <;> rfl]
  exact C139_float t ht _ _

/-- C139, `mat4`: a polynomial with matrix coefficients is accurate in every entry. -/
theorem C139_mat4 (t : F32) (ht : t.IsFin = true) (a : M4 F32) (cs : List (M4 F32)) (c r : Fin 4) :
    AccuratePoly (entry (horner t a cs) c r) t (entry a c r) (cs.map fun m => entry m c r) := by
  rw [horner_map (fun m : M4 F32 => entry m c r) t fun x y => by fin_cases c <;> fin_cases r <;> rfl]
  exact C139_float t ht _ _

/-- C139, `quat`: a polynomial with quaternion coefficients is accurate in every part. -/
theorem C139_quat (t : F32) (ht : t.IsFin = true) (a : Quat F32) (cs : List (Quat F32)) :
    AccuratePoly (horner t a cs).w t a.w (cs.map Quat.w) ∧ AccuratePoly (horner t a cs).x t a.x (cs.map Quat.x) ∧
    AccuratePoly (horner t a cs).y t a.y (cs.map Quat.y) ∧ AccuratePoly (horner t a cs).z t a.z (cs.map Quat.z) := by
  refine ⟨?_, ?_, ?_, ?_⟩
  · rw [horner_map Quat.w t fun x y => rfl]; exact C139_float t ht _ _
  · rw [horner_map Quat.x t fun x y => rfl]; exact C139_float t ht _ _
  · rw [horner_map Quat.y t fun x y => rfl]; exact C139_float t ht _ _
  · rw [horner_map Quat.z t fun x y => rfl]; exact C139_float t ht _ _

/-- `2 t^2 + 3 t + 1` at 5 meets every hypothesis; its exact value is 66. -/
example : exactPoly (lit 5) [lit 2, lit 3, lit 1] = 66 ∧
    (∀ j ≤ 2, sizePoly (lit 5) (lit 2 :: [lit 3, lit 1].take j) ≤ 2 ^ 125) ∧
    |((horner (lit 5 : F32) (lit 2 : F32) [lit 3, lit 1]).val : ℝ) - 66| ≤ 1 / 1000 := by
  have v5 : (lit 5 : F32).val = 5 := by decide +kernel
  have v2 : (lit 2 : F32).val = 2 := by decide +kernel
  have v3 : (lit 3 : F32).val = 3 := by decide +kernel
  have v1 : (lit 1 : F32).val = 1 := by decide +kernel
  have e : exactPoly (lit 5) [lit 2, lit 3, lit 1] = 66 := by
    simp only [exactPoly, List.map_cons, List.map_nil, powerSum, v5, v2, v3, v1, List.length_cons, List.length_nil]
    norm_num
  have b : ∀ j ≤ 2, sizePoly (lit 5) (lit 2 :: [lit 3, lit 1].take j) ≤ 67 := by
    intro j hj
    interval_cases j <;>
      simp only [sizePoly, polyScale, List.take_zero, List.take_succ_cons, List.map_cons, List.map_nil, powerSum, v5, v2, v3, v1,
        List.length_cons, List.length_nil] <;> norm_num
  refine ⟨e, fun j hj => (b j hj).trans (by norm_num), ?_⟩
  have h := ((C139_float (lit 5) (by decide +kernel) (lit 2) [lit 3, lit 1]).2 (by simp) (by
    intro c hc
    fin_cases hc <;> decide +kernel) fun j hj => (b j hj).trans (by norm_num)).2
  rw [e] at h
  refine h.trans ?_
  have : sizePoly (lit 5) [lit 2, lit 3, lit 1] ≤ 67 := b 2 le_rfl
  simp only [List.length_cons, List.length_nil]
  norm_num
  linarith

end Zcm
