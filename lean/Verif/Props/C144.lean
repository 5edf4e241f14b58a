import Verif.Lemmas.F32Motion
import Verif.Lemmas.F32Zero
import Verif.Model.Vec
import Verif.Spec.Coord
import Verif.Spec.SignedZero
import Mathlib.Tactic.FinCases
import Mathlib.Tactic.LinearCombination
import Mathlib.Tactic.IntervalCases

/-!
# C144  Motion computed step by step

`motion`, `exactMotion` and `GoodMotion` are in Spec/Motion.lean.
-/

set_option exponentiation.threshold 300

namespace Zcm

open F32

/-- `(p, v)` are an accurate position and velocity after the steps: finite, the velocity within an error that grows linearly, the position
within an error that grows quadratically with the number of steps. -/
def AccurateMotion (p v p0 v0 : F32) (steps : List (F32 × F32)) : Prop :=
  ∀ P V D : ℝ, GoodMotion p0 v0 steps P V D →
    Near v (exactMotion p0 v0 steps).2 (steps.length * (3.1 / 2 ^ 24 * V + 1 / 2 ^ 148)) ∧
    Near p (exactMotion p0 v0 steps).1
      (steps.length * (3.1 / 2 ^ 24 * P + 1 / 2 ^ 148) + 1.01 * steps.length ^ 2 * ((3.1 / 2 ^ 24 * V + 1 / 2 ^ 148) * D))

private theorem motion_map {V : Type} [HMul V F32 V] (ad : V → V → V) (c : V → F32) (h1 : ∀ x y, c (ad x y) = c x + c y)
    (h2 : ∀ (x : V) (w : F32), c (x * w) = c x * w) (p v : V) (l : List (V × F32)) :
    (c (motion ad p v l).1, c (motion ad p v l).2) = motion (· + ·) (c p) (c v) (stepsOf c l) := by
  induction l using List.reverseRecOn with
  | nil => rfl
  | append_singleton l f ih =>
    unfold stepsOf at *
    rw [List.map_append, List.map_singleton, motion_snoc, motion_snoc, ← ih]
    simp only [h1, h2]

private theorem accurate_of_map {V : Type} [HMul V F32 V] {ad : V → V → V} {c : V → F32} (h1 : ∀ x y, c (ad x y) = c x + c y)
    (h2 : ∀ (x : V) (w : F32), c (x * w) = c x * w) (p v : V) (l : List (V × F32)) :
    AccurateMotion (c (motion ad p v l).1) (c (motion ad p v l).2) (c p) (c v) (stepsOf c l) := fun P W D g => by
  have e := motion_map ad c h1 h2 p v l
  have := near_motion g
  rw [← e] at this
  exact this

/-- C144, `vec2`: the loop `v += a * dt; p += v * dt` is accurate in every component. -/
theorem C144_vec2 (p v : V2 F32) (steps : List (V2 F32 × F32)) (i : Fin 2) :
    AccurateMotion (coord (motion V2.addAssign p v steps).1 i) (coord (motion V2.addAssign p v steps).2 i) (coord p i) (coord v i)
      (stepsOf (coord · i) steps) :=
  accurate_of_map (c := (coord · i)) (fun _ _ => by fin_cases i <;> rfl) (fun _ _ => by fin_cases i <;> rfl) p v steps

/-- C144, `vec3` -/
theorem C144_vec3 (p v : V3 F32) (steps : List (V3 F32 × F32)) (i : Fin 3) :
    AccurateMotion (coord (motion V3.addAssign p v steps).1 i) (coord (motion V3.addAssign p v steps).2 i) (coord p i) (coord v i)
      (stepsOf (coord · i) steps) :=
  accurate_of_map (c := (coord · i)) (fun _ _ => by fin_cases i <;> rfl) (fun _ _ => by fin_cases i <;> rfl) p v steps

/-- C144, `vec4` -/
theorem C144_vec4 (p v : V4 F32) (steps : List (V4 F32 × F32)) (i : Fin 4) :
    AccurateMotion (coord (motion V4.addAssign p v steps).1 i) (coord (motion V4.addAssign p v steps).2 i) (coord p i) (coord v i)
      (stepsOf (coord · i) steps) :=
  accurate_of_map (c := (coord · i)) (fun _ _ => by fin_cases i <;> rfl) (fun _ _ => by fin_cases i <;> rfl) p v steps

/-! ## Without acceleration -/

private theorem coast {p v : F32} {l : List (F32 × F32)} (h : ∀ f ∈ l, IsZ f.1 ∧ f.2.IsFin = true) :
    SameNumber (motion (· + ·) p v l).2 v := by
  induction l using List.reverseRecOn with
  | nil => exact .inl rfl
  | append_singleton l f ih =>
    rw [motion_snoc]
    obtain ⟨z, w⟩ := h f (List.mem_append_right _ (List.mem_singleton.2 rfl))
    exact SameNumber.trans (.addZ (z.mulL w)) (ih fun s hs => h s (List.mem_append_left _ hs))

/-- C144, `vec3`: without acceleration in a coordinate the velocity in that coordinate stays the same number for ever, whatever the
(finite) time steps and however many. -/
theorem C144_coast_vec3 (p v : V3 F32) (steps : List (V3 F32 × F32)) (i : Fin 3)
    (h : ∀ f ∈ steps, (coord f.1 i).IsFin = true ∧ (coord f.1 i).val = 0 ∧ f.2.IsFin = true) :
    SameNumber (coord (motion V3.addAssign p v steps).2 i) (coord v i) := by
  have e := congrArg Prod.snd (motion_map V3.addAssign (coord · i) (fun _ _ => by fin_cases i <;> rfl) (fun _ _ => by fin_cases i <;> rfl)
    p v steps)
  simp only at e
  rw [e]
  refine coast fun f hf => ?_
  obtain ⟨g, hg, rfl⟩ := List.mem_map.1 hf
  obtain ⟨a, b, c⟩ := h g hg
  exact ⟨⟨a, b⟩, c⟩

/-- C144, `vec2` -/
theorem C144_coast_vec2 (p v : V2 F32) (steps : List (V2 F32 × F32)) (i : Fin 2)
    (h : ∀ f ∈ steps, (coord f.1 i).IsFin = true ∧ (coord f.1 i).val = 0 ∧ f.2.IsFin = true) :
    SameNumber (coord (motion V2.addAssign p v steps).2 i) (coord v i) := by
  have e := congrArg Prod.snd (motion_map V2.addAssign (coord · i) (fun _ _ => by fin_cases i <;> rfl) (fun _ _ => by fin_cases i <;> rfl)
    p v steps)
  simp only at e
  rw [e]
  refine coast fun f hf => ?_
  obtain ⟨g, hg, rfl⟩ := List.mem_map.1 hf
  obtain ⟨a, b, c⟩ := h g hg
  exact ⟨⟨a, b⟩, c⟩

/-! ## Falling -/

/-- The exact loop under constant acceleration: `v + n a dt` and `p + n v dt + n (n + 1) / 2 a dt^2`. -/
theorem C144_exact_constant (p v a dt : F32) (n : ℕ) :
    (exactMotion p v (List.replicate n (a, dt))).2 = v.val + n * (a.val * dt.val) ∧
    (exactMotion p v (List.replicate n (a, dt))).1 =
      p.val + n * (v.val * dt.val) + n * (n + 1) / 2 * (a.val * dt.val ^ 2) := by
  induction n with
  | zero => simp [exactMotion, motion]
  | succ n ih =>
    rw [List.replicate_succ', exactMotion_snoc, ih.1, ih.2]
    push_cast
    constructor <;> ring

/-! ## Non-vacuity -/

/-- 1000 steps of 1/64 of a second, falling from height 1000 with an acceleration of -10 -/
example : GoodMotion (lit 1000) (lit 0) (List.replicate 1000 (lit (-10), lit (1/64))) 2000 200 1 := by
  have vp : (lit 1000 : F32).val = 1000 := by decide +kernel
  have vv : (lit 0 : F32).val = 0 := by decide +kernel
  have va : (lit (-10) : F32).val = -10 := by decide +kernel
  have vd : (lit (1/64) : F32).val = 1/64 := by decide +kernel
  refine ⟨⟨by decide +kernel, by decide +kernel, fun f hf => ?_⟩, by rw [List.length_replicate]; norm_num, fun f hf => ?_, fun l hl => ?_,
    by norm_num, by norm_num, by norm_num⟩
  · rw [(List.mem_replicate.1 hf).2]
    exact ⟨by decide +kernel, by decide +kernel⟩
  · rw [(List.mem_replicate.1 hf).2, vd]
    norm_num
  · have k := hl.length_le
    rw [List.length_replicate] at k
    have e : l = List.replicate l.length (lit (-10), lit (1/64)) :=
      List.eq_replicate_iff.2 ⟨rfl, fun f hf => (List.mem_replicate.1 (hl.subset hf)).2⟩
    rw [e]
    obtain ⟨a, b⟩ := C144_exact_constant (lit 1000) (lit 0) (lit (-10)) (lit (1/64)) l.length
    rw [a, b, vp, vv, va, vd]
    have n0 : (0 : ℝ) ≤ l.length := Nat.cast_nonneg _
    have n1 : (l.length : ℝ) ≤ 1000 := by exact_mod_cast k
    push_cast
    generalize (l.length : ℝ) = n at *
    rw [abs_le, abs_le]
    refine ⟨⟨?_, ?_⟩, ?_, ?_⟩ <;> nlinarith

end Zcm
