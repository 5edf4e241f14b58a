import Verif.Model.F32
import Verif.Model.Geometric
import Verif.Spec.Optics

/-!
# Specification: moving to a target by steps of a given length, as a caller writes it

Not a file of /repo. One round of the loop is

```
auto d = target - p;
float dist = length(d);
p = dist <= step ? target : p + d * (step / dist);
```
-/

namespace Zcm

/-- One round, `vec2`. -/
def approach2 (target : V2 F32) (step : F32) (p : V2 F32) : V2 F32 :=
  if V2.length (target - p) ≤ step then target else p + (target - p) * (step / V2.length (target - p))

/-- One round, `vec3`. -/
def approach3 (target : V3 F32) (step : F32) (p : V3 F32) : V3 F32 :=
  if V3.length (target - p) ≤ step then target else p + (target - p) * (step / V3.length (target - p))

/-- One round, `vec4`. -/
def approach4 (target : V4 F32) (step : F32) (p : V4 F32) : V4 F32 :=
  if V4.length (target - p) ≤ step then target else p + (target - p) * (step / V4.length (target - p))

/-- A start, a target and a step of ordinary size: everything is finite, and the step is not tiny compared with how far out the target
and the start are. -/
structure GoodApproach {n : ℕ} (target : Fin n → F32) (step : F32) (p : Fin n → F32) : Prop where
  fin_target : ∀ i, (target i).IsFin = true
  fin_p : ∀ i, (p i).IsFin = true
  fin_step : step.IsFin = true
  step_ge : 1 / 2 ^ 40 ≤ (step.val : ℝ)
  step_le : (step.val : ℝ) ≤ 2 ^ 20
  far : ‖exactE target‖ + ‖exactE target - exactE p‖ ≤ 2 ^ 19 * (step.val : ℝ)

end Zcm
