import Verif.Model.F32
import Verif.Model.Common
import Verif.Model.Geometric
import Verif.Spec.Optics

/-!
# Specification: marching along a ray through a scene of balls, as a caller writes it

Not a file of /repo. The balls are a centre and a radius each. The distance to the scene and one round of the loop are

```
float scene(p) { float m = distance(p, c0) - r0; for (ball : rest) m = min(m, distance(p, ball.c) - ball.r); return m; }
float h = scene(o + d * t);
if (!(h < eps)) t += h;
```
-/

namespace Zcm

/-- The distance from a point to the scene, for any distance-to-ball function `f`. -/
def sceneBy {P : Type} (f : P → F32) (b : P) (bs : List P) : F32 := bs.foldl (fun m c => F.min m (f c)) (f b)

/-- The distance from `p` to the balls `b :: bs`, `vec2`. -/
def scene2 (b : V2 F32 × F32) (bs : List (V2 F32 × F32)) (p : V2 F32) : F32 := sceneBy (fun c => V2.distance p c.1 - c.2) b bs

/-- The distance from `p` to the balls `b :: bs`, `vec3`. -/
def scene3 (b : V3 F32 × F32) (bs : List (V3 F32 × F32)) (p : V3 F32) : F32 := sceneBy (fun c => V3.distance p c.1 - c.2) b bs

/-- One round of the loop, `vec2`. -/
def march2 (b : V2 F32 × F32) (bs : List (V2 F32 × F32)) (o d : V2 F32) (eps t : F32) : F32 :=
  if scene2 b bs (o + d * t) < eps then t else t + scene2 b bs (o + d * t)

/-- One round of the loop, `vec3`. -/
def march3 (b : V3 F32 × F32) (bs : List (V3 F32 × F32)) (o d : V3 F32) (eps t : F32) : F32 :=
  if scene3 b bs (o + d * t) < eps then t else t + scene3 b bs (o + d * t)

/-- A ray from a finite start no farther than `M` from the origin in a direction of length 1 up to `2^-20`, and a threshold that is not
tiny compared with `M`. -/
structure GoodMarch {n : ℕ} (o d : Fin n → F32) (eps : F32) (M : ℝ) : Prop where
  fin_o : ∀ i, (o i).IsFin = true
  unit : AboutUnit d
  fin_eps : eps.IsFin = true
  M_ge : 1 / 2 ^ 16 ≤ M
  M_le : M ≤ 2 ^ 40
  o_le : ‖exactE o‖ ≤ M
  eps_ge : M / 2 ^ 16 ≤ (eps.val : ℝ)

/-- A finite ball whose centre is no farther than `M` from the origin and whose radius is at most `M`. -/
structure MarchBall {n : ℕ} (M : ℝ) (c : Fin n → F32) (r : F32) : Prop where
  fin_c : ∀ i, (c i).IsFin = true
  fin_r : r.IsFin = true
  c_le : ‖exactE c‖ ≤ M
  r_le : |(r.val : ℝ)| ≤ M

/-- How far the exact point of the ray at time `t` is from the exact ball; negative inside. -/
noncomputable def rayGap {n : ℕ} (o d c : Fin n → F32) (r : F32) (t : ℝ) : ℝ := ‖exactE o + t • exactE d - exactE c‖ - r.val

end Zcm
