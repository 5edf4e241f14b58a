import Verif.Model.Common
import Verif.Spec.Raster

/-!
# Specification: drawing a line of pixels with integers only, as a caller writes it

Not a file of /repo.
-/

namespace Zcm

/-- One turn of the loop: `int e = err + err; ivec2 m(e + d.y >= 0 ? 1 : 0, e <= d.x ? 1 : 0); ivec2 g = d * ivec2(m.y, m.x);
err = err + (g.x - g.y); p = p + step * m;` -/
def lineTurn (step d p : V2 I32) (err : I32) : Res (V2 I32 × I32) := do
  let e ← I32.add err err
  let t ← I32.add e d.y
  let m : V2 I32 := ⟨if t < I32.lit 0 then I32.lit 0 else I32.lit 1, if d.x < e then I32.lit 0 else I32.lit 1⟩
  let g ← IV2.mul d ⟨m.y, m.x⟩
  let c ← I32.sub g.x g.y
  let err ← I32.add err c
  let s ← IV2.mul step m
  let p ← IV2.add p s
  pure (p, err)

/-- The loop: the pixels it plots in at most `n` turns. `for (;;) { plot(p); if (p == b) break; ... }` -/
def lineLoop (b step d : V2 I32) : ℕ → V2 I32 → I32 → Res (List (V2 I32))
  | 0, _, _ => pure []
  | n + 1, p, err =>
    if IV2.eq p b then pure [p]
    else do
      let r ← lineTurn step d p err
      let l ← lineLoop b step d n r.1 r.2
      pure (p :: l)

/-- The line from `a` to `b`: `ivec2 step(b.x < a.x ? -1 : 1, b.y < a.y ? -1 : 1); ivec2 d = abs(b - a); int err = d.x - d.y; ivec2 p = a;`
and the loop. -/
def drawLine (n : ℕ) (a b : V2 I32) : Res (List (V2 I32)) := do
  let step : V2 I32 := ⟨if b.x < a.x then I32.lit (-1) else I32.lit 1, if b.y < a.y then I32.lit (-1) else I32.lit 1⟩
  let d ← IV2.abs (← IV2.sub b a)
  let err ← I32.sub d.x d.y
  lineLoop b step d n a err

/-- A coordinate for which nothing overflows: from -2^28 to 2^28. -/
def LinePixel (p : V2 I32) : Prop := |p.x.toInt| ≤ 2 ^ 28 ∧ |p.y.toInt| ≤ 2 ^ 28

/-- The larger of the two distances from `a` to `p` along the axes. -/
def lineSteps (a p : V2 I32) : ℕ := max (p.x.toInt - a.x.toInt).natAbs (p.y.toInt - a.y.toInt).natAbs

/-- `p` lies between `a` and `b` in one coordinate. -/
def BetweenZ (a b p : ℤ) : Prop := min a b ≤ p ∧ p ≤ max a b

end Zcm
