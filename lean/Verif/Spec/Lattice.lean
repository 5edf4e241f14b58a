import Verif.Model.Common
import Verif.Spec.Line

/-!
# Specification: the greatest common divisor and the whole-numbered points of a segment, as a caller writes them

Not a file of /repo.
-/

namespace Zcm

/-- The loop: `while (p.y != 0) p = ivec2(p.y, p.x % p.y); return p.x;`, in at most `n` turns (`none`: not finished). -/
def gcdLoop : ℕ → V2 I32 → Res (Option I32)
  | 0, p => if p.y == I32.lit 0 then pure (some p.x) else pure none
  | n + 1, p =>
    if p.y == I32.lit 0 then pure (some p.x)
    else do
      let m ← I32.mod p.x p.y
      gcdLoop n ⟨p.y, m⟩

/-- The loop, then `ivec2 q = d / abs(g);`: the divisor `abs(g)` and the shortest step `q` in the direction of `d`. -/
def shortestStep (n : ℕ) (d : V2 I32) : Res (Option (I32 × V2 I32)) := do
  match ← gcdLoop n d with
  | none => pure none
  | some g => do
    let g ← I.abs g
    let q ← IV2.divS d g
    pure (some (g, q))

/-- `a + q * k` -/
def stepFrom (a q : V2 I32) (k : I32) : Res (V2 I32) := do IV2.add a (← IV2.mulS q k)

/-- `p` lies on the segment from `a` to `b`. -/
def OnSegment (a b p : V2 I32) : Prop :=
  areaZ a b p = 0 ∧ BetweenZ a.x.toInt b.x.toInt p.x.toInt ∧ BetweenZ a.y.toInt b.y.toInt p.y.toInt

end Zcm
