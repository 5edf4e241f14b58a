import Verif.Model.F32
import Verif.Model.Vec

/-!
# Specification: finding where a segment enters a region by halving it, as a caller writes it

Not a file of /repo. The loop is

```
for (;;) {
    auto m = (a + b) * 0.5f;
    if (m == a || m == b) break;
    if (inside(m)) b = m; else a = m;
}
```
-/

namespace Zcm

/-- The test for leaving the loop. -/
def bisectStops {P : Type} (mid : P → P → P) (same : P → P → Bool) (s : P × P) : Bool :=
  same (mid s.1 s.2) s.1 || same (mid s.1 s.2) s.2

/-- One round of the loop; after the test for leaving has succeeded nothing changes any more. -/
def bisectRound {P : Type} (mid : P → P → P) (same : P → P → Bool) (inside : P → Bool) (s : P × P) : P × P :=
  if bisectStops mid same s then s
  else if inside (mid s.1 s.2) then (s.1, mid s.1 s.2)
  else (mid s.1 s.2, s.2)

/-- `(a + b) * 0.5f` for `vec2`. -/
def half2 (a b : V2 F32) : V2 F32 := (a + b) * (lit 0.5 : F32)

/-- `(a + b) * 0.5f` for `vec3`. -/
def half3 (a b : V3 F32) : V3 F32 := (a + b) * (lit 0.5 : F32)

/-- `(a + b) * 0.5f` for `vec4`. -/
def half4 (a b : V4 F32) : V4 F32 := (a + b) * (lit 0.5 : F32)

end Zcm
