-- run: cd lean && lake env lean --run <copy of this file named hw.lean> 300000
import Verif.Model.F32
open Zcm
set_option exponentiation.threshold 400

def ofBits (b : UInt32) : F32 :=
  let s := b ≥ 0x80000000
  let e := ((b >>> 23) &&& 0xff).toNat
  let m := (b &&& 0x7fffff).toNat
  if e = 255 then (if m = 0 then .inf s else .nan)
  else
    let k := if e = 0 then m else (m + 2 ^ 23) * 2 ^ (e - 1)
    F32.pack s k

def hw (f : Float32) : UInt32 := if f.isNaN then 0x7fc00000 else f.toBits
def md (x : F32) : UInt32 := ⟨x.bits⟩

/-- xorshift -/
def next (s : UInt64) : UInt64 :=
  let s := s ^^^ (s <<< 13)
  let s := s ^^^ (s >>> 7)
  s ^^^ (s <<< 17)

def specials : Array UInt32 := #[0, 0x80000000, 1, 0x80000001, 0x7f800000, 0xff800000, 0x7fc00000, 0x3f800000, 0xbf800000, 0x7f7fffff,
  0xff7fffff, 0x00800000, 0x007fffff, 0x3f000000, 0x3effffff, 0x4b000000, 0x4b000001, 0x4affffff, 0x3fc00000, 0x40200000, 0xbf000000, 0x34000000, 0x33800000, 0x33800001]

def pick (s : UInt64) : UInt32 :=
  let r := (s >>> 20).toUInt32
  match (s >>> 60).toNat % 4 with
  | 0 => specials[(r.toNat % specials.size)]!
  | 1 => r
  | 2 => (r &&& 0x83ffffff) ||| 0x3c000000   -- exponents near 0
  | _ => (r &&& 0xfffff000)                  -- short significands: ties

def main (args : List String) : IO Unit := do
  let n := (args.head!).toNat!
  let mut s : UInt64 := 88172645463325252
  let mut bad := 0
  let cnt := n
  for _ in [0:n] do
    s := next s
    let a := pick s
    s := next s
    let b0 := pick s
    s := next s
    -- sometimes a neighbour of a, to exercise cancellation and ties
    let b := if s % 5 = 0 then a + (s >>> 8).toUInt32 % 9 - 4 else b0
    let x := Float32.ofBits a
    let y := Float32.ofBits b
    let X := ofBits a
    let Y := ofBits b
    let tests : List (String × UInt32 × UInt32) := [
      ("id", hw x, md X), ("add", hw (x+y), md (X+Y)), ("sub", hw (x-y), md (X-Y)), ("mul", hw (x*y), md (X*Y)), ("div", hw (x/y), md (X/Y)),
      ("neg", hw (-x), md (-X)), ("sqrt", hw x.sqrt, md (FloatOps.sqrt X)), ("abs", hw x.abs, md (FloatOps.fabs X)),
      ("floor", hw x.floor, md (FloatOps.floor X)), ("ceil", hw x.ceil, md (FloatOps.ceil X)), ("round", hw x.round, md (FloatOps.round X)),
      ("lt", if x < y then 1 else 0, if X < Y then 1 else 0), ("le", if x ≤ y then 1 else 0, if X ≤ Y then 1 else 0),
      ("eq", if x == y then 1 else 0, if X == Y then 1 else 0),
      ("isnan", if x.isNaN then 1 else 0, if FloatOps.isnan X then 1 else 0), ("isinf", if x.isInf then 1 else 0, if FloatOps.isinf X then 1 else 0),
      -- double rounding trick: the float sum of float products is the double one rounded when exact
      ("fma-exact", (let d := x.toFloat * y.toFloat; hw d.toFloat32), md (FloatOps.fma X Y (F32.fin (X.sgn ^^ Y.sgn) 0 rep_zero)))]
    for (nm, h, m) in tests do
      if h != m then
        bad := bad + 1
        if bad < 20 then IO.println s!"{nm} {a} {b}: hardware {h} model {m}"
  IO.println s!"{cnt} pairs, {bad} disagreements"
