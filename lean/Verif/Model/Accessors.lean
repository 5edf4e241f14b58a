import Verif.Model.IVec

/-!
# Component accessors and swizzles

Model of include/zcm/detail/vec{2,3,4}_access.hpp and of the `union` member tables of
include/zcm/vec{2,3,4}.hpp and include/zcm/ivec{2,3,4}.hpp.  The tables below are transcribed
mechanically from the headers, one entry per declared member name.
-/

namespace Zcm

/-- A letter of a member name of the unions (include/zcm/vec4.hpp:51-54). -/
inductive Letter where
  | x | y | z | w | r | g | b | a | s | t | p | q
  deriving DecidableEq, Repr

/-- A vector of width 2, 3 or 4: the possible results of a swizzle. -/
inductive AnyV (β : Type) where
  | v2 (v : V2 β)
  | v3 (v : V3 β)
  | v4 (v : V4 β)
  deriving DecidableEq, Repr

/-- One `shuffle_accessor_N<T, vecM, indices...> name` member: its name, the width `M` of the
result type and the index pack. -/
structure Swizzle (n : ℕ) where
  name : List Letter
  target : ℕ
  idx : List (Fin n)
  deriving DecidableEq, Repr

/-- `V{_data[indices]...}`: vec2_access.hpp:132-134, vec3_access.hpp:139-141,
vec4_access.hpp:142-144.  `none`: the braced list does not have the width of `V`. -/
def Swizzle.read {β : Type} {n : ℕ} (sw : Swizzle n) (data : Fin n → β) : Option (AnyV β) :=
  match sw.target, sw.idx with
  | 2, [i, j] => some (.v2 ⟨data i, data j⟩)
  | 3, [i, j, k] => some (.v3 ⟨data i, data j, data k⟩)
  | 4, [i, j, k, l] => some (.v4 ⟨data i, data j, data k, data l⟩)
  | _, _ => none

/-- `format_as(shuffle_accessor_N)` (what a formatting library prints for `v.xy`): vec2_access.hpp:137-141,
vec3_access.hpp:144-148, vec4_access.hpp:147-151 -/
def Swizzle.format_as {β : Type} {n : ℕ} (sw : Swizzle n) (data : Fin n → β) : Option (AnyV β) := sw.read data

/-- `_data[i]` of `vec2`/`ivec2` (include/zcm/vec2.hpp, `_data[2]`) -/
def V2.data {β : Type} (v : V2 β) (i : Fin 2) : β :=
  match i with
  | 0 => v.x
  | 1 => v.y

/-- the vector whose `_data` is `f` -/
def V2.ofData {β : Type} (f : Fin 2 → β) : V2 β := ⟨f 0, f 1⟩

/-- `_data[i]` of `vec3`/`ivec3` (include/zcm/vec3.hpp, `_data[3]`) -/
def V3.data {β : Type} (v : V3 β) (i : Fin 3) : β :=
  match i with
  | 0 => v.x
  | 1 => v.y
  | 2 => v.z

/-- the vector whose `_data` is `f` -/
def V3.ofData {β : Type} (f : Fin 3 → β) : V3 β := ⟨f 0, f 1, f 2⟩

/-- `_data[i]` of `vec4`/`ivec4` (include/zcm/vec4.hpp, `_data[4]`) -/
def V4.data {β : Type} (v : V4 β) (i : Fin 4) : β :=
  match i with
  | 0 => v.x
  | 1 => v.y
  | 2 => v.z
  | 3 => v.w

/-- the vector whose `_data` is `f` -/
def V4.ofData {β : Type} (f : Fin 4 → β) : V4 β := ⟨f 0, f 1, f 2, f 3⟩

/-! ## scalar accessors: `scalar_accessor_N<T, index>`, one template for N = 2, 3, 4 -/

section
variable {n : ℕ} {β : Type}

/-- `operator T()` vec2_access.hpp:45-47, vec3_access.hpp:45-47, vec4_access.hpp:47-49 -/
def Acc.get (data : Fin n → β) (i : Fin n) : β := data i

/-- `format_as(scalar_accessor_N)`, `format_as(scalar_accessor_Ni)` (what a formatting library prints for `v.x`):
vec2_access.hpp:51-55 and 81-85, vec3_access.hpp:51-55 and 82-86, vec4_access.hpp:52-56 and 82-86 -/
def Acc.format_as (data : Fin n → β) (i : Fin n) : β := Acc.get data i

/-- `operator=(T)` vec2_access.hpp:29-31, vec3_access.hpp:30-32, vec4_access.hpp:32-34 -/
def Acc.assign (data : Fin n → β) (i : Fin n) (s : β) : Fin n → β := Function.update data i s

/-- `operator+=(T)` vec2_access.hpp:16-18, vec3_access.hpp:18-20, vec4_access.hpp:20-22 -/
def Acc.addAssign [Add β] (data : Fin n → β) (i : Fin n) (s : β) : Fin n → β :=
  Function.update data i (data i + s)

/-- `operator-=(T)` vec2_access.hpp:19-21, vec3_access.hpp:21-23, vec4_access.hpp:23-25 -/
def Acc.subAssign [Sub β] (data : Fin n → β) (i : Fin n) (s : β) : Fin n → β :=
  Function.update data i (data i - s)

/-- `operator*=(T)` vec2_access.hpp:22-24, vec3_access.hpp:24-26, vec4_access.hpp:26-28 -/
def Acc.mulAssign [Mul β] (data : Fin n → β) (i : Fin n) (s : β) : Fin n → β :=
  Function.update data i (data i * s)

/-- `operator/=(T)` vec2_access.hpp:25-27, vec3_access.hpp:27-29, vec4_access.hpp:29-31 -/
def Acc.divAssign [Div β] (data : Fin n → β) (i : Fin n) (s : β) : Fin n → β :=
  Function.update data i (data i / s)

/-- prefix `++` vec2_access.hpp:32-34, vec3_access.hpp:33-35, vec4_access.hpp:35-37:
(array afterwards, value of the returned reference) -/
def Acc.preInc [Add β] [FloatOps β] (data : Fin n → β) (i : Fin n) : (Fin n → β) × β :=
  let data := Function.update data i (data i + lit 1)
  (data, data i)

/-- postfix `++` vec2_access.hpp:35-37, vec3_access.hpp:36-38, vec4_access.hpp:38-40 -/
def Acc.postInc [Add β] [FloatOps β] (data : Fin n → β) (i : Fin n) : (Fin n → β) × β :=
  let old := data i
  (Function.update data i (data i + lit 1), old)

/-- prefix `--` vec2_access.hpp:38-40, vec3_access.hpp:39-41, vec4_access.hpp:41-43 -/
def Acc.preDec [Sub β] [FloatOps β] (data : Fin n → β) (i : Fin n) : (Fin n → β) × β :=
  let data := Function.update data i (data i - lit 1)
  (data, data i)

/-- postfix `--` vec2_access.hpp:41-43, vec3_access.hpp:42-44, vec4_access.hpp:44-46 -/
def Acc.postDec [Sub β] [FloatOps β] (data : Fin n → β) (i : Fin n) : (Fin n → β) × β :=
  let old := data i
  (Function.update data i (data i - lit 1), old)

/-- `a.m = b.m` where both sides are the same accessor type: overload resolution prefers the
implicitly declared copy assignment `scalar_accessor_N& operator=(const scalar_accessor_N&)` of
vec2_access.hpp:11-48, vec3_access.hpp:13-48, vec4_access.hpp:15-50 (no conversion) over
`operator=(T)` (user conversion).  It copies the only data member, the whole array. -/
def Acc.copyAssign (_data src : Fin n → β) (_i : Fin n) : Fin n → β := src

/-- The statement `a.m = b.m'`: the accessor types are the same exactly when the indices are
equal, and then copy assignment is chosen; otherwise the right side converts to `T`.
(vecN_access.hpp as above.)  For `ivec` only the case of equal indices compiles, because
`scalar_accessor_Ni` hides the inherited `operator=(T)`. -/
def Acc.assignFrom (data : Fin n → β) (i : Fin n) (src : Fin n → β) (j : Fin n) : Fin n → β :=
  if i = j then Acc.copyAssign data src i else Acc.assign data i (Acc.get src j)

/-- `operator+=(int32_t)` of `scalar_accessor_Ni`: vec2_access.hpp:16-18, vec3_access.hpp:18-20,
vec4_access.hpp:20-22 (undefined exactly when the built-in `int` operator is) -/
def Acc.addAssignI (data : Fin n → I32) (i : Fin n) (s : I32) : Res (Fin n → I32) := do
  let r ← I32.add (data i) s
  pure (Function.update data i r)

/-- `operator-=(int32_t)` of `scalar_accessor_Ni`: vec2_access.hpp:19-21, vec3_access.hpp:21-23,
vec4_access.hpp:23-25 (undefined exactly when the built-in `int` operator is) -/
def Acc.subAssignI (data : Fin n → I32) (i : Fin n) (s : I32) : Res (Fin n → I32) := do
  let r ← I32.sub (data i) s
  pure (Function.update data i r)

/-- `operator*=(int32_t)` of `scalar_accessor_Ni`: vec2_access.hpp:22-24, vec3_access.hpp:24-26,
vec4_access.hpp:26-28 (undefined exactly when the built-in `int` operator is) -/
def Acc.mulAssignI (data : Fin n → I32) (i : Fin n) (s : I32) : Res (Fin n → I32) := do
  let r ← I32.mul (data i) s
  pure (Function.update data i r)

/-- `operator/=(int32_t)` of `scalar_accessor_Ni`: vec2_access.hpp:25-27, vec3_access.hpp:27-29,
vec4_access.hpp:29-31 (undefined exactly when the built-in `int` operator is) -/
def Acc.divAssignI (data : Fin n → I32) (i : Fin n) (s : I32) : Res (Fin n → I32) := do
  let r ← I32.div (data i) s
  pure (Function.update data i r)

/-- `operator%=(int32_t)` of `scalar_accessor_Ni`: vec2_access.hpp:61-63, vec3_access.hpp:61-63,
vec4_access.hpp:62-64 (undefined exactly when the built-in `int` operator is) -/
def Acc.modAssignI (data : Fin n → I32) (i : Fin n) (s : I32) : Res (Fin n → I32) := do
  let r ← I32.mod (data i) s
  pure (Function.update data i r)

/-- `operator|=(int32_t)` of `scalar_accessor_Ni`: vec2_access.hpp:64-66, vec3_access.hpp:64-66,
vec4_access.hpp:65-67 (undefined exactly when the built-in `int` operator is) -/
def Acc.orAssignI (data : Fin n → I32) (i : Fin n) (s : I32) : Res (Fin n → I32) := do
  let r ← I32.or (data i) s
  pure (Function.update data i r)

/-- `operator&=(int32_t)` of `scalar_accessor_Ni`: vec2_access.hpp:67-69, vec3_access.hpp:67-69,
vec4_access.hpp:68-70 (undefined exactly when the built-in `int` operator is) -/
def Acc.andAssignI (data : Fin n → I32) (i : Fin n) (s : I32) : Res (Fin n → I32) := do
  let r ← I32.and (data i) s
  pure (Function.update data i r)

/-- `operator^=(int32_t)` of `scalar_accessor_Ni`: vec2_access.hpp:70-72, vec3_access.hpp:70-72,
vec4_access.hpp:71-73 (undefined exactly when the built-in `int` operator is) -/
def Acc.xorAssignI (data : Fin n → I32) (i : Fin n) (s : I32) : Res (Fin n → I32) := do
  let r ← I32.xor (data i) s
  pure (Function.update data i r)

/-- `operator<<=(int32_t)` of `scalar_accessor_Ni`: vec2_access.hpp:73-75, vec3_access.hpp:73-75,
vec4_access.hpp:74-76 (undefined exactly when the built-in `int` operator is) -/
def Acc.shlAssignI (data : Fin n → I32) (i : Fin n) (s : I32) : Res (Fin n → I32) := do
  let r ← I32.shl (data i) s
  pure (Function.update data i r)

/-- `operator>>=(int32_t)` of `scalar_accessor_Ni`: vec2_access.hpp:76-78, vec3_access.hpp:76-78,
vec4_access.hpp:77-79 (undefined exactly when the built-in `int` operator is) -/
def Acc.shrAssignI (data : Fin n → I32) (i : Fin n) (s : I32) : Res (Fin n → I32) := do
  let r ← I32.shr (data i) s
  pure (Function.update data i r)

/-- prefix `++` on `int32_t`: vec2_access.hpp:32-34, vec3_access.hpp:33-35, vec4_access.hpp:35-37:
(array afterwards, value of the expression) -/
def Acc.preIncI (data : Fin n → I32) (i : Fin n) : Res ((Fin n → I32) × I32) := do
  let r ← I32.add (data i) (I32.lit 1)
  pure (Function.update data i r, r)

/-- postfix `++` on `int32_t`: vec2_access.hpp:35-37, vec3_access.hpp:36-38, vec4_access.hpp:38-40:
(array afterwards, value of the expression) -/
def Acc.postIncI (data : Fin n → I32) (i : Fin n) : Res ((Fin n → I32) × I32) := do
  let r ← I32.add (data i) (I32.lit 1)
  pure (Function.update data i r, data i)

/-- prefix `--` on `int32_t`: vec2_access.hpp:38-40, vec3_access.hpp:39-41, vec4_access.hpp:41-43:
(array afterwards, value of the expression) -/
def Acc.preDecI (data : Fin n → I32) (i : Fin n) : Res ((Fin n → I32) × I32) := do
  let r ← I32.sub (data i) (I32.lit 1)
  pure (Function.update data i r, r)

/-- postfix `--` on `int32_t`: vec2_access.hpp:41-43, vec3_access.hpp:42-44, vec4_access.hpp:44-46:
(array afterwards, value of the expression) -/
def Acc.postDecI (data : Fin n → I32) (i : Fin n) : Res ((Fin n → I32) × I32) := do
  let r ← I32.sub (data i) (I32.lit 1)
  pure (Function.update data i r, data i)

/-- `a.m = b.m` for two swizzle members of the same `shuffle_accessor_N` type
(vec2_access.hpp:126-135, vec3_access.hpp:133-142, vec4_access.hpp:138-145): no assignment operator
is declared, so the implicit one copies the whole array `_data`. -/
def Swizzle.copyAssign (_sw : Swizzle n) (_data src : Fin n → β) : Fin n → β := src

end

/-- scalar members of `vec2`: include/zcm/vec2.hpp:40-41 -/
def V2.scalars : List (Letter × Fin 2) :=
  [(.x, 0), (.r, 0), (.s, 0), (.y, 1), (.g, 1), (.t, 1)]

/-- swizzle members of `vec2`: include/zcm/vec2.hpp:42-46 -/
def V2.swizzles : List (Swizzle 2) :=
  [⟨[.x, .x], 2, [0, 0]⟩,
   ⟨[.r, .r], 2, [0, 0]⟩,
   ⟨[.s, .s], 2, [0, 0]⟩,
   ⟨[.y, .x], 2, [1, 0]⟩,
   ⟨[.g, .r], 2, [1, 0]⟩,
   ⟨[.t, .s], 2, [1, 0]⟩,
   ⟨[.x, .y], 2, [0, 1]⟩,
   ⟨[.r, .g], 2, [0, 1]⟩,
   ⟨[.s, .t], 2, [0, 1]⟩,
   ⟨[.y, .y], 2, [1, 1]⟩,
   ⟨[.g, .g], 2, [1, 1]⟩,
   ⟨[.t, .t], 2, [1, 1]⟩]

/-- scalar members of `vec3`: include/zcm/vec3.hpp:43-45 -/
def V3.scalars : List (Letter × Fin 3) :=
  [(.x, 0), (.r, 0), (.s, 0), (.y, 1), (.g, 1), (.t, 1), (.z, 2), (.b, 2), (.p, 2)]

/-- swizzle members of `vec3`: include/zcm/vec3.hpp:46-84 -/
def V3.swizzles : List (Swizzle 3) :=
  [⟨[.x, .x], 2, [0, 0]⟩,
   ⟨[.r, .r], 2, [0, 0]⟩,
   ⟨[.s, .s], 2, [0, 0]⟩,
   ⟨[.y, .x], 2, [1, 0]⟩,
   ⟨[.g, .r], 2, [1, 0]⟩,
   ⟨[.t, .s], 2, [1, 0]⟩,
   ⟨[.z, .x], 2, [2, 0]⟩,
   ⟨[.b, .r], 2, [2, 0]⟩,
   ⟨[.p, .s], 2, [2, 0]⟩,
   ⟨[.x, .y], 2, [0, 1]⟩,
   ⟨[.r, .g], 2, [0, 1]⟩,
   ⟨[.s, .t], 2, [0, 1]⟩,
   ⟨[.y, .y], 2, [1, 1]⟩,
   ⟨[.g, .g], 2, [1, 1]⟩,
   ⟨[.t, .t], 2, [1, 1]⟩,
   ⟨[.z, .y], 2, [2, 1]⟩,
   ⟨[.b, .g], 2, [2, 1]⟩,
   ⟨[.p, .t], 2, [2, 1]⟩,
   ⟨[.x, .z], 2, [0, 2]⟩,
   ⟨[.r, .b], 2, [0, 2]⟩,
   ⟨[.s, .p], 2, [0, 2]⟩,
   ⟨[.y, .z], 2, [1, 2]⟩,
   ⟨[.g, .b], 2, [1, 2]⟩,
   ⟨[.t, .p], 2, [1, 2]⟩,
   ⟨[.z, .z], 2, [2, 2]⟩,
   ⟨[.b, .b], 2, [2, 2]⟩,
   ⟨[.p, .p], 2, [2, 2]⟩,
   ⟨[.x, .x, .x], 3, [0, 0, 0]⟩,
   ⟨[.r, .r, .r], 3, [0, 0, 0]⟩,
   ⟨[.s, .s, .s], 3, [0, 0, 0]⟩,
   ⟨[.y, .x, .x], 3, [1, 0, 0]⟩,
   ⟨[.g, .r, .r], 3, [1, 0, 0]⟩,
   ⟨[.t, .s, .s], 3, [1, 0, 0]⟩,
   ⟨[.z, .x, .x], 3, [2, 0, 0]⟩,
   ⟨[.b, .r, .r], 3, [2, 0, 0]⟩,
   ⟨[.p, .s, .s], 3, [2, 0, 0]⟩,
   ⟨[.x, .y, .x], 3, [0, 1, 0]⟩,
   ⟨[.r, .g, .r], 3, [0, 1, 0]⟩,
   ⟨[.s, .t, .s], 3, [0, 1, 0]⟩,
   ⟨[.y, .y, .x], 3, [1, 1, 0]⟩,
   ⟨[.g, .g, .r], 3, [1, 1, 0]⟩,
   ⟨[.t, .t, .s], 3, [1, 1, 0]⟩,
   ⟨[.z, .y, .x], 3, [2, 1, 0]⟩,
   ⟨[.b, .g, .r], 3, [2, 1, 0]⟩,
   ⟨[.p, .t, .s], 3, [2, 1, 0]⟩,
   ⟨[.x, .z, .x], 3, [0, 2, 0]⟩,
   ⟨[.r, .b, .r], 3, [0, 2, 0]⟩,
   ⟨[.s, .p, .s], 3, [0, 2, 0]⟩,
   ⟨[.y, .z, .x], 3, [1, 2, 0]⟩,
   ⟨[.g, .b, .r], 3, [1, 2, 0]⟩,
   ⟨[.t, .p, .s], 3, [1, 2, 0]⟩,
   ⟨[.z, .z, .x], 3, [2, 2, 0]⟩,
   ⟨[.b, .b, .r], 3, [2, 2, 0]⟩,
   ⟨[.p, .p, .s], 3, [2, 2, 0]⟩,
   ⟨[.x, .x, .y], 3, [0, 0, 1]⟩,
   ⟨[.r, .r, .g], 3, [0, 0, 1]⟩,
   ⟨[.s, .s, .t], 3, [0, 0, 1]⟩,
   ⟨[.y, .x, .y], 3, [1, 0, 1]⟩,
   ⟨[.g, .r, .g], 3, [1, 0, 1]⟩,
   ⟨[.t, .s, .t], 3, [1, 0, 1]⟩,
   ⟨[.z, .x, .y], 3, [2, 0, 1]⟩,
   ⟨[.b, .r, .g], 3, [2, 0, 1]⟩,
   ⟨[.p, .s, .t], 3, [2, 0, 1]⟩,
   ⟨[.x, .y, .y], 3, [0, 1, 1]⟩,
   ⟨[.r, .g, .g], 3, [0, 1, 1]⟩,
   ⟨[.s, .t, .t], 3, [0, 1, 1]⟩,
   ⟨[.y, .y, .y], 3, [1, 1, 1]⟩,
   ⟨[.g, .g, .g], 3, [1, 1, 1]⟩,
   ⟨[.t, .t, .t], 3, [1, 1, 1]⟩,
   ⟨[.z, .y, .y], 3, [2, 1, 1]⟩,
   ⟨[.b, .g, .g], 3, [2, 1, 1]⟩,
   ⟨[.p, .t, .t], 3, [2, 1, 1]⟩,
   ⟨[.x, .z, .y], 3, [0, 2, 1]⟩,
   ⟨[.r, .b, .g], 3, [0, 2, 1]⟩,
   ⟨[.s, .p, .t], 3, [0, 2, 1]⟩,
   ⟨[.y, .z, .y], 3, [1, 2, 1]⟩,
   ⟨[.g, .b, .g], 3, [1, 2, 1]⟩,
   ⟨[.t, .p, .t], 3, [1, 2, 1]⟩,
   ⟨[.z, .z, .y], 3, [2, 2, 1]⟩,
   ⟨[.b, .b, .g], 3, [2, 2, 1]⟩,
   ⟨[.p, .p, .t], 3, [2, 2, 1]⟩,
   ⟨[.x, .x, .z], 3, [0, 0, 2]⟩,
   ⟨[.r, .r, .b], 3, [0, 0, 2]⟩,
   ⟨[.s, .s, .p], 3, [0, 0, 2]⟩,
   ⟨[.y, .x, .z], 3, [1, 0, 2]⟩,
   ⟨[.g, .r, .b], 3, [1, 0, 2]⟩,
   ⟨[.t, .s, .p], 3, [1, 0, 2]⟩,
   ⟨[.z, .x, .z], 3, [2, 0, 2]⟩,
   ⟨[.b, .r, .b], 3, [2, 0, 2]⟩,
   ⟨[.p, .s, .p], 3, [2, 0, 2]⟩,
   ⟨[.x, .y, .z], 3, [0, 1, 2]⟩,
   ⟨[.r, .g, .b], 3, [0, 1, 2]⟩,
   ⟨[.s, .t, .p], 3, [0, 1, 2]⟩,
   ⟨[.y, .y, .z], 3, [1, 1, 2]⟩,
   ⟨[.g, .g, .b], 3, [1, 1, 2]⟩,
   ⟨[.t, .t, .p], 3, [1, 1, 2]⟩,
   ⟨[.z, .y, .z], 3, [2, 1, 2]⟩,
   ⟨[.b, .g, .b], 3, [2, 1, 2]⟩,
   ⟨[.p, .t, .p], 3, [2, 1, 2]⟩,
   ⟨[.x, .z, .z], 3, [0, 2, 2]⟩,
   ⟨[.r, .b, .b], 3, [0, 2, 2]⟩,
   ⟨[.s, .p, .p], 3, [0, 2, 2]⟩,
   ⟨[.y, .z, .z], 3, [1, 2, 2]⟩,
   ⟨[.g, .b, .b], 3, [1, 2, 2]⟩,
   ⟨[.t, .p, .p], 3, [1, 2, 2]⟩,
   ⟨[.z, .z, .z], 3, [2, 2, 2]⟩,
   ⟨[.b, .b, .b], 3, [2, 2, 2]⟩,
   ⟨[.p, .p, .p], 3, [2, 2, 2]⟩]

/-- scalar members of `vec4`: include/zcm/vec4.hpp:51-54 -/
def V4.scalars : List (Letter × Fin 4) :=
  [(.x, 0), (.r, 0), (.s, 0), (.y, 1), (.g, 1), (.t, 1), (.z, 2), (.b, 2), (.p, 2), (.w, 3), (.a, 3), (.q, 3)]

/-- swizzle members of `vec4`: include/zcm/vec4.hpp:55-394 -/
def V4.swizzles : List (Swizzle 4) :=
  [⟨[.x, .x], 2, [0, 0]⟩,
   ⟨[.r, .r], 2, [0, 0]⟩,
   ⟨[.s, .s], 2, [0, 0]⟩,
   ⟨[.y, .x], 2, [1, 0]⟩,
   ⟨[.g, .r], 2, [1, 0]⟩,
   ⟨[.t, .s], 2, [1, 0]⟩,
   ⟨[.z, .x], 2, [2, 0]⟩,
   ⟨[.b, .r], 2, [2, 0]⟩,
   ⟨[.p, .s], 2, [2, 0]⟩,
   ⟨[.w, .x], 2, [3, 0]⟩,
   ⟨[.a, .r], 2, [3, 0]⟩,
   ⟨[.q, .s], 2, [3, 0]⟩,
   ⟨[.x, .y], 2, [0, 1]⟩,
   ⟨[.r, .g], 2, [0, 1]⟩,
   ⟨[.s, .t], 2, [0, 1]⟩,
   ⟨[.y, .y], 2, [1, 1]⟩,
   ⟨[.g, .g], 2, [1, 1]⟩,
   ⟨[.t, .t], 2, [1, 1]⟩,
   ⟨[.z, .y], 2, [2, 1]⟩,
   ⟨[.b, .g], 2, [2, 1]⟩,
   ⟨[.p, .t], 2, [2, 1]⟩,
   ⟨[.w, .y], 2, [3, 1]⟩,
   ⟨[.a, .g], 2, [3, 1]⟩,
   ⟨[.q, .t], 2, [3, 1]⟩,
   ⟨[.x, .z], 2, [0, 2]⟩,
   ⟨[.r, .b], 2, [0, 2]⟩,
   ⟨[.s, .p], 2, [0, 2]⟩,
   ⟨[.y, .z], 2, [1, 2]⟩,
   ⟨[.g, .b], 2, [1, 2]⟩,
   ⟨[.t, .p], 2, [1, 2]⟩,
   ⟨[.z, .z], 2, [2, 2]⟩,
   ⟨[.b, .b], 2, [2, 2]⟩,
   ⟨[.p, .p], 2, [2, 2]⟩,
   ⟨[.w, .z], 2, [3, 2]⟩,
   ⟨[.a, .b], 2, [3, 2]⟩,
   ⟨[.q, .p], 2, [3, 2]⟩,
   ⟨[.x, .w], 2, [0, 3]⟩,
   ⟨[.r, .a], 2, [0, 3]⟩,
   ⟨[.s, .q], 2, [0, 3]⟩,
   ⟨[.y, .w], 2, [1, 3]⟩,
   ⟨[.g, .a], 2, [1, 3]⟩,
   ⟨[.t, .q], 2, [1, 3]⟩,
   ⟨[.z, .w], 2, [2, 3]⟩,
   ⟨[.b, .a], 2, [2, 3]⟩,
   ⟨[.p, .q], 2, [2, 3]⟩,
   ⟨[.w, .w], 2, [3, 3]⟩,
   ⟨[.a, .a], 2, [3, 3]⟩,
   ⟨[.q, .q], 2, [3, 3]⟩,
   ⟨[.x, .x, .x], 3, [0, 0, 0]⟩,
   ⟨[.r, .r, .r], 3, [0, 0, 0]⟩,
   ⟨[.s, .s, .s], 3, [0, 0, 0]⟩,
   ⟨[.y, .x, .x], 3, [1, 0, 0]⟩,
   ⟨[.g, .r, .r], 3, [1, 0, 0]⟩,
   ⟨[.t, .s, .s], 3, [1, 0, 0]⟩,
   ⟨[.z, .x, .x], 3, [2, 0, 0]⟩,
   ⟨[.b, .r, .r], 3, [2, 0, 0]⟩,
   ⟨[.p, .s, .s], 3, [2, 0, 0]⟩,
   ⟨[.w, .x, .x], 3, [3, 0, 0]⟩,
   ⟨[.a, .r, .r], 3, [3, 0, 0]⟩,
   ⟨[.q, .s, .s], 3, [3, 0, 0]⟩,
   ⟨[.x, .y, .x], 3, [0, 1, 0]⟩,
   ⟨[.r, .g, .r], 3, [0, 1, 0]⟩,
   ⟨[.s, .t, .s], 3, [0, 1, 0]⟩,
   ⟨[.y, .y, .x], 3, [1, 1, 0]⟩,
   ⟨[.g, .g, .r], 3, [1, 1, 0]⟩,
   ⟨[.t, .t, .s], 3, [1, 1, 0]⟩,
   ⟨[.z, .y, .x], 3, [2, 1, 0]⟩,
   ⟨[.b, .g, .r], 3, [2, 1, 0]⟩,
   ⟨[.p, .t, .s], 3, [2, 1, 0]⟩,
   ⟨[.w, .y, .x], 3, [3, 1, 0]⟩,
   ⟨[.a, .g, .r], 3, [3, 1, 0]⟩,
   ⟨[.q, .t, .s], 3, [3, 1, 0]⟩,
   ⟨[.x, .z, .x], 3, [0, 2, 0]⟩,
   ⟨[.r, .b, .r], 3, [0, 2, 0]⟩,
   ⟨[.s, .p, .s], 3, [0, 2, 0]⟩,
   ⟨[.y, .z, .x], 3, [1, 2, 0]⟩,
   ⟨[.g, .b, .r], 3, [1, 2, 0]⟩,
   ⟨[.t, .p, .s], 3, [1, 2, 0]⟩,
   ⟨[.z, .z, .x], 3, [2, 2, 0]⟩,
   ⟨[.b, .b, .r], 3, [2, 2, 0]⟩,
   ⟨[.p, .p, .s], 3, [2, 2, 0]⟩,
   ⟨[.w, .z, .x], 3, [3, 2, 0]⟩,
   ⟨[.a, .b, .r], 3, [3, 2, 0]⟩,
   ⟨[.q, .p, .s], 3, [3, 2, 0]⟩,
   ⟨[.x, .w, .x], 3, [0, 3, 0]⟩,
   ⟨[.r, .a, .r], 3, [0, 3, 0]⟩,
   ⟨[.s, .q, .s], 3, [0, 3, 0]⟩,
   ⟨[.y, .w, .x], 3, [1, 3, 0]⟩,
   ⟨[.g, .a, .r], 3, [1, 3, 0]⟩,
   ⟨[.t, .q, .s], 3, [1, 3, 0]⟩,
   ⟨[.z, .w, .x], 3, [2, 3, 0]⟩,
   ⟨[.b, .a, .r], 3, [2, 3, 0]⟩,
   ⟨[.p, .q, .s], 3, [2, 3, 0]⟩,
   ⟨[.w, .w, .x], 3, [3, 3, 0]⟩,
   ⟨[.a, .a, .r], 3, [3, 3, 0]⟩,
   ⟨[.q, .q, .s], 3, [3, 3, 0]⟩,
   ⟨[.x, .x, .y], 3, [0, 0, 1]⟩,
   ⟨[.r, .r, .g], 3, [0, 0, 1]⟩,
   ⟨[.s, .s, .t], 3, [0, 0, 1]⟩,
   ⟨[.y, .x, .y], 3, [1, 0, 1]⟩,
   ⟨[.g, .r, .g], 3, [1, 0, 1]⟩,
   ⟨[.t, .s, .t], 3, [1, 0, 1]⟩,
   ⟨[.z, .x, .y], 3, [2, 0, 1]⟩,
   ⟨[.b, .r, .g], 3, [2, 0, 1]⟩,
   ⟨[.p, .s, .t], 3, [2, 0, 1]⟩,
   ⟨[.w, .x, .y], 3, [3, 0, 1]⟩,
   ⟨[.a, .r, .g], 3, [3, 0, 1]⟩,
   ⟨[.q, .s, .t], 3, [3, 0, 1]⟩,
   ⟨[.x, .y, .y], 3, [0, 1, 1]⟩,
   ⟨[.r, .g, .g], 3, [0, 1, 1]⟩,
   ⟨[.s, .t, .t], 3, [0, 1, 1]⟩,
   ⟨[.y, .y, .y], 3, [1, 1, 1]⟩,
   ⟨[.g, .g, .g], 3, [1, 1, 1]⟩,
   ⟨[.t, .t, .t], 3, [1, 1, 1]⟩,
   ⟨[.z, .y, .y], 3, [2, 1, 1]⟩,
   ⟨[.b, .g, .g], 3, [2, 1, 1]⟩,
   ⟨[.p, .t, .t], 3, [2, 1, 1]⟩,
   ⟨[.w, .y, .y], 3, [3, 1, 1]⟩,
   ⟨[.a, .g, .g], 3, [3, 1, 1]⟩,
   ⟨[.q, .t, .t], 3, [3, 1, 1]⟩,
   ⟨[.x, .z, .y], 3, [0, 2, 1]⟩,
   ⟨[.r, .b, .g], 3, [0, 2, 1]⟩,
   ⟨[.s, .p, .t], 3, [0, 2, 1]⟩,
   ⟨[.y, .z, .y], 3, [1, 2, 1]⟩,
   ⟨[.g, .b, .g], 3, [1, 2, 1]⟩,
   ⟨[.t, .p, .t], 3, [1, 2, 1]⟩,
   ⟨[.z, .z, .y], 3, [2, 2, 1]⟩,
   ⟨[.b, .b, .g], 3, [2, 2, 1]⟩,
   ⟨[.p, .p, .t], 3, [2, 2, 1]⟩,
   ⟨[.w, .z, .y], 3, [3, 2, 1]⟩,
   ⟨[.a, .b, .g], 3, [3, 2, 1]⟩,
   ⟨[.q, .p, .t], 3, [3, 2, 1]⟩,
   ⟨[.x, .w, .y], 3, [0, 3, 1]⟩,
   ⟨[.r, .a, .g], 3, [0, 3, 1]⟩,
   ⟨[.s, .q, .t], 3, [0, 3, 1]⟩,
   ⟨[.y, .w, .y], 3, [1, 3, 1]⟩,
   ⟨[.g, .a, .g], 3, [1, 3, 1]⟩,
   ⟨[.t, .q, .t], 3, [1, 3, 1]⟩,
   ⟨[.z, .w, .y], 3, [2, 3, 1]⟩,
   ⟨[.b, .a, .g], 3, [2, 3, 1]⟩,
   ⟨[.p, .q, .t], 3, [2, 3, 1]⟩,
   ⟨[.w, .w, .y], 3, [3, 3, 1]⟩,
   ⟨[.a, .a, .g], 3, [3, 3, 1]⟩,
   ⟨[.q, .q, .t], 3, [3, 3, 1]⟩,
   ⟨[.x, .x, .z], 3, [0, 0, 2]⟩,
   ⟨[.r, .r, .b], 3, [0, 0, 2]⟩,
   ⟨[.s, .s, .p], 3, [0, 0, 2]⟩,
   ⟨[.y, .x, .z], 3, [1, 0, 2]⟩,
   ⟨[.g, .r, .b], 3, [1, 0, 2]⟩,
   ⟨[.t, .s, .p], 3, [1, 0, 2]⟩,
   ⟨[.z, .x, .z], 3, [2, 0, 2]⟩,
   ⟨[.b, .r, .b], 3, [2, 0, 2]⟩,
   ⟨[.p, .s, .p], 3, [2, 0, 2]⟩,
   ⟨[.w, .x, .z], 3, [3, 0, 2]⟩,
   ⟨[.a, .r, .b], 3, [3, 0, 2]⟩,
   ⟨[.q, .s, .p], 3, [3, 0, 2]⟩,
   ⟨[.x, .y, .z], 3, [0, 1, 2]⟩,
   ⟨[.r, .g, .b], 3, [0, 1, 2]⟩,
   ⟨[.s, .t, .p], 3, [0, 1, 2]⟩,
   ⟨[.y, .y, .z], 3, [1, 1, 2]⟩,
   ⟨[.g, .g, .b], 3, [1, 1, 2]⟩,
   ⟨[.t, .t, .p], 3, [1, 1, 2]⟩,
   ⟨[.z, .y, .z], 3, [2, 1, 2]⟩,
   ⟨[.b, .g, .b], 3, [2, 1, 2]⟩,
   ⟨[.p, .t, .p], 3, [2, 1, 2]⟩,
   ⟨[.w, .y, .z], 3, [3, 1, 2]⟩,
   ⟨[.a, .g, .b], 3, [3, 1, 2]⟩,
   ⟨[.q, .t, .p], 3, [3, 1, 2]⟩,
   ⟨[.x, .z, .z], 3, [0, 2, 2]⟩,
   ⟨[.r, .b, .b], 3, [0, 2, 2]⟩,
   ⟨[.s, .p, .p], 3, [0, 2, 2]⟩,
   ⟨[.y, .z, .z], 3, [1, 2, 2]⟩,
   ⟨[.g, .b, .b], 3, [1, 2, 2]⟩,
   ⟨[.t, .p, .p], 3, [1, 2, 2]⟩,
   ⟨[.z, .z, .z], 3, [2, 2, 2]⟩,
   ⟨[.b, .b, .b], 3, [2, 2, 2]⟩,
   ⟨[.p, .p, .p], 3, [2, 2, 2]⟩,
   ⟨[.w, .z, .z], 3, [3, 2, 2]⟩,
   ⟨[.a, .b, .b], 3, [3, 2, 2]⟩,
   ⟨[.q, .p, .p], 3, [3, 2, 2]⟩,
   ⟨[.x, .w, .z], 3, [0, 3, 2]⟩,
   ⟨[.r, .a, .b], 3, [0, 3, 2]⟩,
   ⟨[.s, .q, .p], 3, [0, 3, 2]⟩,
   ⟨[.y, .w, .z], 3, [1, 3, 2]⟩,
   ⟨[.g, .a, .b], 3, [1, 3, 2]⟩,
   ⟨[.t, .q, .p], 3, [1, 3, 2]⟩,
   ⟨[.z, .w, .z], 3, [2, 3, 2]⟩,
   ⟨[.b, .a, .b], 3, [2, 3, 2]⟩,
   ⟨[.p, .q, .p], 3, [2, 3, 2]⟩,
   ⟨[.w, .w, .z], 3, [3, 3, 2]⟩,
   ⟨[.a, .a, .b], 3, [3, 3, 2]⟩,
   ⟨[.q, .q, .p], 3, [3, 3, 2]⟩,
   ⟨[.x, .x, .w], 3, [0, 0, 3]⟩,
   ⟨[.r, .r, .a], 3, [0, 0, 3]⟩,
   ⟨[.s, .s, .q], 3, [0, 0, 3]⟩,
   ⟨[.y, .x, .w], 3, [1, 0, 3]⟩,
   ⟨[.g, .r, .a], 3, [1, 0, 3]⟩,
   ⟨[.t, .s, .q], 3, [1, 0, 3]⟩,
   ⟨[.z, .x, .w], 3, [2, 0, 3]⟩,
   ⟨[.b, .r, .a], 3, [2, 0, 3]⟩,
   ⟨[.p, .s, .q], 3, [2, 0, 3]⟩,
   ⟨[.w, .x, .w], 3, [3, 0, 3]⟩,
   ⟨[.a, .r, .a], 3, [3, 0, 3]⟩,
   ⟨[.q, .s, .q], 3, [3, 0, 3]⟩,
   ⟨[.x, .y, .w], 3, [0, 1, 3]⟩,
   ⟨[.r, .g, .a], 3, [0, 1, 3]⟩,
   ⟨[.s, .t, .q], 3, [0, 1, 3]⟩,
   ⟨[.y, .y, .w], 3, [1, 1, 3]⟩,
   ⟨[.g, .g, .a], 3, [1, 1, 3]⟩,
   ⟨[.t, .t, .q], 3, [1, 1, 3]⟩,
   ⟨[.z, .y, .w], 3, [2, 1, 3]⟩,
   ⟨[.b, .g, .a], 3, [2, 1, 3]⟩,
   ⟨[.p, .t, .q], 3, [2, 1, 3]⟩,
   ⟨[.w, .y, .w], 3, [3, 1, 3]⟩,
   ⟨[.a, .g, .a], 3, [3, 1, 3]⟩,
   ⟨[.q, .t, .q], 3, [3, 1, 3]⟩,
   ⟨[.x, .z, .w], 3, [0, 2, 3]⟩,
   ⟨[.r, .b, .a], 3, [0, 2, 3]⟩,
   ⟨[.s, .p, .q], 3, [0, 2, 3]⟩,
   ⟨[.y, .z, .w], 3, [1, 2, 3]⟩,
   ⟨[.g, .b, .a], 3, [1, 2, 3]⟩,
   ⟨[.t, .p, .q], 3, [1, 2, 3]⟩,
   ⟨[.z, .z, .w], 3, [2, 2, 3]⟩,
   ⟨[.b, .b, .a], 3, [2, 2, 3]⟩,
   ⟨[.p, .p, .q], 3, [2, 2, 3]⟩,
   ⟨[.w, .z, .w], 3, [3, 2, 3]⟩,
   ⟨[.a, .b, .a], 3, [3, 2, 3]⟩,
   ⟨[.q, .p, .q], 3, [3, 2, 3]⟩,
   ⟨[.x, .w, .w], 3, [0, 3, 3]⟩,
   ⟨[.r, .a, .a], 3, [0, 3, 3]⟩,
   ⟨[.s, .q, .q], 3, [0, 3, 3]⟩,
   ⟨[.y, .w, .w], 3, [1, 3, 3]⟩,
   ⟨[.g, .a, .a], 3, [1, 3, 3]⟩,
   ⟨[.t, .q, .q], 3, [1, 3, 3]⟩,
   ⟨[.z, .w, .w], 3, [2, 3, 3]⟩,
   ⟨[.b, .a, .a], 3, [2, 3, 3]⟩,
   ⟨[.p, .q, .q], 3, [2, 3, 3]⟩,
   ⟨[.w, .w, .w], 3, [3, 3, 3]⟩,
   ⟨[.a, .a, .a], 3, [3, 3, 3]⟩,
   ⟨[.q, .q, .q], 3, [3, 3, 3]⟩,
   ⟨[.x, .x, .x, .x], 4, [0, 0, 0, 0]⟩,
   ⟨[.r, .r, .r, .r], 4, [0, 0, 0, 0]⟩,
   ⟨[.s, .s, .s, .s], 4, [0, 0, 0, 0]⟩,
   ⟨[.y, .x, .x, .x], 4, [1, 0, 0, 0]⟩,
   ⟨[.g, .r, .r, .r], 4, [1, 0, 0, 0]⟩,
   ⟨[.t, .s, .s, .s], 4, [1, 0, 0, 0]⟩,
   ⟨[.z, .x, .x, .x], 4, [2, 0, 0, 0]⟩,
   ⟨[.b, .r, .r, .r], 4, [2, 0, 0, 0]⟩,
   ⟨[.p, .s, .s, .s], 4, [2, 0, 0, 0]⟩,
   ⟨[.w, .x, .x, .x], 4, [3, 0, 0, 0]⟩,
   ⟨[.a, .r, .r, .r], 4, [3, 0, 0, 0]⟩,
   ⟨[.q, .s, .s, .s], 4, [3, 0, 0, 0]⟩,
   ⟨[.x, .y, .x, .x], 4, [0, 1, 0, 0]⟩,
   ⟨[.r, .g, .r, .r], 4, [0, 1, 0, 0]⟩,
   ⟨[.s, .t, .s, .s], 4, [0, 1, 0, 0]⟩,
   ⟨[.y, .y, .x, .x], 4, [1, 1, 0, 0]⟩,
   ⟨[.g, .g, .r, .r], 4, [1, 1, 0, 0]⟩,
   ⟨[.t, .t, .s, .s], 4, [1, 1, 0, 0]⟩,
   ⟨[.z, .y, .x, .x], 4, [2, 1, 0, 0]⟩,
   ⟨[.b, .g, .r, .r], 4, [2, 1, 0, 0]⟩,
   ⟨[.p, .t, .s, .s], 4, [2, 1, 0, 0]⟩,
   ⟨[.w, .y, .x, .x], 4, [3, 1, 0, 0]⟩,
   ⟨[.a, .g, .r, .r], 4, [3, 1, 0, 0]⟩,
   ⟨[.q, .t, .s, .s], 4, [3, 1, 0, 0]⟩,
   ⟨[.x, .z, .x, .x], 4, [0, 2, 0, 0]⟩,
   ⟨[.r, .b, .r, .r], 4, [0, 2, 0, 0]⟩,
   ⟨[.s, .p, .s, .s], 4, [0, 2, 0, 0]⟩,
   ⟨[.y, .z, .x, .x], 4, [1, 2, 0, 0]⟩,
   ⟨[.g, .b, .r, .r], 4, [1, 2, 0, 0]⟩,
   ⟨[.t, .p, .s, .s], 4, [1, 2, 0, 0]⟩,
   ⟨[.z, .z, .x, .x], 4, [2, 2, 0, 0]⟩,
   ⟨[.b, .b, .r, .r], 4, [2, 2, 0, 0]⟩,
   ⟨[.p, .p, .s, .s], 4, [2, 2, 0, 0]⟩,
   ⟨[.w, .z, .x, .x], 4, [3, 2, 0, 0]⟩,
   ⟨[.a, .b, .r, .r], 4, [3, 2, 0, 0]⟩,
   ⟨[.q, .p, .s, .s], 4, [3, 2, 0, 0]⟩,
   ⟨[.x, .w, .x, .x], 4, [0, 3, 0, 0]⟩,
   ⟨[.r, .a, .r, .r], 4, [0, 3, 0, 0]⟩,
   ⟨[.s, .q, .s, .s], 4, [0, 3, 0, 0]⟩,
   ⟨[.y, .w, .x, .x], 4, [1, 3, 0, 0]⟩,
   ⟨[.g, .a, .r, .r], 4, [1, 3, 0, 0]⟩,
   ⟨[.t, .q, .s, .s], 4, [1, 3, 0, 0]⟩,
   ⟨[.z, .w, .x, .x], 4, [2, 3, 0, 0]⟩,
   ⟨[.b, .a, .r, .r], 4, [2, 3, 0, 0]⟩,
   ⟨[.p, .q, .s, .s], 4, [2, 3, 0, 0]⟩,
   ⟨[.w, .w, .x, .x], 4, [3, 3, 0, 0]⟩,
   ⟨[.a, .a, .r, .r], 4, [3, 3, 0, 0]⟩,
   ⟨[.q, .q, .s, .s], 4, [3, 3, 0, 0]⟩,
   ⟨[.x, .x, .y, .x], 4, [0, 0, 1, 0]⟩,
   ⟨[.r, .r, .g, .r], 4, [0, 0, 1, 0]⟩,
   ⟨[.s, .s, .t, .s], 4, [0, 0, 1, 0]⟩,
   ⟨[.y, .x, .y, .x], 4, [1, 0, 1, 0]⟩,
   ⟨[.g, .r, .g, .r], 4, [1, 0, 1, 0]⟩,
   ⟨[.t, .s, .t, .s], 4, [1, 0, 1, 0]⟩,
   ⟨[.z, .x, .y, .x], 4, [2, 0, 1, 0]⟩,
   ⟨[.b, .r, .g, .r], 4, [2, 0, 1, 0]⟩,
   ⟨[.p, .s, .t, .s], 4, [2, 0, 1, 0]⟩,
   ⟨[.w, .x, .y, .x], 4, [3, 0, 1, 0]⟩,
   ⟨[.a, .r, .g, .r], 4, [3, 0, 1, 0]⟩,
   ⟨[.q, .s, .t, .s], 4, [3, 0, 1, 0]⟩,
   ⟨[.x, .y, .y, .x], 4, [0, 1, 1, 0]⟩,
   ⟨[.r, .g, .g, .r], 4, [0, 1, 1, 0]⟩,
   ⟨[.s, .t, .t, .s], 4, [0, 1, 1, 0]⟩,
   ⟨[.y, .y, .y, .x], 4, [1, 1, 1, 0]⟩,
   ⟨[.g, .g, .g, .r], 4, [1, 1, 1, 0]⟩,
   ⟨[.t, .t, .t, .s], 4, [1, 1, 1, 0]⟩,
   ⟨[.z, .y, .y, .x], 4, [2, 1, 1, 0]⟩,
   ⟨[.b, .g, .g, .r], 4, [2, 1, 1, 0]⟩,
   ⟨[.p, .t, .t, .s], 4, [2, 1, 1, 0]⟩,
   ⟨[.w, .y, .y, .x], 4, [3, 1, 1, 0]⟩,
   ⟨[.a, .g, .g, .r], 4, [3, 1, 1, 0]⟩,
   ⟨[.q, .t, .t, .s], 4, [3, 1, 1, 0]⟩,
   ⟨[.x, .z, .y, .x], 4, [0, 2, 1, 0]⟩,
   ⟨[.r, .b, .g, .r], 4, [0, 2, 1, 0]⟩,
   ⟨[.s, .p, .t, .s], 4, [0, 2, 1, 0]⟩,
   ⟨[.y, .z, .y, .x], 4, [1, 2, 1, 0]⟩,
   ⟨[.g, .b, .g, .r], 4, [1, 2, 1, 0]⟩,
   ⟨[.t, .p, .t, .s], 4, [1, 2, 1, 0]⟩,
   ⟨[.z, .z, .y, .x], 4, [2, 2, 1, 0]⟩,
   ⟨[.b, .b, .g, .r], 4, [2, 2, 1, 0]⟩,
   ⟨[.p, .p, .t, .s], 4, [2, 2, 1, 0]⟩,
   ⟨[.w, .z, .y, .x], 4, [3, 2, 1, 0]⟩,
   ⟨[.a, .b, .g, .r], 4, [3, 2, 1, 0]⟩,
   ⟨[.q, .p, .t, .s], 4, [3, 2, 1, 0]⟩,
   ⟨[.x, .w, .y, .x], 4, [0, 3, 1, 0]⟩,
   ⟨[.r, .a, .g, .r], 4, [0, 3, 1, 0]⟩,
   ⟨[.s, .q, .t, .s], 4, [0, 3, 1, 0]⟩,
   ⟨[.y, .w, .y, .x], 4, [1, 3, 1, 0]⟩,
   ⟨[.g, .a, .g, .r], 4, [1, 3, 1, 0]⟩,
   ⟨[.t, .q, .t, .s], 4, [1, 3, 1, 0]⟩,
   ⟨[.z, .w, .y, .x], 4, [2, 3, 1, 0]⟩,
   ⟨[.b, .a, .g, .r], 4, [2, 3, 1, 0]⟩,
   ⟨[.p, .q, .t, .s], 4, [2, 3, 1, 0]⟩,
   ⟨[.w, .w, .y, .x], 4, [3, 3, 1, 0]⟩,
   ⟨[.a, .a, .g, .r], 4, [3, 3, 1, 0]⟩,
   ⟨[.q, .q, .t, .s], 4, [3, 3, 1, 0]⟩,
   ⟨[.x, .x, .z, .x], 4, [0, 0, 2, 0]⟩,
   ⟨[.r, .r, .b, .r], 4, [0, 0, 2, 0]⟩,
   ⟨[.s, .s, .p, .s], 4, [0, 0, 2, 0]⟩,
   ⟨[.y, .x, .z, .x], 4, [1, 0, 2, 0]⟩,
   ⟨[.g, .r, .b, .r], 4, [1, 0, 2, 0]⟩,
   ⟨[.t, .s, .p, .s], 4, [1, 0, 2, 0]⟩,
   ⟨[.z, .x, .z, .x], 4, [2, 0, 2, 0]⟩,
   ⟨[.b, .r, .b, .r], 4, [2, 0, 2, 0]⟩,
   ⟨[.p, .s, .p, .s], 4, [2, 0, 2, 0]⟩,
   ⟨[.w, .x, .z, .x], 4, [3, 0, 2, 0]⟩,
   ⟨[.a, .r, .b, .r], 4, [3, 0, 2, 0]⟩,
   ⟨[.q, .s, .p, .s], 4, [3, 0, 2, 0]⟩,
   ⟨[.x, .y, .z, .x], 4, [0, 1, 2, 0]⟩,
   ⟨[.r, .g, .b, .r], 4, [0, 1, 2, 0]⟩,
   ⟨[.s, .t, .p, .s], 4, [0, 1, 2, 0]⟩,
   ⟨[.y, .y, .z, .x], 4, [1, 1, 2, 0]⟩,
   ⟨[.g, .g, .b, .r], 4, [1, 1, 2, 0]⟩,
   ⟨[.t, .t, .p, .s], 4, [1, 1, 2, 0]⟩,
   ⟨[.z, .y, .z, .x], 4, [2, 1, 2, 0]⟩,
   ⟨[.b, .g, .b, .r], 4, [2, 1, 2, 0]⟩,
   ⟨[.p, .t, .p, .s], 4, [2, 1, 2, 0]⟩,
   ⟨[.w, .y, .z, .x], 4, [3, 1, 2, 0]⟩,
   ⟨[.a, .g, .b, .r], 4, [3, 1, 2, 0]⟩,
   ⟨[.q, .t, .p, .s], 4, [3, 1, 2, 0]⟩,
   ⟨[.x, .z, .z, .x], 4, [0, 2, 2, 0]⟩,
   ⟨[.r, .b, .b, .r], 4, [0, 2, 2, 0]⟩,
   ⟨[.s, .p, .p, .s], 4, [0, 2, 2, 0]⟩,
   ⟨[.y, .z, .z, .x], 4, [1, 2, 2, 0]⟩,
   ⟨[.g, .b, .b, .r], 4, [1, 2, 2, 0]⟩,
   ⟨[.t, .p, .p, .s], 4, [1, 2, 2, 0]⟩,
   ⟨[.z, .z, .z, .x], 4, [2, 2, 2, 0]⟩,
   ⟨[.b, .b, .b, .r], 4, [2, 2, 2, 0]⟩,
   ⟨[.p, .p, .p, .s], 4, [2, 2, 2, 0]⟩,
   ⟨[.w, .z, .z, .x], 4, [3, 2, 2, 0]⟩,
   ⟨[.a, .b, .b, .r], 4, [3, 2, 2, 0]⟩,
   ⟨[.q, .p, .p, .s], 4, [3, 2, 2, 0]⟩,
   ⟨[.x, .w, .z, .x], 4, [0, 3, 2, 0]⟩,
   ⟨[.r, .a, .b, .r], 4, [0, 3, 2, 0]⟩,
   ⟨[.s, .q, .p, .s], 4, [0, 3, 2, 0]⟩,
   ⟨[.y, .w, .z, .x], 4, [1, 3, 2, 0]⟩,
   ⟨[.g, .a, .b, .r], 4, [1, 3, 2, 0]⟩,
   ⟨[.t, .q, .p, .s], 4, [1, 3, 2, 0]⟩,
   ⟨[.z, .w, .z, .x], 4, [2, 3, 2, 0]⟩,
   ⟨[.b, .a, .b, .r], 4, [2, 3, 2, 0]⟩,
   ⟨[.p, .q, .p, .s], 4, [2, 3, 2, 0]⟩,
   ⟨[.w, .w, .z, .x], 4, [3, 3, 2, 0]⟩,
   ⟨[.a, .a, .b, .r], 4, [3, 3, 2, 0]⟩,
   ⟨[.q, .q, .p, .s], 4, [3, 3, 2, 0]⟩,
   ⟨[.x, .x, .w, .x], 4, [0, 0, 3, 0]⟩,
   ⟨[.r, .r, .a, .r], 4, [0, 0, 3, 0]⟩,
   ⟨[.s, .s, .q, .s], 4, [0, 0, 3, 0]⟩,
   ⟨[.y, .x, .w, .x], 4, [1, 0, 3, 0]⟩,
   ⟨[.g, .r, .a, .r], 4, [1, 0, 3, 0]⟩,
   ⟨[.t, .s, .q, .s], 4, [1, 0, 3, 0]⟩,
   ⟨[.z, .x, .w, .x], 4, [2, 0, 3, 0]⟩,
   ⟨[.b, .r, .a, .r], 4, [2, 0, 3, 0]⟩,
   ⟨[.p, .s, .q, .s], 4, [2, 0, 3, 0]⟩,
   ⟨[.w, .x, .w, .x], 4, [3, 0, 3, 0]⟩,
   ⟨[.a, .r, .a, .r], 4, [3, 0, 3, 0]⟩,
   ⟨[.q, .s, .q, .s], 4, [3, 0, 3, 0]⟩,
   ⟨[.x, .y, .w, .x], 4, [0, 1, 3, 0]⟩,
   ⟨[.r, .g, .a, .r], 4, [0, 1, 3, 0]⟩,
   ⟨[.s, .t, .q, .s], 4, [0, 1, 3, 0]⟩,
   ⟨[.y, .y, .w, .x], 4, [1, 1, 3, 0]⟩,
   ⟨[.g, .g, .a, .r], 4, [1, 1, 3, 0]⟩,
   ⟨[.t, .t, .q, .s], 4, [1, 1, 3, 0]⟩,
   ⟨[.z, .y, .w, .x], 4, [2, 1, 3, 0]⟩,
   ⟨[.b, .g, .a, .r], 4, [2, 1, 3, 0]⟩,
   ⟨[.p, .t, .q, .s], 4, [2, 1, 3, 0]⟩,
   ⟨[.w, .y, .w, .x], 4, [3, 1, 3, 0]⟩,
   ⟨[.a, .g, .a, .r], 4, [3, 1, 3, 0]⟩,
   ⟨[.q, .t, .q, .s], 4, [3, 1, 3, 0]⟩,
   ⟨[.x, .z, .w, .x], 4, [0, 2, 3, 0]⟩,
   ⟨[.r, .b, .a, .r], 4, [0, 2, 3, 0]⟩,
   ⟨[.s, .p, .q, .s], 4, [0, 2, 3, 0]⟩,
   ⟨[.y, .z, .w, .x], 4, [1, 2, 3, 0]⟩,
   ⟨[.g, .b, .a, .r], 4, [1, 2, 3, 0]⟩,
   ⟨[.t, .p, .q, .s], 4, [1, 2, 3, 0]⟩,
   ⟨[.z, .z, .w, .x], 4, [2, 2, 3, 0]⟩,
   ⟨[.b, .b, .a, .r], 4, [2, 2, 3, 0]⟩,
   ⟨[.p, .p, .q, .s], 4, [2, 2, 3, 0]⟩,
   ⟨[.w, .z, .w, .x], 4, [3, 2, 3, 0]⟩,
   ⟨[.a, .b, .a, .r], 4, [3, 2, 3, 0]⟩,
   ⟨[.q, .p, .q, .s], 4, [3, 2, 3, 0]⟩,
   ⟨[.x, .w, .w, .x], 4, [0, 3, 3, 0]⟩,
   ⟨[.r, .a, .a, .r], 4, [0, 3, 3, 0]⟩,
   ⟨[.s, .q, .q, .s], 4, [0, 3, 3, 0]⟩,
   ⟨[.y, .w, .w, .x], 4, [1, 3, 3, 0]⟩,
   ⟨[.g, .a, .a, .r], 4, [1, 3, 3, 0]⟩,
   ⟨[.t, .q, .q, .s], 4, [1, 3, 3, 0]⟩,
   ⟨[.z, .w, .w, .x], 4, [2, 3, 3, 0]⟩,
   ⟨[.b, .a, .a, .r], 4, [2, 3, 3, 0]⟩,
   ⟨[.p, .q, .q, .s], 4, [2, 3, 3, 0]⟩,
   ⟨[.w, .w, .w, .x], 4, [3, 3, 3, 0]⟩,
   ⟨[.a, .a, .a, .r], 4, [3, 3, 3, 0]⟩,
   ⟨[.q, .q, .q, .s], 4, [3, 3, 3, 0]⟩,
   ⟨[.x, .x, .x, .y], 4, [0, 0, 0, 1]⟩,
   ⟨[.r, .r, .r, .g], 4, [0, 0, 0, 1]⟩,
   ⟨[.s, .s, .s, .t], 4, [0, 0, 0, 1]⟩,
   ⟨[.y, .x, .x, .y], 4, [1, 0, 0, 1]⟩,
   ⟨[.g, .r, .r, .g], 4, [1, 0, 0, 1]⟩,
   ⟨[.t, .s, .s, .t], 4, [1, 0, 0, 1]⟩,
   ⟨[.z, .x, .x, .y], 4, [2, 0, 0, 1]⟩,
   ⟨[.b, .r, .r, .g], 4, [2, 0, 0, 1]⟩,
   ⟨[.p, .s, .s, .t], 4, [2, 0, 0, 1]⟩,
   ⟨[.w, .x, .x, .y], 4, [3, 0, 0, 1]⟩,
   ⟨[.a, .r, .r, .g], 4, [3, 0, 0, 1]⟩,
   ⟨[.q, .s, .s, .t], 4, [3, 0, 0, 1]⟩,
   ⟨[.x, .y, .x, .y], 4, [0, 1, 0, 1]⟩,
   ⟨[.r, .g, .r, .g], 4, [0, 1, 0, 1]⟩,
   ⟨[.s, .t, .s, .t], 4, [0, 1, 0, 1]⟩,
   ⟨[.y, .y, .x, .y], 4, [1, 1, 0, 1]⟩,
   ⟨[.g, .g, .r, .g], 4, [1, 1, 0, 1]⟩,
   ⟨[.t, .t, .s, .t], 4, [1, 1, 0, 1]⟩,
   ⟨[.z, .y, .x, .y], 4, [2, 1, 0, 1]⟩,
   ⟨[.b, .g, .r, .g], 4, [2, 1, 0, 1]⟩,
   ⟨[.p, .t, .s, .t], 4, [2, 1, 0, 1]⟩,
   ⟨[.w, .y, .x, .y], 4, [3, 1, 0, 1]⟩,
   ⟨[.a, .g, .r, .g], 4, [3, 1, 0, 1]⟩,
   ⟨[.q, .t, .s, .t], 4, [3, 1, 0, 1]⟩,
   ⟨[.x, .z, .x, .y], 4, [0, 2, 0, 1]⟩,
   ⟨[.r, .b, .r, .g], 4, [0, 2, 0, 1]⟩,
   ⟨[.s, .p, .s, .t], 4, [0, 2, 0, 1]⟩,
   ⟨[.y, .z, .x, .y], 4, [1, 2, 0, 1]⟩,
   ⟨[.g, .b, .r, .g], 4, [1, 2, 0, 1]⟩,
   ⟨[.t, .p, .s, .t], 4, [1, 2, 0, 1]⟩,
   ⟨[.z, .z, .x, .y], 4, [2, 2, 0, 1]⟩,
   ⟨[.b, .b, .r, .g], 4, [2, 2, 0, 1]⟩,
   ⟨[.p, .p, .s, .t], 4, [2, 2, 0, 1]⟩,
   ⟨[.w, .z, .x, .y], 4, [3, 2, 0, 1]⟩,
   ⟨[.a, .b, .r, .g], 4, [3, 2, 0, 1]⟩,
   ⟨[.q, .p, .s, .t], 4, [3, 2, 0, 1]⟩,
   ⟨[.x, .w, .x, .y], 4, [0, 3, 0, 1]⟩,
   ⟨[.r, .a, .r, .g], 4, [0, 3, 0, 1]⟩,
   ⟨[.s, .q, .s, .t], 4, [0, 3, 0, 1]⟩,
   ⟨[.y, .w, .x, .y], 4, [1, 3, 0, 1]⟩,
   ⟨[.g, .a, .r, .g], 4, [1, 3, 0, 1]⟩,
   ⟨[.t, .q, .s, .t], 4, [1, 3, 0, 1]⟩,
   ⟨[.z, .w, .x, .y], 4, [2, 3, 0, 1]⟩,
   ⟨[.b, .a, .r, .g], 4, [2, 3, 0, 1]⟩,
   ⟨[.p, .q, .s, .t], 4, [2, 3, 0, 1]⟩,
   ⟨[.w, .w, .x, .y], 4, [3, 3, 0, 1]⟩,
   ⟨[.a, .a, .r, .g], 4, [3, 3, 0, 1]⟩,
   ⟨[.q, .q, .s, .t], 4, [3, 3, 0, 1]⟩,
   ⟨[.x, .x, .y, .y], 4, [0, 0, 1, 1]⟩,
   ⟨[.r, .r, .g, .g], 4, [0, 0, 1, 1]⟩,
   ⟨[.s, .s, .t, .t], 4, [0, 0, 1, 1]⟩,
   ⟨[.y, .x, .y, .y], 4, [1, 0, 1, 1]⟩,
   ⟨[.g, .r, .g, .g], 4, [1, 0, 1, 1]⟩,
   ⟨[.t, .s, .t, .t], 4, [1, 0, 1, 1]⟩,
   ⟨[.z, .x, .y, .y], 4, [2, 0, 1, 1]⟩,
   ⟨[.b, .r, .g, .g], 4, [2, 0, 1, 1]⟩,
   ⟨[.p, .s, .t, .t], 4, [2, 0, 1, 1]⟩,
   ⟨[.w, .x, .y, .y], 4, [3, 0, 1, 1]⟩,
   ⟨[.a, .r, .g, .g], 4, [3, 0, 1, 1]⟩,
   ⟨[.q, .s, .t, .t], 4, [3, 0, 1, 1]⟩,
   ⟨[.x, .y, .y, .y], 4, [0, 1, 1, 1]⟩,
   ⟨[.r, .g, .g, .g], 4, [0, 1, 1, 1]⟩,
   ⟨[.s, .t, .t, .t], 4, [0, 1, 1, 1]⟩,
   ⟨[.y, .y, .y, .y], 4, [1, 1, 1, 1]⟩,
   ⟨[.g, .g, .g, .g], 4, [1, 1, 1, 1]⟩,
   ⟨[.t, .t, .t, .t], 4, [1, 1, 1, 1]⟩,
   ⟨[.z, .y, .y, .y], 4, [2, 1, 1, 1]⟩,
   ⟨[.b, .g, .g, .g], 4, [2, 1, 1, 1]⟩,
   ⟨[.p, .t, .t, .t], 4, [2, 1, 1, 1]⟩,
   ⟨[.w, .y, .y, .y], 4, [3, 1, 1, 1]⟩,
   ⟨[.a, .g, .g, .g], 4, [3, 1, 1, 1]⟩,
   ⟨[.q, .t, .t, .t], 4, [3, 1, 1, 1]⟩,
   ⟨[.x, .z, .y, .y], 4, [0, 2, 1, 1]⟩,
   ⟨[.r, .b, .g, .g], 4, [0, 2, 1, 1]⟩,
   ⟨[.s, .p, .t, .t], 4, [0, 2, 1, 1]⟩,
   ⟨[.y, .z, .y, .y], 4, [1, 2, 1, 1]⟩,
   ⟨[.g, .b, .g, .g], 4, [1, 2, 1, 1]⟩,
   ⟨[.t, .p, .t, .t], 4, [1, 2, 1, 1]⟩,
   ⟨[.z, .z, .y, .y], 4, [2, 2, 1, 1]⟩,
   ⟨[.b, .b, .g, .g], 4, [2, 2, 1, 1]⟩,
   ⟨[.p, .p, .t, .t], 4, [2, 2, 1, 1]⟩,
   ⟨[.w, .z, .y, .y], 4, [3, 2, 1, 1]⟩,
   ⟨[.a, .b, .g, .g], 4, [3, 2, 1, 1]⟩,
   ⟨[.q, .p, .t, .t], 4, [3, 2, 1, 1]⟩,
   ⟨[.x, .w, .y, .y], 4, [0, 3, 1, 1]⟩,
   ⟨[.r, .a, .g, .g], 4, [0, 3, 1, 1]⟩,
   ⟨[.s, .q, .t, .t], 4, [0, 3, 1, 1]⟩,
   ⟨[.y, .w, .y, .y], 4, [1, 3, 1, 1]⟩,
   ⟨[.g, .a, .g, .g], 4, [1, 3, 1, 1]⟩,
   ⟨[.t, .q, .t, .t], 4, [1, 3, 1, 1]⟩,
   ⟨[.z, .w, .y, .y], 4, [2, 3, 1, 1]⟩,
   ⟨[.b, .a, .g, .g], 4, [2, 3, 1, 1]⟩,
   ⟨[.p, .q, .t, .t], 4, [2, 3, 1, 1]⟩,
   ⟨[.w, .w, .y, .y], 4, [3, 3, 1, 1]⟩,
   ⟨[.a, .a, .g, .g], 4, [3, 3, 1, 1]⟩,
   ⟨[.q, .q, .t, .t], 4, [3, 3, 1, 1]⟩,
   ⟨[.x, .x, .z, .y], 4, [0, 0, 2, 1]⟩,
   ⟨[.r, .r, .b, .g], 4, [0, 0, 2, 1]⟩,
   ⟨[.s, .s, .p, .t], 4, [0, 0, 2, 1]⟩,
   ⟨[.y, .x, .z, .y], 4, [1, 0, 2, 1]⟩,
   ⟨[.g, .r, .b, .g], 4, [1, 0, 2, 1]⟩,
   ⟨[.t, .s, .p, .t], 4, [1, 0, 2, 1]⟩,
   ⟨[.z, .x, .z, .y], 4, [2, 0, 2, 1]⟩,
   ⟨[.b, .r, .b, .g], 4, [2, 0, 2, 1]⟩,
   ⟨[.p, .s, .p, .t], 4, [2, 0, 2, 1]⟩,
   ⟨[.w, .x, .z, .y], 4, [3, 0, 2, 1]⟩,
   ⟨[.a, .r, .b, .g], 4, [3, 0, 2, 1]⟩,
   ⟨[.q, .s, .p, .t], 4, [3, 0, 2, 1]⟩,
   ⟨[.x, .y, .z, .y], 4, [0, 1, 2, 1]⟩,
   ⟨[.r, .g, .b, .g], 4, [0, 1, 2, 1]⟩,
   ⟨[.s, .t, .p, .t], 4, [0, 1, 2, 1]⟩,
   ⟨[.y, .y, .z, .y], 4, [1, 1, 2, 1]⟩,
   ⟨[.g, .g, .b, .g], 4, [1, 1, 2, 1]⟩,
   ⟨[.t, .t, .p, .t], 4, [1, 1, 2, 1]⟩,
   ⟨[.z, .y, .z, .y], 4, [2, 1, 2, 1]⟩,
   ⟨[.b, .g, .b, .g], 4, [2, 1, 2, 1]⟩,
   ⟨[.p, .t, .p, .t], 4, [2, 1, 2, 1]⟩,
   ⟨[.w, .y, .z, .y], 4, [3, 1, 2, 1]⟩,
   ⟨[.a, .g, .b, .g], 4, [3, 1, 2, 1]⟩,
   ⟨[.q, .t, .p, .t], 4, [3, 1, 2, 1]⟩,
   ⟨[.x, .z, .z, .y], 4, [0, 2, 2, 1]⟩,
   ⟨[.r, .b, .b, .g], 4, [0, 2, 2, 1]⟩,
   ⟨[.s, .p, .p, .t], 4, [0, 2, 2, 1]⟩,
   ⟨[.y, .z, .z, .y], 4, [1, 2, 2, 1]⟩,
   ⟨[.g, .b, .b, .g], 4, [1, 2, 2, 1]⟩,
   ⟨[.t, .p, .p, .t], 4, [1, 2, 2, 1]⟩,
   ⟨[.z, .z, .z, .y], 4, [2, 2, 2, 1]⟩,
   ⟨[.b, .b, .b, .g], 4, [2, 2, 2, 1]⟩,
   ⟨[.p, .p, .p, .t], 4, [2, 2, 2, 1]⟩,
   ⟨[.w, .z, .z, .y], 4, [3, 2, 2, 1]⟩,
   ⟨[.a, .b, .b, .g], 4, [3, 2, 2, 1]⟩,
   ⟨[.q, .p, .p, .t], 4, [3, 2, 2, 1]⟩,
   ⟨[.x, .w, .z, .y], 4, [0, 3, 2, 1]⟩,
   ⟨[.r, .a, .b, .g], 4, [0, 3, 2, 1]⟩,
   ⟨[.s, .q, .p, .t], 4, [0, 3, 2, 1]⟩,
   ⟨[.y, .w, .z, .y], 4, [1, 3, 2, 1]⟩,
   ⟨[.g, .a, .b, .g], 4, [1, 3, 2, 1]⟩,
   ⟨[.t, .q, .p, .t], 4, [1, 3, 2, 1]⟩,
   ⟨[.z, .w, .z, .y], 4, [2, 3, 2, 1]⟩,
   ⟨[.b, .a, .b, .g], 4, [2, 3, 2, 1]⟩,
   ⟨[.p, .q, .p, .t], 4, [2, 3, 2, 1]⟩,
   ⟨[.w, .w, .z, .y], 4, [3, 3, 2, 1]⟩,
   ⟨[.a, .a, .b, .g], 4, [3, 3, 2, 1]⟩,
   ⟨[.q, .q, .p, .t], 4, [3, 3, 2, 1]⟩,
   ⟨[.x, .x, .w, .y], 4, [0, 0, 3, 1]⟩,
   ⟨[.r, .r, .a, .g], 4, [0, 0, 3, 1]⟩,
   ⟨[.s, .s, .q, .t], 4, [0, 0, 3, 1]⟩,
   ⟨[.y, .x, .w, .y], 4, [1, 0, 3, 1]⟩,
   ⟨[.g, .r, .a, .g], 4, [1, 0, 3, 1]⟩,
   ⟨[.t, .s, .q, .t], 4, [1, 0, 3, 1]⟩,
   ⟨[.z, .x, .w, .y], 4, [2, 0, 3, 1]⟩,
   ⟨[.b, .r, .a, .g], 4, [2, 0, 3, 1]⟩,
   ⟨[.p, .s, .q, .t], 4, [2, 0, 3, 1]⟩,
   ⟨[.w, .x, .w, .y], 4, [3, 0, 3, 1]⟩,
   ⟨[.a, .r, .a, .g], 4, [3, 0, 3, 1]⟩,
   ⟨[.q, .s, .q, .t], 4, [3, 0, 3, 1]⟩,
   ⟨[.x, .y, .w, .y], 4, [0, 1, 3, 1]⟩,
   ⟨[.r, .g, .a, .g], 4, [0, 1, 3, 1]⟩,
   ⟨[.s, .t, .q, .t], 4, [0, 1, 3, 1]⟩,
   ⟨[.y, .y, .w, .y], 4, [1, 1, 3, 1]⟩,
   ⟨[.g, .g, .a, .g], 4, [1, 1, 3, 1]⟩,
   ⟨[.t, .t, .q, .t], 4, [1, 1, 3, 1]⟩,
   ⟨[.z, .y, .w, .y], 4, [2, 1, 3, 1]⟩,
   ⟨[.b, .g, .a, .g], 4, [2, 1, 3, 1]⟩,
   ⟨[.p, .t, .q, .t], 4, [2, 1, 3, 1]⟩,
   ⟨[.w, .y, .w, .y], 4, [3, 1, 3, 1]⟩,
   ⟨[.a, .g, .a, .g], 4, [3, 1, 3, 1]⟩,
   ⟨[.q, .t, .q, .t], 4, [3, 1, 3, 1]⟩,
   ⟨[.x, .z, .w, .y], 4, [0, 2, 3, 1]⟩,
   ⟨[.r, .b, .a, .g], 4, [0, 2, 3, 1]⟩,
   ⟨[.s, .p, .q, .t], 4, [0, 2, 3, 1]⟩,
   ⟨[.y, .z, .w, .y], 4, [1, 2, 3, 1]⟩,
   ⟨[.g, .b, .a, .g], 4, [1, 2, 3, 1]⟩,
   ⟨[.t, .p, .q, .t], 4, [1, 2, 3, 1]⟩,
   ⟨[.z, .z, .w, .y], 4, [2, 2, 3, 1]⟩,
   ⟨[.b, .b, .a, .g], 4, [2, 2, 3, 1]⟩,
   ⟨[.p, .p, .q, .t], 4, [2, 2, 3, 1]⟩,
   ⟨[.w, .z, .w, .y], 4, [3, 2, 3, 1]⟩,
   ⟨[.a, .b, .a, .g], 4, [3, 2, 3, 1]⟩,
   ⟨[.q, .p, .q, .t], 4, [3, 2, 3, 1]⟩,
   ⟨[.x, .w, .w, .y], 4, [0, 3, 3, 1]⟩,
   ⟨[.r, .a, .a, .g], 4, [0, 3, 3, 1]⟩,
   ⟨[.s, .q, .q, .t], 4, [0, 3, 3, 1]⟩,
   ⟨[.y, .w, .w, .y], 4, [1, 3, 3, 1]⟩,
   ⟨[.g, .a, .a, .g], 4, [1, 3, 3, 1]⟩,
   ⟨[.t, .q, .q, .t], 4, [1, 3, 3, 1]⟩,
   ⟨[.z, .w, .w, .y], 4, [2, 3, 3, 1]⟩,
   ⟨[.b, .a, .a, .g], 4, [2, 3, 3, 1]⟩,
   ⟨[.p, .q, .q, .t], 4, [2, 3, 3, 1]⟩,
   ⟨[.w, .w, .w, .y], 4, [3, 3, 3, 1]⟩,
   ⟨[.a, .a, .a, .g], 4, [3, 3, 3, 1]⟩,
   ⟨[.q, .q, .q, .t], 4, [3, 3, 3, 1]⟩,
   ⟨[.x, .x, .x, .z], 4, [0, 0, 0, 2]⟩,
   ⟨[.r, .r, .r, .b], 4, [0, 0, 0, 2]⟩,
   ⟨[.s, .s, .s, .p], 4, [0, 0, 0, 2]⟩,
   ⟨[.y, .x, .x, .z], 4, [1, 0, 0, 2]⟩,
   ⟨[.g, .r, .r, .b], 4, [1, 0, 0, 2]⟩,
   ⟨[.t, .s, .s, .p], 4, [1, 0, 0, 2]⟩,
   ⟨[.z, .x, .x, .z], 4, [2, 0, 0, 2]⟩,
   ⟨[.b, .r, .r, .b], 4, [2, 0, 0, 2]⟩,
   ⟨[.p, .s, .s, .p], 4, [2, 0, 0, 2]⟩,
   ⟨[.w, .x, .x, .z], 4, [3, 0, 0, 2]⟩,
   ⟨[.a, .r, .r, .b], 4, [3, 0, 0, 2]⟩,
   ⟨[.q, .s, .s, .p], 4, [3, 0, 0, 2]⟩,
   ⟨[.x, .y, .x, .z], 4, [0, 1, 0, 2]⟩,
   ⟨[.r, .g, .r, .b], 4, [0, 1, 0, 2]⟩,
   ⟨[.s, .t, .s, .p], 4, [0, 1, 0, 2]⟩,
   ⟨[.y, .y, .x, .z], 4, [1, 1, 0, 2]⟩,
   ⟨[.g, .g, .r, .b], 4, [1, 1, 0, 2]⟩,
   ⟨[.t, .t, .s, .p], 4, [1, 1, 0, 2]⟩,
   ⟨[.z, .y, .x, .z], 4, [2, 1, 0, 2]⟩,
   ⟨[.b, .g, .r, .b], 4, [2, 1, 0, 2]⟩,
   ⟨[.p, .t, .s, .p], 4, [2, 1, 0, 2]⟩,
   ⟨[.w, .y, .x, .z], 4, [3, 1, 0, 2]⟩,
   ⟨[.a, .g, .r, .b], 4, [3, 1, 0, 2]⟩,
   ⟨[.q, .t, .s, .p], 4, [3, 1, 0, 2]⟩,
   ⟨[.x, .z, .x, .z], 4, [0, 2, 0, 2]⟩,
   ⟨[.r, .b, .r, .b], 4, [0, 2, 0, 2]⟩,
   ⟨[.s, .p, .s, .p], 4, [0, 2, 0, 2]⟩,
   ⟨[.y, .z, .x, .z], 4, [1, 2, 0, 2]⟩,
   ⟨[.g, .b, .r, .b], 4, [1, 2, 0, 2]⟩,
   ⟨[.t, .p, .s, .p], 4, [1, 2, 0, 2]⟩,
   ⟨[.z, .z, .x, .z], 4, [2, 2, 0, 2]⟩,
   ⟨[.b, .b, .r, .b], 4, [2, 2, 0, 2]⟩,
   ⟨[.p, .p, .s, .p], 4, [2, 2, 0, 2]⟩,
   ⟨[.w, .z, .x, .z], 4, [3, 2, 0, 2]⟩,
   ⟨[.a, .b, .r, .b], 4, [3, 2, 0, 2]⟩,
   ⟨[.q, .p, .s, .p], 4, [3, 2, 0, 2]⟩,
   ⟨[.x, .w, .x, .z], 4, [0, 3, 0, 2]⟩,
   ⟨[.r, .a, .r, .b], 4, [0, 3, 0, 2]⟩,
   ⟨[.s, .q, .s, .p], 4, [0, 3, 0, 2]⟩,
   ⟨[.y, .w, .x, .z], 4, [1, 3, 0, 2]⟩,
   ⟨[.g, .a, .r, .b], 4, [1, 3, 0, 2]⟩,
   ⟨[.t, .q, .s, .p], 4, [1, 3, 0, 2]⟩,
   ⟨[.z, .w, .x, .z], 4, [2, 3, 0, 2]⟩,
   ⟨[.b, .a, .r, .b], 4, [2, 3, 0, 2]⟩,
   ⟨[.p, .q, .s, .p], 4, [2, 3, 0, 2]⟩,
   ⟨[.w, .w, .x, .z], 4, [3, 3, 0, 2]⟩,
   ⟨[.a, .a, .r, .b], 4, [3, 3, 0, 2]⟩,
   ⟨[.q, .q, .s, .p], 4, [3, 3, 0, 2]⟩,
   ⟨[.x, .x, .y, .z], 4, [0, 0, 1, 2]⟩,
   ⟨[.r, .r, .g, .b], 4, [0, 0, 1, 2]⟩,
   ⟨[.s, .s, .t, .p], 4, [0, 0, 1, 2]⟩,
   ⟨[.y, .x, .y, .z], 4, [1, 0, 1, 2]⟩,
   ⟨[.g, .r, .g, .b], 4, [1, 0, 1, 2]⟩,
   ⟨[.t, .s, .t, .p], 4, [1, 0, 1, 2]⟩,
   ⟨[.z, .x, .y, .z], 4, [2, 0, 1, 2]⟩,
   ⟨[.b, .r, .g, .b], 4, [2, 0, 1, 2]⟩,
   ⟨[.p, .s, .t, .p], 4, [2, 0, 1, 2]⟩,
   ⟨[.w, .x, .y, .z], 4, [3, 0, 1, 2]⟩,
   ⟨[.a, .r, .g, .b], 4, [3, 0, 1, 2]⟩,
   ⟨[.q, .s, .t, .p], 4, [3, 0, 1, 2]⟩,
   ⟨[.x, .y, .y, .z], 4, [0, 1, 1, 2]⟩,
   ⟨[.r, .g, .g, .b], 4, [0, 1, 1, 2]⟩,
   ⟨[.s, .t, .t, .p], 4, [0, 1, 1, 2]⟩,
   ⟨[.y, .y, .y, .z], 4, [1, 1, 1, 2]⟩,
   ⟨[.g, .g, .g, .b], 4, [1, 1, 1, 2]⟩,
   ⟨[.t, .t, .t, .p], 4, [1, 1, 1, 2]⟩,
   ⟨[.z, .y, .y, .z], 4, [2, 1, 1, 2]⟩,
   ⟨[.b, .g, .g, .b], 4, [2, 1, 1, 2]⟩,
   ⟨[.p, .t, .t, .p], 4, [2, 1, 1, 2]⟩,
   ⟨[.w, .y, .y, .z], 4, [3, 1, 1, 2]⟩,
   ⟨[.a, .g, .g, .b], 4, [3, 1, 1, 2]⟩,
   ⟨[.q, .t, .t, .p], 4, [3, 1, 1, 2]⟩,
   ⟨[.x, .z, .y, .z], 4, [0, 2, 1, 2]⟩,
   ⟨[.r, .b, .g, .b], 4, [0, 2, 1, 2]⟩,
   ⟨[.s, .p, .t, .p], 4, [0, 2, 1, 2]⟩,
   ⟨[.y, .z, .y, .z], 4, [1, 2, 1, 2]⟩,
   ⟨[.g, .b, .g, .b], 4, [1, 2, 1, 2]⟩,
   ⟨[.t, .p, .t, .p], 4, [1, 2, 1, 2]⟩,
   ⟨[.z, .z, .y, .z], 4, [2, 2, 1, 2]⟩,
   ⟨[.b, .b, .g, .b], 4, [2, 2, 1, 2]⟩,
   ⟨[.p, .p, .t, .p], 4, [2, 2, 1, 2]⟩,
   ⟨[.w, .z, .y, .z], 4, [3, 2, 1, 2]⟩,
   ⟨[.a, .b, .g, .b], 4, [3, 2, 1, 2]⟩,
   ⟨[.q, .p, .t, .p], 4, [3, 2, 1, 2]⟩,
   ⟨[.x, .w, .y, .z], 4, [0, 3, 1, 2]⟩,
   ⟨[.r, .a, .g, .b], 4, [0, 3, 1, 2]⟩,
   ⟨[.s, .q, .t, .p], 4, [0, 3, 1, 2]⟩,
   ⟨[.y, .w, .y, .z], 4, [1, 3, 1, 2]⟩,
   ⟨[.g, .a, .g, .b], 4, [1, 3, 1, 2]⟩,
   ⟨[.t, .q, .t, .p], 4, [1, 3, 1, 2]⟩,
   ⟨[.z, .w, .y, .z], 4, [2, 3, 1, 2]⟩,
   ⟨[.b, .a, .g, .b], 4, [2, 3, 1, 2]⟩,
   ⟨[.p, .q, .t, .p], 4, [2, 3, 1, 2]⟩,
   ⟨[.w, .w, .y, .z], 4, [3, 3, 1, 2]⟩,
   ⟨[.a, .a, .g, .b], 4, [3, 3, 1, 2]⟩,
   ⟨[.q, .q, .t, .p], 4, [3, 3, 1, 2]⟩,
   ⟨[.x, .x, .z, .z], 4, [0, 0, 2, 2]⟩,
   ⟨[.r, .r, .b, .b], 4, [0, 0, 2, 2]⟩,
   ⟨[.s, .s, .p, .p], 4, [0, 0, 2, 2]⟩,
   ⟨[.y, .x, .z, .z], 4, [1, 0, 2, 2]⟩,
   ⟨[.g, .r, .b, .b], 4, [1, 0, 2, 2]⟩,
   ⟨[.t, .s, .p, .p], 4, [1, 0, 2, 2]⟩,
   ⟨[.z, .x, .z, .z], 4, [2, 0, 2, 2]⟩,
   ⟨[.b, .r, .b, .b], 4, [2, 0, 2, 2]⟩,
   ⟨[.p, .s, .p, .p], 4, [2, 0, 2, 2]⟩,
   ⟨[.w, .x, .z, .z], 4, [3, 0, 2, 2]⟩,
   ⟨[.a, .r, .b, .b], 4, [3, 0, 2, 2]⟩,
   ⟨[.q, .s, .p, .p], 4, [3, 0, 2, 2]⟩,
   ⟨[.x, .y, .z, .z], 4, [0, 1, 2, 2]⟩,
   ⟨[.r, .g, .b, .b], 4, [0, 1, 2, 2]⟩,
   ⟨[.s, .t, .p, .p], 4, [0, 1, 2, 2]⟩,
   ⟨[.y, .y, .z, .z], 4, [1, 1, 2, 2]⟩,
   ⟨[.g, .g, .b, .b], 4, [1, 1, 2, 2]⟩,
   ⟨[.t, .t, .p, .p], 4, [1, 1, 2, 2]⟩,
   ⟨[.z, .y, .z, .z], 4, [2, 1, 2, 2]⟩,
   ⟨[.b, .g, .b, .b], 4, [2, 1, 2, 2]⟩,
   ⟨[.p, .t, .p, .p], 4, [2, 1, 2, 2]⟩,
   ⟨[.w, .y, .z, .z], 4, [3, 1, 2, 2]⟩,
   ⟨[.a, .g, .b, .b], 4, [3, 1, 2, 2]⟩,
   ⟨[.q, .t, .p, .p], 4, [3, 1, 2, 2]⟩,
   ⟨[.x, .z, .z, .z], 4, [0, 2, 2, 2]⟩,
   ⟨[.r, .b, .b, .b], 4, [0, 2, 2, 2]⟩,
   ⟨[.s, .p, .p, .p], 4, [0, 2, 2, 2]⟩,
   ⟨[.y, .z, .z, .z], 4, [1, 2, 2, 2]⟩,
   ⟨[.g, .b, .b, .b], 4, [1, 2, 2, 2]⟩,
   ⟨[.t, .p, .p, .p], 4, [1, 2, 2, 2]⟩,
   ⟨[.z, .z, .z, .z], 4, [2, 2, 2, 2]⟩,
   ⟨[.b, .b, .b, .b], 4, [2, 2, 2, 2]⟩,
   ⟨[.p, .p, .p, .p], 4, [2, 2, 2, 2]⟩,
   ⟨[.w, .z, .z, .z], 4, [3, 2, 2, 2]⟩,
   ⟨[.a, .b, .b, .b], 4, [3, 2, 2, 2]⟩,
   ⟨[.q, .p, .p, .p], 4, [3, 2, 2, 2]⟩,
   ⟨[.x, .w, .z, .z], 4, [0, 3, 2, 2]⟩,
   ⟨[.r, .a, .b, .b], 4, [0, 3, 2, 2]⟩,
   ⟨[.s, .q, .p, .p], 4, [0, 3, 2, 2]⟩,
   ⟨[.y, .w, .z, .z], 4, [1, 3, 2, 2]⟩,
   ⟨[.g, .a, .b, .b], 4, [1, 3, 2, 2]⟩,
   ⟨[.t, .q, .p, .p], 4, [1, 3, 2, 2]⟩,
   ⟨[.z, .w, .z, .z], 4, [2, 3, 2, 2]⟩,
   ⟨[.b, .a, .b, .b], 4, [2, 3, 2, 2]⟩,
   ⟨[.p, .q, .p, .p], 4, [2, 3, 2, 2]⟩,
   ⟨[.w, .w, .z, .z], 4, [3, 3, 2, 2]⟩,
   ⟨[.a, .a, .b, .b], 4, [3, 3, 2, 2]⟩,
   ⟨[.q, .q, .p, .p], 4, [3, 3, 2, 2]⟩,
   ⟨[.x, .x, .w, .z], 4, [0, 0, 3, 2]⟩,
   ⟨[.r, .r, .a, .b], 4, [0, 0, 3, 2]⟩,
   ⟨[.s, .s, .q, .p], 4, [0, 0, 3, 2]⟩,
   ⟨[.y, .x, .w, .z], 4, [1, 0, 3, 2]⟩,
   ⟨[.g, .r, .a, .b], 4, [1, 0, 3, 2]⟩,
   ⟨[.t, .s, .q, .p], 4, [1, 0, 3, 2]⟩,
   ⟨[.z, .x, .w, .z], 4, [2, 0, 3, 2]⟩,
   ⟨[.b, .r, .a, .b], 4, [2, 0, 3, 2]⟩,
   ⟨[.p, .s, .q, .p], 4, [2, 0, 3, 2]⟩,
   ⟨[.w, .x, .w, .z], 4, [3, 0, 3, 2]⟩,
   ⟨[.a, .r, .a, .b], 4, [3, 0, 3, 2]⟩,
   ⟨[.q, .s, .q, .p], 4, [3, 0, 3, 2]⟩,
   ⟨[.x, .y, .w, .z], 4, [0, 1, 3, 2]⟩,
   ⟨[.r, .g, .a, .b], 4, [0, 1, 3, 2]⟩,
   ⟨[.s, .t, .q, .p], 4, [0, 1, 3, 2]⟩,
   ⟨[.y, .y, .w, .z], 4, [1, 1, 3, 2]⟩,
   ⟨[.g, .g, .a, .b], 4, [1, 1, 3, 2]⟩,
   ⟨[.t, .t, .q, .p], 4, [1, 1, 3, 2]⟩,
   ⟨[.z, .y, .w, .z], 4, [2, 1, 3, 2]⟩,
   ⟨[.b, .g, .a, .b], 4, [2, 1, 3, 2]⟩,
   ⟨[.p, .t, .q, .p], 4, [2, 1, 3, 2]⟩,
   ⟨[.w, .y, .w, .z], 4, [3, 1, 3, 2]⟩,
   ⟨[.a, .g, .a, .b], 4, [3, 1, 3, 2]⟩,
   ⟨[.q, .t, .q, .p], 4, [3, 1, 3, 2]⟩,
   ⟨[.x, .z, .w, .z], 4, [0, 2, 3, 2]⟩,
   ⟨[.r, .b, .a, .b], 4, [0, 2, 3, 2]⟩,
   ⟨[.s, .p, .q, .p], 4, [0, 2, 3, 2]⟩,
   ⟨[.y, .z, .w, .z], 4, [1, 2, 3, 2]⟩,
   ⟨[.g, .b, .a, .b], 4, [1, 2, 3, 2]⟩,
   ⟨[.t, .p, .q, .p], 4, [1, 2, 3, 2]⟩,
   ⟨[.z, .z, .w, .z], 4, [2, 2, 3, 2]⟩,
   ⟨[.b, .b, .a, .b], 4, [2, 2, 3, 2]⟩,
   ⟨[.p, .p, .q, .p], 4, [2, 2, 3, 2]⟩,
   ⟨[.w, .z, .w, .z], 4, [3, 2, 3, 2]⟩,
   ⟨[.a, .b, .a, .b], 4, [3, 2, 3, 2]⟩,
   ⟨[.q, .p, .q, .p], 4, [3, 2, 3, 2]⟩,
   ⟨[.x, .w, .w, .z], 4, [0, 3, 3, 2]⟩,
   ⟨[.r, .a, .a, .b], 4, [0, 3, 3, 2]⟩,
   ⟨[.s, .q, .q, .p], 4, [0, 3, 3, 2]⟩,
   ⟨[.y, .w, .w, .z], 4, [1, 3, 3, 2]⟩,
   ⟨[.g, .a, .a, .b], 4, [1, 3, 3, 2]⟩,
   ⟨[.t, .q, .q, .p], 4, [1, 3, 3, 2]⟩,
   ⟨[.z, .w, .w, .z], 4, [2, 3, 3, 2]⟩,
   ⟨[.b, .a, .a, .b], 4, [2, 3, 3, 2]⟩,
   ⟨[.p, .q, .q, .p], 4, [2, 3, 3, 2]⟩,
   ⟨[.w, .w, .w, .z], 4, [3, 3, 3, 2]⟩,
   ⟨[.a, .a, .a, .b], 4, [3, 3, 3, 2]⟩,
   ⟨[.q, .q, .q, .p], 4, [3, 3, 3, 2]⟩,
   ⟨[.x, .x, .x, .w], 4, [0, 0, 0, 3]⟩,
   ⟨[.r, .r, .r, .a], 4, [0, 0, 0, 3]⟩,
   ⟨[.s, .s, .s, .q], 4, [0, 0, 0, 3]⟩,
   ⟨[.y, .x, .x, .w], 4, [1, 0, 0, 3]⟩,
   ⟨[.g, .r, .r, .a], 4, [1, 0, 0, 3]⟩,
   ⟨[.t, .s, .s, .q], 4, [1, 0, 0, 3]⟩,
   ⟨[.z, .x, .x, .w], 4, [2, 0, 0, 3]⟩,
   ⟨[.b, .r, .r, .a], 4, [2, 0, 0, 3]⟩,
   ⟨[.p, .s, .s, .q], 4, [2, 0, 0, 3]⟩,
   ⟨[.w, .x, .x, .w], 4, [3, 0, 0, 3]⟩,
   ⟨[.a, .r, .r, .a], 4, [3, 0, 0, 3]⟩,
   ⟨[.q, .s, .s, .q], 4, [3, 0, 0, 3]⟩,
   ⟨[.x, .y, .x, .w], 4, [0, 1, 0, 3]⟩,
   ⟨[.r, .g, .r, .a], 4, [0, 1, 0, 3]⟩,
   ⟨[.s, .t, .s, .q], 4, [0, 1, 0, 3]⟩,
   ⟨[.y, .y, .x, .w], 4, [1, 1, 0, 3]⟩,
   ⟨[.g, .g, .r, .a], 4, [1, 1, 0, 3]⟩,
   ⟨[.t, .t, .s, .q], 4, [1, 1, 0, 3]⟩,
   ⟨[.z, .y, .x, .w], 4, [2, 1, 0, 3]⟩,
   ⟨[.b, .g, .r, .a], 4, [2, 1, 0, 3]⟩,
   ⟨[.p, .t, .s, .q], 4, [2, 1, 0, 3]⟩,
   ⟨[.w, .y, .x, .w], 4, [3, 1, 0, 3]⟩,
   ⟨[.a, .g, .r, .a], 4, [3, 1, 0, 3]⟩,
   ⟨[.q, .t, .s, .q], 4, [3, 1, 0, 3]⟩,
   ⟨[.x, .z, .x, .w], 4, [0, 2, 0, 3]⟩,
   ⟨[.r, .b, .r, .a], 4, [0, 2, 0, 3]⟩,
   ⟨[.s, .p, .s, .q], 4, [0, 2, 0, 3]⟩,
   ⟨[.y, .z, .x, .w], 4, [1, 2, 0, 3]⟩,
   ⟨[.g, .b, .r, .a], 4, [1, 2, 0, 3]⟩,
   ⟨[.t, .p, .s, .q], 4, [1, 2, 0, 3]⟩,
   ⟨[.z, .z, .x, .w], 4, [2, 2, 0, 3]⟩,
   ⟨[.b, .b, .r, .a], 4, [2, 2, 0, 3]⟩,
   ⟨[.p, .p, .s, .q], 4, [2, 2, 0, 3]⟩,
   ⟨[.w, .z, .x, .w], 4, [3, 2, 0, 3]⟩,
   ⟨[.a, .b, .r, .a], 4, [3, 2, 0, 3]⟩,
   ⟨[.q, .p, .s, .q], 4, [3, 2, 0, 3]⟩,
   ⟨[.x, .w, .x, .w], 4, [0, 3, 0, 3]⟩,
   ⟨[.r, .a, .r, .a], 4, [0, 3, 0, 3]⟩,
   ⟨[.s, .q, .s, .q], 4, [0, 3, 0, 3]⟩,
   ⟨[.y, .w, .x, .w], 4, [1, 3, 0, 3]⟩,
   ⟨[.g, .a, .r, .a], 4, [1, 3, 0, 3]⟩,
   ⟨[.t, .q, .s, .q], 4, [1, 3, 0, 3]⟩,
   ⟨[.z, .w, .x, .w], 4, [2, 3, 0, 3]⟩,
   ⟨[.b, .a, .r, .a], 4, [2, 3, 0, 3]⟩,
   ⟨[.p, .q, .s, .q], 4, [2, 3, 0, 3]⟩,
   ⟨[.w, .w, .x, .w], 4, [3, 3, 0, 3]⟩,
   ⟨[.a, .a, .r, .a], 4, [3, 3, 0, 3]⟩,
   ⟨[.q, .q, .s, .q], 4, [3, 3, 0, 3]⟩,
   ⟨[.x, .x, .y, .w], 4, [0, 0, 1, 3]⟩,
   ⟨[.r, .r, .g, .a], 4, [0, 0, 1, 3]⟩,
   ⟨[.s, .s, .t, .q], 4, [0, 0, 1, 3]⟩,
   ⟨[.y, .x, .y, .w], 4, [1, 0, 1, 3]⟩,
   ⟨[.g, .r, .g, .a], 4, [1, 0, 1, 3]⟩,
   ⟨[.t, .s, .t, .q], 4, [1, 0, 1, 3]⟩,
   ⟨[.z, .x, .y, .w], 4, [2, 0, 1, 3]⟩,
   ⟨[.b, .r, .g, .a], 4, [2, 0, 1, 3]⟩,
   ⟨[.p, .s, .t, .q], 4, [2, 0, 1, 3]⟩,
   ⟨[.w, .x, .y, .w], 4, [3, 0, 1, 3]⟩,
   ⟨[.a, .r, .g, .a], 4, [3, 0, 1, 3]⟩,
   ⟨[.q, .s, .t, .q], 4, [3, 0, 1, 3]⟩,
   ⟨[.x, .y, .y, .w], 4, [0, 1, 1, 3]⟩,
   ⟨[.r, .g, .g, .a], 4, [0, 1, 1, 3]⟩,
   ⟨[.s, .t, .t, .q], 4, [0, 1, 1, 3]⟩,
   ⟨[.y, .y, .y, .w], 4, [1, 1, 1, 3]⟩,
   ⟨[.g, .g, .g, .a], 4, [1, 1, 1, 3]⟩,
   ⟨[.t, .t, .t, .q], 4, [1, 1, 1, 3]⟩,
   ⟨[.z, .y, .y, .w], 4, [2, 1, 1, 3]⟩,
   ⟨[.b, .g, .g, .a], 4, [2, 1, 1, 3]⟩,
   ⟨[.p, .t, .t, .q], 4, [2, 1, 1, 3]⟩,
   ⟨[.w, .y, .y, .w], 4, [3, 1, 1, 3]⟩,
   ⟨[.a, .g, .g, .a], 4, [3, 1, 1, 3]⟩,
   ⟨[.q, .t, .t, .q], 4, [3, 1, 1, 3]⟩,
   ⟨[.x, .z, .y, .w], 4, [0, 2, 1, 3]⟩,
   ⟨[.r, .b, .g, .a], 4, [0, 2, 1, 3]⟩,
   ⟨[.s, .p, .t, .q], 4, [0, 2, 1, 3]⟩,
   ⟨[.y, .z, .y, .w], 4, [1, 2, 1, 3]⟩,
   ⟨[.g, .b, .g, .a], 4, [1, 2, 1, 3]⟩,
   ⟨[.t, .p, .t, .q], 4, [1, 2, 1, 3]⟩,
   ⟨[.z, .z, .y, .w], 4, [2, 2, 1, 3]⟩,
   ⟨[.b, .b, .g, .a], 4, [2, 2, 1, 3]⟩,
   ⟨[.p, .p, .t, .q], 4, [2, 2, 1, 3]⟩,
   ⟨[.w, .z, .y, .w], 4, [3, 2, 1, 3]⟩,
   ⟨[.a, .b, .g, .a], 4, [3, 2, 1, 3]⟩,
   ⟨[.q, .p, .t, .q], 4, [3, 2, 1, 3]⟩,
   ⟨[.x, .w, .y, .w], 4, [0, 3, 1, 3]⟩,
   ⟨[.r, .a, .g, .a], 4, [0, 3, 1, 3]⟩,
   ⟨[.s, .q, .t, .q], 4, [0, 3, 1, 3]⟩,
   ⟨[.y, .w, .y, .w], 4, [1, 3, 1, 3]⟩,
   ⟨[.g, .a, .g, .a], 4, [1, 3, 1, 3]⟩,
   ⟨[.t, .q, .t, .q], 4, [1, 3, 1, 3]⟩,
   ⟨[.z, .w, .y, .w], 4, [2, 3, 1, 3]⟩,
   ⟨[.b, .a, .g, .a], 4, [2, 3, 1, 3]⟩,
   ⟨[.p, .q, .t, .q], 4, [2, 3, 1, 3]⟩,
   ⟨[.w, .w, .y, .w], 4, [3, 3, 1, 3]⟩,
   ⟨[.a, .a, .g, .a], 4, [3, 3, 1, 3]⟩,
   ⟨[.q, .q, .t, .q], 4, [3, 3, 1, 3]⟩,
   ⟨[.x, .x, .z, .w], 4, [0, 0, 2, 3]⟩,
   ⟨[.r, .r, .b, .a], 4, [0, 0, 2, 3]⟩,
   ⟨[.s, .s, .p, .q], 4, [0, 0, 2, 3]⟩,
   ⟨[.y, .x, .z, .w], 4, [1, 0, 2, 3]⟩,
   ⟨[.g, .r, .b, .a], 4, [1, 0, 2, 3]⟩,
   ⟨[.t, .s, .p, .q], 4, [1, 0, 2, 3]⟩,
   ⟨[.z, .x, .z, .w], 4, [2, 0, 2, 3]⟩,
   ⟨[.b, .r, .b, .a], 4, [2, 0, 2, 3]⟩,
   ⟨[.p, .s, .p, .q], 4, [2, 0, 2, 3]⟩,
   ⟨[.w, .x, .z, .w], 4, [3, 0, 2, 3]⟩,
   ⟨[.a, .r, .b, .a], 4, [3, 0, 2, 3]⟩,
   ⟨[.q, .s, .p, .q], 4, [3, 0, 2, 3]⟩,
   ⟨[.x, .y, .z, .w], 4, [0, 1, 2, 3]⟩,
   ⟨[.r, .g, .b, .a], 4, [0, 1, 2, 3]⟩,
   ⟨[.s, .t, .p, .q], 4, [0, 1, 2, 3]⟩,
   ⟨[.y, .y, .z, .w], 4, [1, 1, 2, 3]⟩,
   ⟨[.g, .g, .b, .a], 4, [1, 1, 2, 3]⟩,
   ⟨[.t, .t, .p, .q], 4, [1, 1, 2, 3]⟩,
   ⟨[.z, .y, .z, .w], 4, [2, 1, 2, 3]⟩,
   ⟨[.b, .g, .b, .a], 4, [2, 1, 2, 3]⟩,
   ⟨[.p, .t, .p, .q], 4, [2, 1, 2, 3]⟩,
   ⟨[.w, .y, .z, .w], 4, [3, 1, 2, 3]⟩,
   ⟨[.a, .g, .b, .a], 4, [3, 1, 2, 3]⟩,
   ⟨[.q, .t, .p, .q], 4, [3, 1, 2, 3]⟩,
   ⟨[.x, .z, .z, .w], 4, [0, 2, 2, 3]⟩,
   ⟨[.r, .b, .b, .a], 4, [0, 2, 2, 3]⟩,
   ⟨[.s, .p, .p, .q], 4, [0, 2, 2, 3]⟩,
   ⟨[.y, .z, .z, .w], 4, [1, 2, 2, 3]⟩,
   ⟨[.g, .b, .b, .a], 4, [1, 2, 2, 3]⟩,
   ⟨[.t, .p, .p, .q], 4, [1, 2, 2, 3]⟩,
   ⟨[.z, .z, .z, .w], 4, [2, 2, 2, 3]⟩,
   ⟨[.b, .b, .b, .a], 4, [2, 2, 2, 3]⟩,
   ⟨[.p, .p, .p, .q], 4, [2, 2, 2, 3]⟩,
   ⟨[.w, .z, .z, .w], 4, [3, 2, 2, 3]⟩,
   ⟨[.a, .b, .b, .a], 4, [3, 2, 2, 3]⟩,
   ⟨[.q, .p, .p, .q], 4, [3, 2, 2, 3]⟩,
   ⟨[.x, .w, .z, .w], 4, [0, 3, 2, 3]⟩,
   ⟨[.r, .a, .b, .a], 4, [0, 3, 2, 3]⟩,
   ⟨[.s, .q, .p, .q], 4, [0, 3, 2, 3]⟩,
   ⟨[.y, .w, .z, .w], 4, [1, 3, 2, 3]⟩,
   ⟨[.g, .a, .b, .a], 4, [1, 3, 2, 3]⟩,
   ⟨[.t, .q, .p, .q], 4, [1, 3, 2, 3]⟩,
   ⟨[.z, .w, .z, .w], 4, [2, 3, 2, 3]⟩,
   ⟨[.b, .a, .b, .a], 4, [2, 3, 2, 3]⟩,
   ⟨[.p, .q, .p, .q], 4, [2, 3, 2, 3]⟩,
   ⟨[.w, .w, .z, .w], 4, [3, 3, 2, 3]⟩,
   ⟨[.a, .a, .b, .a], 4, [3, 3, 2, 3]⟩,
   ⟨[.q, .q, .p, .q], 4, [3, 3, 2, 3]⟩,
   ⟨[.x, .x, .w, .w], 4, [0, 0, 3, 3]⟩,
   ⟨[.r, .r, .a, .a], 4, [0, 0, 3, 3]⟩,
   ⟨[.s, .s, .q, .q], 4, [0, 0, 3, 3]⟩,
   ⟨[.y, .x, .w, .w], 4, [1, 0, 3, 3]⟩,
   ⟨[.g, .r, .a, .a], 4, [1, 0, 3, 3]⟩,
   ⟨[.t, .s, .q, .q], 4, [1, 0, 3, 3]⟩,
   ⟨[.z, .x, .w, .w], 4, [2, 0, 3, 3]⟩,
   ⟨[.b, .r, .a, .a], 4, [2, 0, 3, 3]⟩,
   ⟨[.p, .s, .q, .q], 4, [2, 0, 3, 3]⟩,
   ⟨[.w, .x, .w, .w], 4, [3, 0, 3, 3]⟩,
   ⟨[.a, .r, .a, .a], 4, [3, 0, 3, 3]⟩,
   ⟨[.q, .s, .q, .q], 4, [3, 0, 3, 3]⟩,
   ⟨[.x, .y, .w, .w], 4, [0, 1, 3, 3]⟩,
   ⟨[.r, .g, .a, .a], 4, [0, 1, 3, 3]⟩,
   ⟨[.s, .t, .q, .q], 4, [0, 1, 3, 3]⟩,
   ⟨[.y, .y, .w, .w], 4, [1, 1, 3, 3]⟩,
   ⟨[.g, .g, .a, .a], 4, [1, 1, 3, 3]⟩,
   ⟨[.t, .t, .q, .q], 4, [1, 1, 3, 3]⟩,
   ⟨[.z, .y, .w, .w], 4, [2, 1, 3, 3]⟩,
   ⟨[.b, .g, .a, .a], 4, [2, 1, 3, 3]⟩,
   ⟨[.p, .t, .q, .q], 4, [2, 1, 3, 3]⟩,
   ⟨[.w, .y, .w, .w], 4, [3, 1, 3, 3]⟩,
   ⟨[.a, .g, .a, .a], 4, [3, 1, 3, 3]⟩,
   ⟨[.q, .t, .q, .q], 4, [3, 1, 3, 3]⟩,
   ⟨[.x, .z, .w, .w], 4, [0, 2, 3, 3]⟩,
   ⟨[.r, .b, .a, .a], 4, [0, 2, 3, 3]⟩,
   ⟨[.s, .p, .q, .q], 4, [0, 2, 3, 3]⟩,
   ⟨[.y, .z, .w, .w], 4, [1, 2, 3, 3]⟩,
   ⟨[.g, .b, .a, .a], 4, [1, 2, 3, 3]⟩,
   ⟨[.t, .p, .q, .q], 4, [1, 2, 3, 3]⟩,
   ⟨[.z, .z, .w, .w], 4, [2, 2, 3, 3]⟩,
   ⟨[.b, .b, .a, .a], 4, [2, 2, 3, 3]⟩,
   ⟨[.p, .p, .q, .q], 4, [2, 2, 3, 3]⟩,
   ⟨[.w, .z, .w, .w], 4, [3, 2, 3, 3]⟩,
   ⟨[.a, .b, .a, .a], 4, [3, 2, 3, 3]⟩,
   ⟨[.q, .p, .q, .q], 4, [3, 2, 3, 3]⟩,
   ⟨[.x, .w, .w, .w], 4, [0, 3, 3, 3]⟩,
   ⟨[.r, .a, .a, .a], 4, [0, 3, 3, 3]⟩,
   ⟨[.s, .q, .q, .q], 4, [0, 3, 3, 3]⟩,
   ⟨[.y, .w, .w, .w], 4, [1, 3, 3, 3]⟩,
   ⟨[.g, .a, .a, .a], 4, [1, 3, 3, 3]⟩,
   ⟨[.t, .q, .q, .q], 4, [1, 3, 3, 3]⟩,
   ⟨[.z, .w, .w, .w], 4, [2, 3, 3, 3]⟩,
   ⟨[.b, .a, .a, .a], 4, [2, 3, 3, 3]⟩,
   ⟨[.p, .q, .q, .q], 4, [2, 3, 3, 3]⟩,
   ⟨[.w, .w, .w, .w], 4, [3, 3, 3, 3]⟩,
   ⟨[.a, .a, .a, .a], 4, [3, 3, 3, 3]⟩,
   ⟨[.q, .q, .q, .q], 4, [3, 3, 3, 3]⟩]

/-- scalar members of `ivec2`: include/zcm/ivec2.hpp:55-56 -/
def IV2.scalars : List (Letter × Fin 2) :=
  [(.x, 0), (.r, 0), (.s, 0), (.y, 1), (.g, 1), (.t, 1)]

/-- swizzle members of `ivec2`: include/zcm/ivec2.hpp:57-61 -/
def IV2.swizzles : List (Swizzle 2) :=
  [⟨[.x, .x], 2, [0, 0]⟩,
   ⟨[.r, .r], 2, [0, 0]⟩,
   ⟨[.s, .s], 2, [0, 0]⟩,
   ⟨[.y, .x], 2, [1, 0]⟩,
   ⟨[.g, .r], 2, [1, 0]⟩,
   ⟨[.t, .s], 2, [1, 0]⟩,
   ⟨[.x, .y], 2, [0, 1]⟩,
   ⟨[.r, .g], 2, [0, 1]⟩,
   ⟨[.s, .t], 2, [0, 1]⟩,
   ⟨[.y, .y], 2, [1, 1]⟩,
   ⟨[.g, .g], 2, [1, 1]⟩,
   ⟨[.t, .t], 2, [1, 1]⟩]

/-- scalar members of `ivec3`: include/zcm/ivec3.hpp:59-61 -/
def IV3.scalars : List (Letter × Fin 3) :=
  [(.x, 0), (.r, 0), (.s, 0), (.y, 1), (.g, 1), (.t, 1), (.z, 2), (.b, 2), (.p, 2)]

/-- swizzle members of `ivec3`: include/zcm/ivec3.hpp:62-100 -/
def IV3.swizzles : List (Swizzle 3) :=
  [⟨[.x, .x], 2, [0, 0]⟩,
   ⟨[.r, .r], 2, [0, 0]⟩,
   ⟨[.s, .s], 2, [0, 0]⟩,
   ⟨[.y, .x], 2, [1, 0]⟩,
   ⟨[.g, .r], 2, [1, 0]⟩,
   ⟨[.t, .s], 2, [1, 0]⟩,
   ⟨[.z, .x], 2, [2, 0]⟩,
   ⟨[.b, .r], 2, [2, 0]⟩,
   ⟨[.p, .s], 2, [2, 0]⟩,
   ⟨[.x, .y], 2, [0, 1]⟩,
   ⟨[.r, .g], 2, [0, 1]⟩,
   ⟨[.s, .t], 2, [0, 1]⟩,
   ⟨[.y, .y], 2, [1, 1]⟩,
   ⟨[.g, .g], 2, [1, 1]⟩,
   ⟨[.t, .t], 2, [1, 1]⟩,
   ⟨[.z, .y], 2, [2, 1]⟩,
   ⟨[.b, .g], 2, [2, 1]⟩,
   ⟨[.p, .t], 2, [2, 1]⟩,
   ⟨[.x, .z], 2, [0, 2]⟩,
   ⟨[.r, .b], 2, [0, 2]⟩,
   ⟨[.s, .p], 2, [0, 2]⟩,
   ⟨[.y, .z], 2, [1, 2]⟩,
   ⟨[.g, .b], 2, [1, 2]⟩,
   ⟨[.t, .p], 2, [1, 2]⟩,
   ⟨[.z, .z], 2, [2, 2]⟩,
   ⟨[.b, .b], 2, [2, 2]⟩,
   ⟨[.p, .p], 2, [2, 2]⟩,
   ⟨[.x, .x, .x], 3, [0, 0, 0]⟩,
   ⟨[.r, .r, .r], 3, [0, 0, 0]⟩,
   ⟨[.s, .s, .s], 3, [0, 0, 0]⟩,
   ⟨[.y, .x, .x], 3, [1, 0, 0]⟩,
   ⟨[.g, .r, .r], 3, [1, 0, 0]⟩,
   ⟨[.t, .s, .s], 3, [1, 0, 0]⟩,
   ⟨[.z, .x, .x], 3, [2, 0, 0]⟩,
   ⟨[.b, .r, .r], 3, [2, 0, 0]⟩,
   ⟨[.p, .s, .s], 3, [2, 0, 0]⟩,
   ⟨[.x, .y, .x], 3, [0, 1, 0]⟩,
   ⟨[.r, .g, .r], 3, [0, 1, 0]⟩,
   ⟨[.s, .t, .s], 3, [0, 1, 0]⟩,
   ⟨[.y, .y, .x], 3, [1, 1, 0]⟩,
   ⟨[.g, .g, .r], 3, [1, 1, 0]⟩,
   ⟨[.t, .t, .s], 3, [1, 1, 0]⟩,
   ⟨[.z, .y, .x], 3, [2, 1, 0]⟩,
   ⟨[.b, .g, .r], 3, [2, 1, 0]⟩,
   ⟨[.p, .t, .s], 3, [2, 1, 0]⟩,
   ⟨[.x, .z, .x], 3, [0, 2, 0]⟩,
   ⟨[.r, .b, .r], 3, [0, 2, 0]⟩,
   ⟨[.s, .p, .s], 3, [0, 2, 0]⟩,
   ⟨[.y, .z, .x], 3, [1, 2, 0]⟩,
   ⟨[.g, .b, .r], 3, [1, 2, 0]⟩,
   ⟨[.t, .p, .s], 3, [1, 2, 0]⟩,
   ⟨[.z, .z, .x], 3, [2, 2, 0]⟩,
   ⟨[.b, .b, .r], 3, [2, 2, 0]⟩,
   ⟨[.p, .p, .s], 3, [2, 2, 0]⟩,
   ⟨[.x, .x, .y], 3, [0, 0, 1]⟩,
   ⟨[.r, .r, .g], 3, [0, 0, 1]⟩,
   ⟨[.s, .s, .t], 3, [0, 0, 1]⟩,
   ⟨[.y, .x, .y], 3, [1, 0, 1]⟩,
   ⟨[.g, .r, .g], 3, [1, 0, 1]⟩,
   ⟨[.t, .s, .t], 3, [1, 0, 1]⟩,
   ⟨[.z, .x, .y], 3, [2, 0, 1]⟩,
   ⟨[.b, .r, .g], 3, [2, 0, 1]⟩,
   ⟨[.p, .s, .t], 3, [2, 0, 1]⟩,
   ⟨[.x, .y, .y], 3, [0, 1, 1]⟩,
   ⟨[.r, .g, .g], 3, [0, 1, 1]⟩,
   ⟨[.s, .t, .t], 3, [0, 1, 1]⟩,
   ⟨[.y, .y, .y], 3, [1, 1, 1]⟩,
   ⟨[.g, .g, .g], 3, [1, 1, 1]⟩,
   ⟨[.t, .t, .t], 3, [1, 1, 1]⟩,
   ⟨[.z, .y, .y], 3, [2, 1, 1]⟩,
   ⟨[.b, .g, .g], 3, [2, 1, 1]⟩,
   ⟨[.p, .t, .t], 3, [2, 1, 1]⟩,
   ⟨[.x, .z, .y], 3, [0, 2, 1]⟩,
   ⟨[.r, .b, .g], 3, [0, 2, 1]⟩,
   ⟨[.s, .p, .t], 3, [0, 2, 1]⟩,
   ⟨[.y, .z, .y], 3, [1, 2, 1]⟩,
   ⟨[.g, .b, .g], 3, [1, 2, 1]⟩,
   ⟨[.t, .p, .t], 3, [1, 2, 1]⟩,
   ⟨[.z, .z, .y], 3, [2, 2, 1]⟩,
   ⟨[.b, .b, .g], 3, [2, 2, 1]⟩,
   ⟨[.p, .p, .t], 3, [2, 2, 1]⟩,
   ⟨[.x, .x, .z], 3, [0, 0, 2]⟩,
   ⟨[.r, .r, .b], 3, [0, 0, 2]⟩,
   ⟨[.s, .s, .p], 3, [0, 0, 2]⟩,
   ⟨[.y, .x, .z], 3, [1, 0, 2]⟩,
   ⟨[.g, .r, .b], 3, [1, 0, 2]⟩,
   ⟨[.t, .s, .p], 3, [1, 0, 2]⟩,
   ⟨[.z, .x, .z], 3, [2, 0, 2]⟩,
   ⟨[.b, .r, .b], 3, [2, 0, 2]⟩,
   ⟨[.p, .s, .p], 3, [2, 0, 2]⟩,
   ⟨[.x, .y, .z], 3, [0, 1, 2]⟩,
   ⟨[.r, .g, .b], 3, [0, 1, 2]⟩,
   ⟨[.s, .t, .p], 3, [0, 1, 2]⟩,
   ⟨[.y, .y, .z], 3, [1, 1, 2]⟩,
   ⟨[.g, .g, .b], 3, [1, 1, 2]⟩,
   ⟨[.t, .t, .p], 3, [1, 1, 2]⟩,
   ⟨[.z, .y, .z], 3, [2, 1, 2]⟩,
   ⟨[.b, .g, .b], 3, [2, 1, 2]⟩,
   ⟨[.p, .t, .p], 3, [2, 1, 2]⟩,
   ⟨[.x, .z, .z], 3, [0, 2, 2]⟩,
   ⟨[.r, .b, .b], 3, [0, 2, 2]⟩,
   ⟨[.s, .p, .p], 3, [0, 2, 2]⟩,
   ⟨[.y, .z, .z], 3, [1, 2, 2]⟩,
   ⟨[.g, .b, .b], 3, [1, 2, 2]⟩,
   ⟨[.t, .p, .p], 3, [1, 2, 2]⟩,
   ⟨[.z, .z, .z], 3, [2, 2, 2]⟩,
   ⟨[.b, .b, .b], 3, [2, 2, 2]⟩,
   ⟨[.p, .p, .p], 3, [2, 2, 2]⟩]

/-- scalar members of `ivec4`: include/zcm/ivec4.hpp:65-68 -/
def IV4.scalars : List (Letter × Fin 4) :=
  [(.x, 0), (.r, 0), (.s, 0), (.y, 1), (.g, 1), (.t, 1), (.z, 2), (.b, 2), (.p, 2), (.w, 3), (.a, 3), (.q, 3)]

/-- swizzle members of `ivec4`: include/zcm/ivec4.hpp:69-408 -/
def IV4.swizzles : List (Swizzle 4) :=
  [⟨[.x, .x], 2, [0, 0]⟩,
   ⟨[.r, .r], 2, [0, 0]⟩,
   ⟨[.s, .s], 2, [0, 0]⟩,
   ⟨[.y, .x], 2, [1, 0]⟩,
   ⟨[.g, .r], 2, [1, 0]⟩,
   ⟨[.t, .s], 2, [1, 0]⟩,
   ⟨[.z, .x], 2, [2, 0]⟩,
   ⟨[.b, .r], 2, [2, 0]⟩,
   ⟨[.p, .s], 2, [2, 0]⟩,
   ⟨[.w, .x], 2, [3, 0]⟩,
   ⟨[.a, .r], 2, [3, 0]⟩,
   ⟨[.q, .s], 2, [3, 0]⟩,
   ⟨[.x, .y], 2, [0, 1]⟩,
   ⟨[.r, .g], 2, [0, 1]⟩,
   ⟨[.s, .t], 2, [0, 1]⟩,
   ⟨[.y, .y], 2, [1, 1]⟩,
   ⟨[.g, .g], 2, [1, 1]⟩,
   ⟨[.t, .t], 2, [1, 1]⟩,
   ⟨[.z, .y], 2, [2, 1]⟩,
   ⟨[.b, .g], 2, [2, 1]⟩,
   ⟨[.p, .t], 2, [2, 1]⟩,
   ⟨[.w, .y], 2, [3, 1]⟩,
   ⟨[.a, .g], 2, [3, 1]⟩,
   ⟨[.q, .t], 2, [3, 1]⟩,
   ⟨[.x, .z], 2, [0, 2]⟩,
   ⟨[.r, .b], 2, [0, 2]⟩,
   ⟨[.s, .p], 2, [0, 2]⟩,
   ⟨[.y, .z], 2, [1, 2]⟩,
   ⟨[.g, .b], 2, [1, 2]⟩,
   ⟨[.t, .p], 2, [1, 2]⟩,
   ⟨[.z, .z], 2, [2, 2]⟩,
   ⟨[.b, .b], 2, [2, 2]⟩,
   ⟨[.p, .p], 2, [2, 2]⟩,
   ⟨[.w, .z], 2, [3, 2]⟩,
   ⟨[.a, .b], 2, [3, 2]⟩,
   ⟨[.q, .p], 2, [3, 2]⟩,
   ⟨[.x, .w], 2, [0, 3]⟩,
   ⟨[.r, .a], 2, [0, 3]⟩,
   ⟨[.s, .q], 2, [0, 3]⟩,
   ⟨[.y, .w], 2, [1, 3]⟩,
   ⟨[.g, .a], 2, [1, 3]⟩,
   ⟨[.t, .q], 2, [1, 3]⟩,
   ⟨[.z, .w], 2, [2, 3]⟩,
   ⟨[.b, .a], 2, [2, 3]⟩,
   ⟨[.p, .q], 2, [2, 3]⟩,
   ⟨[.w, .w], 2, [3, 3]⟩,
   ⟨[.a, .a], 2, [3, 3]⟩,
   ⟨[.q, .q], 2, [3, 3]⟩,
   ⟨[.x, .x, .x], 3, [0, 0, 0]⟩,
   ⟨[.r, .r, .r], 3, [0, 0, 0]⟩,
   ⟨[.s, .s, .s], 3, [0, 0, 0]⟩,
   ⟨[.y, .x, .x], 3, [1, 0, 0]⟩,
   ⟨[.g, .r, .r], 3, [1, 0, 0]⟩,
   ⟨[.t, .s, .s], 3, [1, 0, 0]⟩,
   ⟨[.z, .x, .x], 3, [2, 0, 0]⟩,
   ⟨[.b, .r, .r], 3, [2, 0, 0]⟩,
   ⟨[.p, .s, .s], 3, [2, 0, 0]⟩,
   ⟨[.w, .x, .x], 3, [3, 0, 0]⟩,
   ⟨[.a, .r, .r], 3, [3, 0, 0]⟩,
   ⟨[.q, .s, .s], 3, [3, 0, 0]⟩,
   ⟨[.x, .y, .x], 3, [0, 1, 0]⟩,
   ⟨[.r, .g, .r], 3, [0, 1, 0]⟩,
   ⟨[.s, .t, .s], 3, [0, 1, 0]⟩,
   ⟨[.y, .y, .x], 3, [1, 1, 0]⟩,
   ⟨[.g, .g, .r], 3, [1, 1, 0]⟩,
   ⟨[.t, .t, .s], 3, [1, 1, 0]⟩,
   ⟨[.z, .y, .x], 3, [2, 1, 0]⟩,
   ⟨[.b, .g, .r], 3, [2, 1, 0]⟩,
   ⟨[.p, .t, .s], 3, [2, 1, 0]⟩,
   ⟨[.w, .y, .x], 3, [3, 1, 0]⟩,
   ⟨[.a, .g, .r], 3, [3, 1, 0]⟩,
   ⟨[.q, .t, .s], 3, [3, 1, 0]⟩,
   ⟨[.x, .z, .x], 3, [0, 2, 0]⟩,
   ⟨[.r, .b, .r], 3, [0, 2, 0]⟩,
   ⟨[.s, .p, .s], 3, [0, 2, 0]⟩,
   ⟨[.y, .z, .x], 3, [1, 2, 0]⟩,
   ⟨[.g, .b, .r], 3, [1, 2, 0]⟩,
   ⟨[.t, .p, .s], 3, [1, 2, 0]⟩,
   ⟨[.z, .z, .x], 3, [2, 2, 0]⟩,
   ⟨[.b, .b, .r], 3, [2, 2, 0]⟩,
   ⟨[.p, .p, .s], 3, [2, 2, 0]⟩,
   ⟨[.w, .z, .x], 3, [3, 2, 0]⟩,
   ⟨[.a, .b, .r], 3, [3, 2, 0]⟩,
   ⟨[.q, .p, .s], 3, [3, 2, 0]⟩,
   ⟨[.x, .w, .x], 3, [0, 3, 0]⟩,
   ⟨[.r, .a, .r], 3, [0, 3, 0]⟩,
   ⟨[.s, .q, .s], 3, [0, 3, 0]⟩,
   ⟨[.y, .w, .x], 3, [1, 3, 0]⟩,
   ⟨[.g, .a, .r], 3, [1, 3, 0]⟩,
   ⟨[.t, .q, .s], 3, [1, 3, 0]⟩,
   ⟨[.z, .w, .x], 3, [2, 3, 0]⟩,
   ⟨[.b, .a, .r], 3, [2, 3, 0]⟩,
   ⟨[.p, .q, .s], 3, [2, 3, 0]⟩,
   ⟨[.w, .w, .x], 3, [3, 3, 0]⟩,
   ⟨[.a, .a, .r], 3, [3, 3, 0]⟩,
   ⟨[.q, .q, .s], 3, [3, 3, 0]⟩,
   ⟨[.x, .x, .y], 3, [0, 0, 1]⟩,
   ⟨[.r, .r, .g], 3, [0, 0, 1]⟩,
   ⟨[.s, .s, .t], 3, [0, 0, 1]⟩,
   ⟨[.y, .x, .y], 3, [1, 0, 1]⟩,
   ⟨[.g, .r, .g], 3, [1, 0, 1]⟩,
   ⟨[.t, .s, .t], 3, [1, 0, 1]⟩,
   ⟨[.z, .x, .y], 3, [2, 0, 1]⟩,
   ⟨[.b, .r, .g], 3, [2, 0, 1]⟩,
   ⟨[.p, .s, .t], 3, [2, 0, 1]⟩,
   ⟨[.w, .x, .y], 3, [3, 0, 1]⟩,
   ⟨[.a, .r, .g], 3, [3, 0, 1]⟩,
   ⟨[.q, .s, .t], 3, [3, 0, 1]⟩,
   ⟨[.x, .y, .y], 3, [0, 1, 1]⟩,
   ⟨[.r, .g, .g], 3, [0, 1, 1]⟩,
   ⟨[.s, .t, .t], 3, [0, 1, 1]⟩,
   ⟨[.y, .y, .y], 3, [1, 1, 1]⟩,
   ⟨[.g, .g, .g], 3, [1, 1, 1]⟩,
   ⟨[.t, .t, .t], 3, [1, 1, 1]⟩,
   ⟨[.z, .y, .y], 3, [2, 1, 1]⟩,
   ⟨[.b, .g, .g], 3, [2, 1, 1]⟩,
   ⟨[.p, .t, .t], 3, [2, 1, 1]⟩,
   ⟨[.w, .y, .y], 3, [3, 1, 1]⟩,
   ⟨[.a, .g, .g], 3, [3, 1, 1]⟩,
   ⟨[.q, .t, .t], 3, [3, 1, 1]⟩,
   ⟨[.x, .z, .y], 3, [0, 2, 1]⟩,
   ⟨[.r, .b, .g], 3, [0, 2, 1]⟩,
   ⟨[.s, .p, .t], 3, [0, 2, 1]⟩,
   ⟨[.y, .z, .y], 3, [1, 2, 1]⟩,
   ⟨[.g, .b, .g], 3, [1, 2, 1]⟩,
   ⟨[.t, .p, .t], 3, [1, 2, 1]⟩,
   ⟨[.z, .z, .y], 3, [2, 2, 1]⟩,
   ⟨[.b, .b, .g], 3, [2, 2, 1]⟩,
   ⟨[.p, .p, .t], 3, [2, 2, 1]⟩,
   ⟨[.w, .z, .y], 3, [3, 2, 1]⟩,
   ⟨[.a, .b, .g], 3, [3, 2, 1]⟩,
   ⟨[.q, .p, .t], 3, [3, 2, 1]⟩,
   ⟨[.x, .w, .y], 3, [0, 3, 1]⟩,
   ⟨[.r, .a, .g], 3, [0, 3, 1]⟩,
   ⟨[.s, .q, .t], 3, [0, 3, 1]⟩,
   ⟨[.y, .w, .y], 3, [1, 3, 1]⟩,
   ⟨[.g, .a, .g], 3, [1, 3, 1]⟩,
   ⟨[.t, .q, .t], 3, [1, 3, 1]⟩,
   ⟨[.z, .w, .y], 3, [2, 3, 1]⟩,
   ⟨[.b, .a, .g], 3, [2, 3, 1]⟩,
   ⟨[.p, .q, .t], 3, [2, 3, 1]⟩,
   ⟨[.w, .w, .y], 3, [3, 3, 1]⟩,
   ⟨[.a, .a, .g], 3, [3, 3, 1]⟩,
   ⟨[.q, .q, .t], 3, [3, 3, 1]⟩,
   ⟨[.x, .x, .z], 3, [0, 0, 2]⟩,
   ⟨[.r, .r, .b], 3, [0, 0, 2]⟩,
   ⟨[.s, .s, .p], 3, [0, 0, 2]⟩,
   ⟨[.y, .x, .z], 3, [1, 0, 2]⟩,
   ⟨[.g, .r, .b], 3, [1, 0, 2]⟩,
   ⟨[.t, .s, .p], 3, [1, 0, 2]⟩,
   ⟨[.z, .x, .z], 3, [2, 0, 2]⟩,
   ⟨[.b, .r, .b], 3, [2, 0, 2]⟩,
   ⟨[.p, .s, .p], 3, [2, 0, 2]⟩,
   ⟨[.w, .x, .z], 3, [3, 0, 2]⟩,
   ⟨[.a, .r, .b], 3, [3, 0, 2]⟩,
   ⟨[.q, .s, .p], 3, [3, 0, 2]⟩,
   ⟨[.x, .y, .z], 3, [0, 1, 2]⟩,
   ⟨[.r, .g, .b], 3, [0, 1, 2]⟩,
   ⟨[.s, .t, .p], 3, [0, 1, 2]⟩,
   ⟨[.y, .y, .z], 3, [1, 1, 2]⟩,
   ⟨[.g, .g, .b], 3, [1, 1, 2]⟩,
   ⟨[.t, .t, .p], 3, [1, 1, 2]⟩,
   ⟨[.z, .y, .z], 3, [2, 1, 2]⟩,
   ⟨[.b, .g, .b], 3, [2, 1, 2]⟩,
   ⟨[.p, .t, .p], 3, [2, 1, 2]⟩,
   ⟨[.w, .y, .z], 3, [3, 1, 2]⟩,
   ⟨[.a, .g, .b], 3, [3, 1, 2]⟩,
   ⟨[.q, .t, .p], 3, [3, 1, 2]⟩,
   ⟨[.x, .z, .z], 3, [0, 2, 2]⟩,
   ⟨[.r, .b, .b], 3, [0, 2, 2]⟩,
   ⟨[.s, .p, .p], 3, [0, 2, 2]⟩,
   ⟨[.y, .z, .z], 3, [1, 2, 2]⟩,
   ⟨[.g, .b, .b], 3, [1, 2, 2]⟩,
   ⟨[.t, .p, .p], 3, [1, 2, 2]⟩,
   ⟨[.z, .z, .z], 3, [2, 2, 2]⟩,
   ⟨[.b, .b, .b], 3, [2, 2, 2]⟩,
   ⟨[.p, .p, .p], 3, [2, 2, 2]⟩,
   ⟨[.w, .z, .z], 3, [3, 2, 2]⟩,
   ⟨[.a, .b, .b], 3, [3, 2, 2]⟩,
   ⟨[.q, .p, .p], 3, [3, 2, 2]⟩,
   ⟨[.x, .w, .z], 3, [0, 3, 2]⟩,
   ⟨[.r, .a, .b], 3, [0, 3, 2]⟩,
   ⟨[.s, .q, .p], 3, [0, 3, 2]⟩,
   ⟨[.y, .w, .z], 3, [1, 3, 2]⟩,
   ⟨[.g, .a, .b], 3, [1, 3, 2]⟩,
   ⟨[.t, .q, .p], 3, [1, 3, 2]⟩,
   ⟨[.z, .w, .z], 3, [2, 3, 2]⟩,
   ⟨[.b, .a, .b], 3, [2, 3, 2]⟩,
   ⟨[.p, .q, .p], 3, [2, 3, 2]⟩,
   ⟨[.w, .w, .z], 3, [3, 3, 2]⟩,
   ⟨[.a, .a, .b], 3, [3, 3, 2]⟩,
   ⟨[.q, .q, .p], 3, [3, 3, 2]⟩,
   ⟨[.x, .x, .w], 3, [0, 0, 3]⟩,
   ⟨[.r, .r, .a], 3, [0, 0, 3]⟩,
   ⟨[.s, .s, .q], 3, [0, 0, 3]⟩,
   ⟨[.y, .x, .w], 3, [1, 0, 3]⟩,
   ⟨[.g, .r, .a], 3, [1, 0, 3]⟩,
   ⟨[.t, .s, .q], 3, [1, 0, 3]⟩,
   ⟨[.z, .x, .w], 3, [2, 0, 3]⟩,
   ⟨[.b, .r, .a], 3, [2, 0, 3]⟩,
   ⟨[.p, .s, .q], 3, [2, 0, 3]⟩,
   ⟨[.w, .x, .w], 3, [3, 0, 3]⟩,
   ⟨[.a, .r, .a], 3, [3, 0, 3]⟩,
   ⟨[.q, .s, .q], 3, [3, 0, 3]⟩,
   ⟨[.x, .y, .w], 3, [0, 1, 3]⟩,
   ⟨[.r, .g, .a], 3, [0, 1, 3]⟩,
   ⟨[.s, .t, .q], 3, [0, 1, 3]⟩,
   ⟨[.y, .y, .w], 3, [1, 1, 3]⟩,
   ⟨[.g, .g, .a], 3, [1, 1, 3]⟩,
   ⟨[.t, .t, .q], 3, [1, 1, 3]⟩,
   ⟨[.z, .y, .w], 3, [2, 1, 3]⟩,
   ⟨[.b, .g, .a], 3, [2, 1, 3]⟩,
   ⟨[.p, .t, .q], 3, [2, 1, 3]⟩,
   ⟨[.w, .y, .w], 3, [3, 1, 3]⟩,
   ⟨[.a, .g, .a], 3, [3, 1, 3]⟩,
   ⟨[.q, .t, .q], 3, [3, 1, 3]⟩,
   ⟨[.x, .z, .w], 3, [0, 2, 3]⟩,
   ⟨[.r, .b, .a], 3, [0, 2, 3]⟩,
   ⟨[.s, .p, .q], 3, [0, 2, 3]⟩,
   ⟨[.y, .z, .w], 3, [1, 2, 3]⟩,
   ⟨[.g, .b, .a], 3, [1, 2, 3]⟩,
   ⟨[.t, .p, .q], 3, [1, 2, 3]⟩,
   ⟨[.z, .z, .w], 3, [2, 2, 3]⟩,
   ⟨[.b, .b, .a], 3, [2, 2, 3]⟩,
   ⟨[.p, .p, .q], 3, [2, 2, 3]⟩,
   ⟨[.w, .z, .w], 3, [3, 2, 3]⟩,
   ⟨[.a, .b, .a], 3, [3, 2, 3]⟩,
   ⟨[.q, .p, .q], 3, [3, 2, 3]⟩,
   ⟨[.x, .w, .w], 3, [0, 3, 3]⟩,
   ⟨[.r, .a, .a], 3, [0, 3, 3]⟩,
   ⟨[.s, .q, .q], 3, [0, 3, 3]⟩,
   ⟨[.y, .w, .w], 3, [1, 3, 3]⟩,
   ⟨[.g, .a, .a], 3, [1, 3, 3]⟩,
   ⟨[.t, .q, .q], 3, [1, 3, 3]⟩,
   ⟨[.z, .w, .w], 3, [2, 3, 3]⟩,
   ⟨[.b, .a, .a], 3, [2, 3, 3]⟩,
   ⟨[.p, .q, .q], 3, [2, 3, 3]⟩,
   ⟨[.w, .w, .w], 3, [3, 3, 3]⟩,
   ⟨[.a, .a, .a], 3, [3, 3, 3]⟩,
   ⟨[.q, .q, .q], 3, [3, 3, 3]⟩,
   ⟨[.x, .x, .x, .x], 4, [0, 0, 0, 0]⟩,
   ⟨[.r, .r, .r, .r], 4, [0, 0, 0, 0]⟩,
   ⟨[.s, .s, .s, .s], 4, [0, 0, 0, 0]⟩,
   ⟨[.y, .x, .x, .x], 4, [1, 0, 0, 0]⟩,
   ⟨[.g, .r, .r, .r], 4, [1, 0, 0, 0]⟩,
   ⟨[.t, .s, .s, .s], 4, [1, 0, 0, 0]⟩,
   ⟨[.z, .x, .x, .x], 4, [2, 0, 0, 0]⟩,
   ⟨[.b, .r, .r, .r], 4, [2, 0, 0, 0]⟩,
   ⟨[.p, .s, .s, .s], 4, [2, 0, 0, 0]⟩,
   ⟨[.w, .x, .x, .x], 4, [3, 0, 0, 0]⟩,
   ⟨[.a, .r, .r, .r], 4, [3, 0, 0, 0]⟩,
   ⟨[.q, .s, .s, .s], 4, [3, 0, 0, 0]⟩,
   ⟨[.x, .y, .x, .x], 4, [0, 1, 0, 0]⟩,
   ⟨[.r, .g, .r, .r], 4, [0, 1, 0, 0]⟩,
   ⟨[.s, .t, .s, .s], 4, [0, 1, 0, 0]⟩,
   ⟨[.y, .y, .x, .x], 4, [1, 1, 0, 0]⟩,
   ⟨[.g, .g, .r, .r], 4, [1, 1, 0, 0]⟩,
   ⟨[.t, .t, .s, .s], 4, [1, 1, 0, 0]⟩,
   ⟨[.z, .y, .x, .x], 4, [2, 1, 0, 0]⟩,
   ⟨[.b, .g, .r, .r], 4, [2, 1, 0, 0]⟩,
   ⟨[.p, .t, .s, .s], 4, [2, 1, 0, 0]⟩,
   ⟨[.w, .y, .x, .x], 4, [3, 1, 0, 0]⟩,
   ⟨[.a, .g, .r, .r], 4, [3, 1, 0, 0]⟩,
   ⟨[.q, .t, .s, .s], 4, [3, 1, 0, 0]⟩,
   ⟨[.x, .z, .x, .x], 4, [0, 2, 0, 0]⟩,
   ⟨[.r, .b, .r, .r], 4, [0, 2, 0, 0]⟩,
   ⟨[.s, .p, .s, .s], 4, [0, 2, 0, 0]⟩,
   ⟨[.y, .z, .x, .x], 4, [1, 2, 0, 0]⟩,
   ⟨[.g, .b, .r, .r], 4, [1, 2, 0, 0]⟩,
   ⟨[.t, .p, .s, .s], 4, [1, 2, 0, 0]⟩,
   ⟨[.z, .z, .x, .x], 4, [2, 2, 0, 0]⟩,
   ⟨[.b, .b, .r, .r], 4, [2, 2, 0, 0]⟩,
   ⟨[.p, .p, .s, .s], 4, [2, 2, 0, 0]⟩,
   ⟨[.w, .z, .x, .x], 4, [3, 2, 0, 0]⟩,
   ⟨[.a, .b, .r, .r], 4, [3, 2, 0, 0]⟩,
   ⟨[.q, .p, .s, .s], 4, [3, 2, 0, 0]⟩,
   ⟨[.x, .w, .x, .x], 4, [0, 3, 0, 0]⟩,
   ⟨[.r, .a, .r, .r], 4, [0, 3, 0, 0]⟩,
   ⟨[.s, .q, .s, .s], 4, [0, 3, 0, 0]⟩,
   ⟨[.y, .w, .x, .x], 4, [1, 3, 0, 0]⟩,
   ⟨[.g, .a, .r, .r], 4, [1, 3, 0, 0]⟩,
   ⟨[.t, .q, .s, .s], 4, [1, 3, 0, 0]⟩,
   ⟨[.z, .w, .x, .x], 4, [2, 3, 0, 0]⟩,
   ⟨[.b, .a, .r, .r], 4, [2, 3, 0, 0]⟩,
   ⟨[.p, .q, .s, .s], 4, [2, 3, 0, 0]⟩,
   ⟨[.w, .w, .x, .x], 4, [3, 3, 0, 0]⟩,
   ⟨[.a, .a, .r, .r], 4, [3, 3, 0, 0]⟩,
   ⟨[.q, .q, .s, .s], 4, [3, 3, 0, 0]⟩,
   ⟨[.x, .x, .y, .x], 4, [0, 0, 1, 0]⟩,
   ⟨[.r, .r, .g, .r], 4, [0, 0, 1, 0]⟩,
   ⟨[.s, .s, .t, .s], 4, [0, 0, 1, 0]⟩,
   ⟨[.y, .x, .y, .x], 4, [1, 0, 1, 0]⟩,
   ⟨[.g, .r, .g, .r], 4, [1, 0, 1, 0]⟩,
   ⟨[.t, .s, .t, .s], 4, [1, 0, 1, 0]⟩,
   ⟨[.z, .x, .y, .x], 4, [2, 0, 1, 0]⟩,
   ⟨[.b, .r, .g, .r], 4, [2, 0, 1, 0]⟩,
   ⟨[.p, .s, .t, .s], 4, [2, 0, 1, 0]⟩,
   ⟨[.w, .x, .y, .x], 4, [3, 0, 1, 0]⟩,
   ⟨[.a, .r, .g, .r], 4, [3, 0, 1, 0]⟩,
   ⟨[.q, .s, .t, .s], 4, [3, 0, 1, 0]⟩,
   ⟨[.x, .y, .y, .x], 4, [0, 1, 1, 0]⟩,
   ⟨[.r, .g, .g, .r], 4, [0, 1, 1, 0]⟩,
   ⟨[.s, .t, .t, .s], 4, [0, 1, 1, 0]⟩,
   ⟨[.y, .y, .y, .x], 4, [1, 1, 1, 0]⟩,
   ⟨[.g, .g, .g, .r], 4, [1, 1, 1, 0]⟩,
   ⟨[.t, .t, .t, .s], 4, [1, 1, 1, 0]⟩,
   ⟨[.z, .y, .y, .x], 4, [2, 1, 1, 0]⟩,
   ⟨[.b, .g, .g, .r], 4, [2, 1, 1, 0]⟩,
   ⟨[.p, .t, .t, .s], 4, [2, 1, 1, 0]⟩,
   ⟨[.w, .y, .y, .x], 4, [3, 1, 1, 0]⟩,
   ⟨[.a, .g, .g, .r], 4, [3, 1, 1, 0]⟩,
   ⟨[.q, .t, .t, .s], 4, [3, 1, 1, 0]⟩,
   ⟨[.x, .z, .y, .x], 4, [0, 2, 1, 0]⟩,
   ⟨[.r, .b, .g, .r], 4, [0, 2, 1, 0]⟩,
   ⟨[.s, .p, .t, .s], 4, [0, 2, 1, 0]⟩,
   ⟨[.y, .z, .y, .x], 4, [1, 2, 1, 0]⟩,
   ⟨[.g, .b, .g, .r], 4, [1, 2, 1, 0]⟩,
   ⟨[.t, .p, .t, .s], 4, [1, 2, 1, 0]⟩,
   ⟨[.z, .z, .y, .x], 4, [2, 2, 1, 0]⟩,
   ⟨[.b, .b, .g, .r], 4, [2, 2, 1, 0]⟩,
   ⟨[.p, .p, .t, .s], 4, [2, 2, 1, 0]⟩,
   ⟨[.w, .z, .y, .x], 4, [3, 2, 1, 0]⟩,
   ⟨[.a, .b, .g, .r], 4, [3, 2, 1, 0]⟩,
   ⟨[.q, .p, .t, .s], 4, [3, 2, 1, 0]⟩,
   ⟨[.x, .w, .y, .x], 4, [0, 3, 1, 0]⟩,
   ⟨[.r, .a, .g, .r], 4, [0, 3, 1, 0]⟩,
   ⟨[.s, .q, .t, .s], 4, [0, 3, 1, 0]⟩,
   ⟨[.y, .w, .y, .x], 4, [1, 3, 1, 0]⟩,
   ⟨[.g, .a, .g, .r], 4, [1, 3, 1, 0]⟩,
   ⟨[.t, .q, .t, .s], 4, [1, 3, 1, 0]⟩,
   ⟨[.z, .w, .y, .x], 4, [2, 3, 1, 0]⟩,
   ⟨[.b, .a, .g, .r], 4, [2, 3, 1, 0]⟩,
   ⟨[.p, .q, .t, .s], 4, [2, 3, 1, 0]⟩,
   ⟨[.w, .w, .y, .x], 4, [3, 3, 1, 0]⟩,
   ⟨[.a, .a, .g, .r], 4, [3, 3, 1, 0]⟩,
   ⟨[.q, .q, .t, .s], 4, [3, 3, 1, 0]⟩,
   ⟨[.x, .x, .z, .x], 4, [0, 0, 2, 0]⟩,
   ⟨[.r, .r, .b, .r], 4, [0, 0, 2, 0]⟩,
   ⟨[.s, .s, .p, .s], 4, [0, 0, 2, 0]⟩,
   ⟨[.y, .x, .z, .x], 4, [1, 0, 2, 0]⟩,
   ⟨[.g, .r, .b, .r], 4, [1, 0, 2, 0]⟩,
   ⟨[.t, .s, .p, .s], 4, [1, 0, 2, 0]⟩,
   ⟨[.z, .x, .z, .x], 4, [2, 0, 2, 0]⟩,
   ⟨[.b, .r, .b, .r], 4, [2, 0, 2, 0]⟩,
   ⟨[.p, .s, .p, .s], 4, [2, 0, 2, 0]⟩,
   ⟨[.w, .x, .z, .x], 4, [3, 0, 2, 0]⟩,
   ⟨[.a, .r, .b, .r], 4, [3, 0, 2, 0]⟩,
   ⟨[.q, .s, .p, .s], 4, [3, 0, 2, 0]⟩,
   ⟨[.x, .y, .z, .x], 4, [0, 1, 2, 0]⟩,
   ⟨[.r, .g, .b, .r], 4, [0, 1, 2, 0]⟩,
   ⟨[.s, .t, .p, .s], 4, [0, 1, 2, 0]⟩,
   ⟨[.y, .y, .z, .x], 4, [1, 1, 2, 0]⟩,
   ⟨[.g, .g, .b, .r], 4, [1, 1, 2, 0]⟩,
   ⟨[.t, .t, .p, .s], 4, [1, 1, 2, 0]⟩,
   ⟨[.z, .y, .z, .x], 4, [2, 1, 2, 0]⟩,
   ⟨[.b, .g, .b, .r], 4, [2, 1, 2, 0]⟩,
   ⟨[.p, .t, .p, .s], 4, [2, 1, 2, 0]⟩,
   ⟨[.w, .y, .z, .x], 4, [3, 1, 2, 0]⟩,
   ⟨[.a, .g, .b, .r], 4, [3, 1, 2, 0]⟩,
   ⟨[.q, .t, .p, .s], 4, [3, 1, 2, 0]⟩,
   ⟨[.x, .z, .z, .x], 4, [0, 2, 2, 0]⟩,
   ⟨[.r, .b, .b, .r], 4, [0, 2, 2, 0]⟩,
   ⟨[.s, .p, .p, .s], 4, [0, 2, 2, 0]⟩,
   ⟨[.y, .z, .z, .x], 4, [1, 2, 2, 0]⟩,
   ⟨[.g, .b, .b, .r], 4, [1, 2, 2, 0]⟩,
   ⟨[.t, .p, .p, .s], 4, [1, 2, 2, 0]⟩,
   ⟨[.z, .z, .z, .x], 4, [2, 2, 2, 0]⟩,
   ⟨[.b, .b, .b, .r], 4, [2, 2, 2, 0]⟩,
   ⟨[.p, .p, .p, .s], 4, [2, 2, 2, 0]⟩,
   ⟨[.w, .z, .z, .x], 4, [3, 2, 2, 0]⟩,
   ⟨[.a, .b, .b, .r], 4, [3, 2, 2, 0]⟩,
   ⟨[.q, .p, .p, .s], 4, [3, 2, 2, 0]⟩,
   ⟨[.x, .w, .z, .x], 4, [0, 3, 2, 0]⟩,
   ⟨[.r, .a, .b, .r], 4, [0, 3, 2, 0]⟩,
   ⟨[.s, .q, .p, .s], 4, [0, 3, 2, 0]⟩,
   ⟨[.y, .w, .z, .x], 4, [1, 3, 2, 0]⟩,
   ⟨[.g, .a, .b, .r], 4, [1, 3, 2, 0]⟩,
   ⟨[.t, .q, .p, .s], 4, [1, 3, 2, 0]⟩,
   ⟨[.z, .w, .z, .x], 4, [2, 3, 2, 0]⟩,
   ⟨[.b, .a, .b, .r], 4, [2, 3, 2, 0]⟩,
   ⟨[.p, .q, .p, .s], 4, [2, 3, 2, 0]⟩,
   ⟨[.w, .w, .z, .x], 4, [3, 3, 2, 0]⟩,
   ⟨[.a, .a, .b, .r], 4, [3, 3, 2, 0]⟩,
   ⟨[.q, .q, .p, .s], 4, [3, 3, 2, 0]⟩,
   ⟨[.x, .x, .w, .x], 4, [0, 0, 3, 0]⟩,
   ⟨[.r, .r, .a, .r], 4, [0, 0, 3, 0]⟩,
   ⟨[.s, .s, .q, .s], 4, [0, 0, 3, 0]⟩,
   ⟨[.y, .x, .w, .x], 4, [1, 0, 3, 0]⟩,
   ⟨[.g, .r, .a, .r], 4, [1, 0, 3, 0]⟩,
   ⟨[.t, .s, .q, .s], 4, [1, 0, 3, 0]⟩,
   ⟨[.z, .x, .w, .x], 4, [2, 0, 3, 0]⟩,
   ⟨[.b, .r, .a, .r], 4, [2, 0, 3, 0]⟩,
   ⟨[.p, .s, .q, .s], 4, [2, 0, 3, 0]⟩,
   ⟨[.w, .x, .w, .x], 4, [3, 0, 3, 0]⟩,
   ⟨[.a, .r, .a, .r], 4, [3, 0, 3, 0]⟩,
   ⟨[.q, .s, .q, .s], 4, [3, 0, 3, 0]⟩,
   ⟨[.x, .y, .w, .x], 4, [0, 1, 3, 0]⟩,
   ⟨[.r, .g, .a, .r], 4, [0, 1, 3, 0]⟩,
   ⟨[.s, .t, .q, .s], 4, [0, 1, 3, 0]⟩,
   ⟨[.y, .y, .w, .x], 4, [1, 1, 3, 0]⟩,
   ⟨[.g, .g, .a, .r], 4, [1, 1, 3, 0]⟩,
   ⟨[.t, .t, .q, .s], 4, [1, 1, 3, 0]⟩,
   ⟨[.z, .y, .w, .x], 4, [2, 1, 3, 0]⟩,
   ⟨[.b, .g, .a, .r], 4, [2, 1, 3, 0]⟩,
   ⟨[.p, .t, .q, .s], 4, [2, 1, 3, 0]⟩,
   ⟨[.w, .y, .w, .x], 4, [3, 1, 3, 0]⟩,
   ⟨[.a, .g, .a, .r], 4, [3, 1, 3, 0]⟩,
   ⟨[.q, .t, .q, .s], 4, [3, 1, 3, 0]⟩,
   ⟨[.x, .z, .w, .x], 4, [0, 2, 3, 0]⟩,
   ⟨[.r, .b, .a, .r], 4, [0, 2, 3, 0]⟩,
   ⟨[.s, .p, .q, .s], 4, [0, 2, 3, 0]⟩,
   ⟨[.y, .z, .w, .x], 4, [1, 2, 3, 0]⟩,
   ⟨[.g, .b, .a, .r], 4, [1, 2, 3, 0]⟩,
   ⟨[.t, .p, .q, .s], 4, [1, 2, 3, 0]⟩,
   ⟨[.z, .z, .w, .x], 4, [2, 2, 3, 0]⟩,
   ⟨[.b, .b, .a, .r], 4, [2, 2, 3, 0]⟩,
   ⟨[.p, .p, .q, .s], 4, [2, 2, 3, 0]⟩,
   ⟨[.w, .z, .w, .x], 4, [3, 2, 3, 0]⟩,
   ⟨[.a, .b, .a, .r], 4, [3, 2, 3, 0]⟩,
   ⟨[.q, .p, .q, .s], 4, [3, 2, 3, 0]⟩,
   ⟨[.x, .w, .w, .x], 4, [0, 3, 3, 0]⟩,
   ⟨[.r, .a, .a, .r], 4, [0, 3, 3, 0]⟩,
   ⟨[.s, .q, .q, .s], 4, [0, 3, 3, 0]⟩,
   ⟨[.y, .w, .w, .x], 4, [1, 3, 3, 0]⟩,
   ⟨[.g, .a, .a, .r], 4, [1, 3, 3, 0]⟩,
   ⟨[.t, .q, .q, .s], 4, [1, 3, 3, 0]⟩,
   ⟨[.z, .w, .w, .x], 4, [2, 3, 3, 0]⟩,
   ⟨[.b, .a, .a, .r], 4, [2, 3, 3, 0]⟩,
   ⟨[.p, .q, .q, .s], 4, [2, 3, 3, 0]⟩,
   ⟨[.w, .w, .w, .x], 4, [3, 3, 3, 0]⟩,
   ⟨[.a, .a, .a, .r], 4, [3, 3, 3, 0]⟩,
   ⟨[.q, .q, .q, .s], 4, [3, 3, 3, 0]⟩,
   ⟨[.x, .x, .x, .y], 4, [0, 0, 0, 1]⟩,
   ⟨[.r, .r, .r, .g], 4, [0, 0, 0, 1]⟩,
   ⟨[.s, .s, .s, .t], 4, [0, 0, 0, 1]⟩,
   ⟨[.y, .x, .x, .y], 4, [1, 0, 0, 1]⟩,
   ⟨[.g, .r, .r, .g], 4, [1, 0, 0, 1]⟩,
   ⟨[.t, .s, .s, .t], 4, [1, 0, 0, 1]⟩,
   ⟨[.z, .x, .x, .y], 4, [2, 0, 0, 1]⟩,
   ⟨[.b, .r, .r, .g], 4, [2, 0, 0, 1]⟩,
   ⟨[.p, .s, .s, .t], 4, [2, 0, 0, 1]⟩,
   ⟨[.w, .x, .x, .y], 4, [3, 0, 0, 1]⟩,
   ⟨[.a, .r, .r, .g], 4, [3, 0, 0, 1]⟩,
   ⟨[.q, .s, .s, .t], 4, [3, 0, 0, 1]⟩,
   ⟨[.x, .y, .x, .y], 4, [0, 1, 0, 1]⟩,
   ⟨[.r, .g, .r, .g], 4, [0, 1, 0, 1]⟩,
   ⟨[.s, .t, .s, .t], 4, [0, 1, 0, 1]⟩,
   ⟨[.y, .y, .x, .y], 4, [1, 1, 0, 1]⟩,
   ⟨[.g, .g, .r, .g], 4, [1, 1, 0, 1]⟩,
   ⟨[.t, .t, .s, .t], 4, [1, 1, 0, 1]⟩,
   ⟨[.z, .y, .x, .y], 4, [2, 1, 0, 1]⟩,
   ⟨[.b, .g, .r, .g], 4, [2, 1, 0, 1]⟩,
   ⟨[.p, .t, .s, .t], 4, [2, 1, 0, 1]⟩,
   ⟨[.w, .y, .x, .y], 4, [3, 1, 0, 1]⟩,
   ⟨[.a, .g, .r, .g], 4, [3, 1, 0, 1]⟩,
   ⟨[.q, .t, .s, .t], 4, [3, 1, 0, 1]⟩,
   ⟨[.x, .z, .x, .y], 4, [0, 2, 0, 1]⟩,
   ⟨[.r, .b, .r, .g], 4, [0, 2, 0, 1]⟩,
   ⟨[.s, .p, .s, .t], 4, [0, 2, 0, 1]⟩,
   ⟨[.y, .z, .x, .y], 4, [1, 2, 0, 1]⟩,
   ⟨[.g, .b, .r, .g], 4, [1, 2, 0, 1]⟩,
   ⟨[.t, .p, .s, .t], 4, [1, 2, 0, 1]⟩,
   ⟨[.z, .z, .x, .y], 4, [2, 2, 0, 1]⟩,
   ⟨[.b, .b, .r, .g], 4, [2, 2, 0, 1]⟩,
   ⟨[.p, .p, .s, .t], 4, [2, 2, 0, 1]⟩,
   ⟨[.w, .z, .x, .y], 4, [3, 2, 0, 1]⟩,
   ⟨[.a, .b, .r, .g], 4, [3, 2, 0, 1]⟩,
   ⟨[.q, .p, .s, .t], 4, [3, 2, 0, 1]⟩,
   ⟨[.x, .w, .x, .y], 4, [0, 3, 0, 1]⟩,
   ⟨[.r, .a, .r, .g], 4, [0, 3, 0, 1]⟩,
   ⟨[.s, .q, .s, .t], 4, [0, 3, 0, 1]⟩,
   ⟨[.y, .w, .x, .y], 4, [1, 3, 0, 1]⟩,
   ⟨[.g, .a, .r, .g], 4, [1, 3, 0, 1]⟩,
   ⟨[.t, .q, .s, .t], 4, [1, 3, 0, 1]⟩,
   ⟨[.z, .w, .x, .y], 4, [2, 3, 0, 1]⟩,
   ⟨[.b, .a, .r, .g], 4, [2, 3, 0, 1]⟩,
   ⟨[.p, .q, .s, .t], 4, [2, 3, 0, 1]⟩,
   ⟨[.w, .w, .x, .y], 4, [3, 3, 0, 1]⟩,
   ⟨[.a, .a, .r, .g], 4, [3, 3, 0, 1]⟩,
   ⟨[.q, .q, .s, .t], 4, [3, 3, 0, 1]⟩,
   ⟨[.x, .x, .y, .y], 4, [0, 0, 1, 1]⟩,
   ⟨[.r, .r, .g, .g], 4, [0, 0, 1, 1]⟩,
   ⟨[.s, .s, .t, .t], 4, [0, 0, 1, 1]⟩,
   ⟨[.y, .x, .y, .y], 4, [1, 0, 1, 1]⟩,
   ⟨[.g, .r, .g, .g], 4, [1, 0, 1, 1]⟩,
   ⟨[.t, .s, .t, .t], 4, [1, 0, 1, 1]⟩,
   ⟨[.z, .x, .y, .y], 4, [2, 0, 1, 1]⟩,
   ⟨[.b, .r, .g, .g], 4, [2, 0, 1, 1]⟩,
   ⟨[.p, .s, .t, .t], 4, [2, 0, 1, 1]⟩,
   ⟨[.w, .x, .y, .y], 4, [3, 0, 1, 1]⟩,
   ⟨[.a, .r, .g, .g], 4, [3, 0, 1, 1]⟩,
   ⟨[.q, .s, .t, .t], 4, [3, 0, 1, 1]⟩,
   ⟨[.x, .y, .y, .y], 4, [0, 1, 1, 1]⟩,
   ⟨[.r, .g, .g, .g], 4, [0, 1, 1, 1]⟩,
   ⟨[.s, .t, .t, .t], 4, [0, 1, 1, 1]⟩,
   ⟨[.y, .y, .y, .y], 4, [1, 1, 1, 1]⟩,
   ⟨[.g, .g, .g, .g], 4, [1, 1, 1, 1]⟩,
   ⟨[.t, .t, .t, .t], 4, [1, 1, 1, 1]⟩,
   ⟨[.z, .y, .y, .y], 4, [2, 1, 1, 1]⟩,
   ⟨[.b, .g, .g, .g], 4, [2, 1, 1, 1]⟩,
   ⟨[.p, .t, .t, .t], 4, [2, 1, 1, 1]⟩,
   ⟨[.w, .y, .y, .y], 4, [3, 1, 1, 1]⟩,
   ⟨[.a, .g, .g, .g], 4, [3, 1, 1, 1]⟩,
   ⟨[.q, .t, .t, .t], 4, [3, 1, 1, 1]⟩,
   ⟨[.x, .z, .y, .y], 4, [0, 2, 1, 1]⟩,
   ⟨[.r, .b, .g, .g], 4, [0, 2, 1, 1]⟩,
   ⟨[.s, .p, .t, .t], 4, [0, 2, 1, 1]⟩,
   ⟨[.y, .z, .y, .y], 4, [1, 2, 1, 1]⟩,
   ⟨[.g, .b, .g, .g], 4, [1, 2, 1, 1]⟩,
   ⟨[.t, .p, .t, .t], 4, [1, 2, 1, 1]⟩,
   ⟨[.z, .z, .y, .y], 4, [2, 2, 1, 1]⟩,
   ⟨[.b, .b, .g, .g], 4, [2, 2, 1, 1]⟩,
   ⟨[.p, .p, .t, .t], 4, [2, 2, 1, 1]⟩,
   ⟨[.w, .z, .y, .y], 4, [3, 2, 1, 1]⟩,
   ⟨[.a, .b, .g, .g], 4, [3, 2, 1, 1]⟩,
   ⟨[.q, .p, .t, .t], 4, [3, 2, 1, 1]⟩,
   ⟨[.x, .w, .y, .y], 4, [0, 3, 1, 1]⟩,
   ⟨[.r, .a, .g, .g], 4, [0, 3, 1, 1]⟩,
   ⟨[.s, .q, .t, .t], 4, [0, 3, 1, 1]⟩,
   ⟨[.y, .w, .y, .y], 4, [1, 3, 1, 1]⟩,
   ⟨[.g, .a, .g, .g], 4, [1, 3, 1, 1]⟩,
   ⟨[.t, .q, .t, .t], 4, [1, 3, 1, 1]⟩,
   ⟨[.z, .w, .y, .y], 4, [2, 3, 1, 1]⟩,
   ⟨[.b, .a, .g, .g], 4, [2, 3, 1, 1]⟩,
   ⟨[.p, .q, .t, .t], 4, [2, 3, 1, 1]⟩,
   ⟨[.w, .w, .y, .y], 4, [3, 3, 1, 1]⟩,
   ⟨[.a, .a, .g, .g], 4, [3, 3, 1, 1]⟩,
   ⟨[.q, .q, .t, .t], 4, [3, 3, 1, 1]⟩,
   ⟨[.x, .x, .z, .y], 4, [0, 0, 2, 1]⟩,
   ⟨[.r, .r, .b, .g], 4, [0, 0, 2, 1]⟩,
   ⟨[.s, .s, .p, .t], 4, [0, 0, 2, 1]⟩,
   ⟨[.y, .x, .z, .y], 4, [1, 0, 2, 1]⟩,
   ⟨[.g, .r, .b, .g], 4, [1, 0, 2, 1]⟩,
   ⟨[.t, .s, .p, .t], 4, [1, 0, 2, 1]⟩,
   ⟨[.z, .x, .z, .y], 4, [2, 0, 2, 1]⟩,
   ⟨[.b, .r, .b, .g], 4, [2, 0, 2, 1]⟩,
   ⟨[.p, .s, .p, .t], 4, [2, 0, 2, 1]⟩,
   ⟨[.w, .x, .z, .y], 4, [3, 0, 2, 1]⟩,
   ⟨[.a, .r, .b, .g], 4, [3, 0, 2, 1]⟩,
   ⟨[.q, .s, .p, .t], 4, [3, 0, 2, 1]⟩,
   ⟨[.x, .y, .z, .y], 4, [0, 1, 2, 1]⟩,
   ⟨[.r, .g, .b, .g], 4, [0, 1, 2, 1]⟩,
   ⟨[.s, .t, .p, .t], 4, [0, 1, 2, 1]⟩,
   ⟨[.y, .y, .z, .y], 4, [1, 1, 2, 1]⟩,
   ⟨[.g, .g, .b, .g], 4, [1, 1, 2, 1]⟩,
   ⟨[.t, .t, .p, .t], 4, [1, 1, 2, 1]⟩,
   ⟨[.z, .y, .z, .y], 4, [2, 1, 2, 1]⟩,
   ⟨[.b, .g, .b, .g], 4, [2, 1, 2, 1]⟩,
   ⟨[.p, .t, .p, .t], 4, [2, 1, 2, 1]⟩,
   ⟨[.w, .y, .z, .y], 4, [3, 1, 2, 1]⟩,
   ⟨[.a, .g, .b, .g], 4, [3, 1, 2, 1]⟩,
   ⟨[.q, .t, .p, .t], 4, [3, 1, 2, 1]⟩,
   ⟨[.x, .z, .z, .y], 4, [0, 2, 2, 1]⟩,
   ⟨[.r, .b, .b, .g], 4, [0, 2, 2, 1]⟩,
   ⟨[.s, .p, .p, .t], 4, [0, 2, 2, 1]⟩,
   ⟨[.y, .z, .z, .y], 4, [1, 2, 2, 1]⟩,
   ⟨[.g, .b, .b, .g], 4, [1, 2, 2, 1]⟩,
   ⟨[.t, .p, .p, .t], 4, [1, 2, 2, 1]⟩,
   ⟨[.z, .z, .z, .y], 4, [2, 2, 2, 1]⟩,
   ⟨[.b, .b, .b, .g], 4, [2, 2, 2, 1]⟩,
   ⟨[.p, .p, .p, .t], 4, [2, 2, 2, 1]⟩,
   ⟨[.w, .z, .z, .y], 4, [3, 2, 2, 1]⟩,
   ⟨[.a, .b, .b, .g], 4, [3, 2, 2, 1]⟩,
   ⟨[.q, .p, .p, .t], 4, [3, 2, 2, 1]⟩,
   ⟨[.x, .w, .z, .y], 4, [0, 3, 2, 1]⟩,
   ⟨[.r, .a, .b, .g], 4, [0, 3, 2, 1]⟩,
   ⟨[.s, .q, .p, .t], 4, [0, 3, 2, 1]⟩,
   ⟨[.y, .w, .z, .y], 4, [1, 3, 2, 1]⟩,
   ⟨[.g, .a, .b, .g], 4, [1, 3, 2, 1]⟩,
   ⟨[.t, .q, .p, .t], 4, [1, 3, 2, 1]⟩,
   ⟨[.z, .w, .z, .y], 4, [2, 3, 2, 1]⟩,
   ⟨[.b, .a, .b, .g], 4, [2, 3, 2, 1]⟩,
   ⟨[.p, .q, .p, .t], 4, [2, 3, 2, 1]⟩,
   ⟨[.w, .w, .z, .y], 4, [3, 3, 2, 1]⟩,
   ⟨[.a, .a, .b, .g], 4, [3, 3, 2, 1]⟩,
   ⟨[.q, .q, .p, .t], 4, [3, 3, 2, 1]⟩,
   ⟨[.x, .x, .w, .y], 4, [0, 0, 3, 1]⟩,
   ⟨[.r, .r, .a, .g], 4, [0, 0, 3, 1]⟩,
   ⟨[.s, .s, .q, .t], 4, [0, 0, 3, 1]⟩,
   ⟨[.y, .x, .w, .y], 4, [1, 0, 3, 1]⟩,
   ⟨[.g, .r, .a, .g], 4, [1, 0, 3, 1]⟩,
   ⟨[.t, .s, .q, .t], 4, [1, 0, 3, 1]⟩,
   ⟨[.z, .x, .w, .y], 4, [2, 0, 3, 1]⟩,
   ⟨[.b, .r, .a, .g], 4, [2, 0, 3, 1]⟩,
   ⟨[.p, .s, .q, .t], 4, [2, 0, 3, 1]⟩,
   ⟨[.w, .x, .w, .y], 4, [3, 0, 3, 1]⟩,
   ⟨[.a, .r, .a, .g], 4, [3, 0, 3, 1]⟩,
   ⟨[.q, .s, .q, .t], 4, [3, 0, 3, 1]⟩,
   ⟨[.x, .y, .w, .y], 4, [0, 1, 3, 1]⟩,
   ⟨[.r, .g, .a, .g], 4, [0, 1, 3, 1]⟩,
   ⟨[.s, .t, .q, .t], 4, [0, 1, 3, 1]⟩,
   ⟨[.y, .y, .w, .y], 4, [1, 1, 3, 1]⟩,
   ⟨[.g, .g, .a, .g], 4, [1, 1, 3, 1]⟩,
   ⟨[.t, .t, .q, .t], 4, [1, 1, 3, 1]⟩,
   ⟨[.z, .y, .w, .y], 4, [2, 1, 3, 1]⟩,
   ⟨[.b, .g, .a, .g], 4, [2, 1, 3, 1]⟩,
   ⟨[.p, .t, .q, .t], 4, [2, 1, 3, 1]⟩,
   ⟨[.w, .y, .w, .y], 4, [3, 1, 3, 1]⟩,
   ⟨[.a, .g, .a, .g], 4, [3, 1, 3, 1]⟩,
   ⟨[.q, .t, .q, .t], 4, [3, 1, 3, 1]⟩,
   ⟨[.x, .z, .w, .y], 4, [0, 2, 3, 1]⟩,
   ⟨[.r, .b, .a, .g], 4, [0, 2, 3, 1]⟩,
   ⟨[.s, .p, .q, .t], 4, [0, 2, 3, 1]⟩,
   ⟨[.y, .z, .w, .y], 4, [1, 2, 3, 1]⟩,
   ⟨[.g, .b, .a, .g], 4, [1, 2, 3, 1]⟩,
   ⟨[.t, .p, .q, .t], 4, [1, 2, 3, 1]⟩,
   ⟨[.z, .z, .w, .y], 4, [2, 2, 3, 1]⟩,
   ⟨[.b, .b, .a, .g], 4, [2, 2, 3, 1]⟩,
   ⟨[.p, .p, .q, .t], 4, [2, 2, 3, 1]⟩,
   ⟨[.w, .z, .w, .y], 4, [3, 2, 3, 1]⟩,
   ⟨[.a, .b, .a, .g], 4, [3, 2, 3, 1]⟩,
   ⟨[.q, .p, .q, .t], 4, [3, 2, 3, 1]⟩,
   ⟨[.x, .w, .w, .y], 4, [0, 3, 3, 1]⟩,
   ⟨[.r, .a, .a, .g], 4, [0, 3, 3, 1]⟩,
   ⟨[.s, .q, .q, .t], 4, [0, 3, 3, 1]⟩,
   ⟨[.y, .w, .w, .y], 4, [1, 3, 3, 1]⟩,
   ⟨[.g, .a, .a, .g], 4, [1, 3, 3, 1]⟩,
   ⟨[.t, .q, .q, .t], 4, [1, 3, 3, 1]⟩,
   ⟨[.z, .w, .w, .y], 4, [2, 3, 3, 1]⟩,
   ⟨[.b, .a, .a, .g], 4, [2, 3, 3, 1]⟩,
   ⟨[.p, .q, .q, .t], 4, [2, 3, 3, 1]⟩,
   ⟨[.w, .w, .w, .y], 4, [3, 3, 3, 1]⟩,
   ⟨[.a, .a, .a, .g], 4, [3, 3, 3, 1]⟩,
   ⟨[.q, .q, .q, .t], 4, [3, 3, 3, 1]⟩,
   ⟨[.x, .x, .x, .z], 4, [0, 0, 0, 2]⟩,
   ⟨[.r, .r, .r, .b], 4, [0, 0, 0, 2]⟩,
   ⟨[.s, .s, .s, .p], 4, [0, 0, 0, 2]⟩,
   ⟨[.y, .x, .x, .z], 4, [1, 0, 0, 2]⟩,
   ⟨[.g, .r, .r, .b], 4, [1, 0, 0, 2]⟩,
   ⟨[.t, .s, .s, .p], 4, [1, 0, 0, 2]⟩,
   ⟨[.z, .x, .x, .z], 4, [2, 0, 0, 2]⟩,
   ⟨[.b, .r, .r, .b], 4, [2, 0, 0, 2]⟩,
   ⟨[.p, .s, .s, .p], 4, [2, 0, 0, 2]⟩,
   ⟨[.w, .x, .x, .z], 4, [3, 0, 0, 2]⟩,
   ⟨[.a, .r, .r, .b], 4, [3, 0, 0, 2]⟩,
   ⟨[.q, .s, .s, .p], 4, [3, 0, 0, 2]⟩,
   ⟨[.x, .y, .x, .z], 4, [0, 1, 0, 2]⟩,
   ⟨[.r, .g, .r, .b], 4, [0, 1, 0, 2]⟩,
   ⟨[.s, .t, .s, .p], 4, [0, 1, 0, 2]⟩,
   ⟨[.y, .y, .x, .z], 4, [1, 1, 0, 2]⟩,
   ⟨[.g, .g, .r, .b], 4, [1, 1, 0, 2]⟩,
   ⟨[.t, .t, .s, .p], 4, [1, 1, 0, 2]⟩,
   ⟨[.z, .y, .x, .z], 4, [2, 1, 0, 2]⟩,
   ⟨[.b, .g, .r, .b], 4, [2, 1, 0, 2]⟩,
   ⟨[.p, .t, .s, .p], 4, [2, 1, 0, 2]⟩,
   ⟨[.w, .y, .x, .z], 4, [3, 1, 0, 2]⟩,
   ⟨[.a, .g, .r, .b], 4, [3, 1, 0, 2]⟩,
   ⟨[.q, .t, .s, .p], 4, [3, 1, 0, 2]⟩,
   ⟨[.x, .z, .x, .z], 4, [0, 2, 0, 2]⟩,
   ⟨[.r, .b, .r, .b], 4, [0, 2, 0, 2]⟩,
   ⟨[.s, .p, .s, .p], 4, [0, 2, 0, 2]⟩,
   ⟨[.y, .z, .x, .z], 4, [1, 2, 0, 2]⟩,
   ⟨[.g, .b, .r, .b], 4, [1, 2, 0, 2]⟩,
   ⟨[.t, .p, .s, .p], 4, [1, 2, 0, 2]⟩,
   ⟨[.z, .z, .x, .z], 4, [2, 2, 0, 2]⟩,
   ⟨[.b, .b, .r, .b], 4, [2, 2, 0, 2]⟩,
   ⟨[.p, .p, .s, .p], 4, [2, 2, 0, 2]⟩,
   ⟨[.w, .z, .x, .z], 4, [3, 2, 0, 2]⟩,
   ⟨[.a, .b, .r, .b], 4, [3, 2, 0, 2]⟩,
   ⟨[.q, .p, .s, .p], 4, [3, 2, 0, 2]⟩,
   ⟨[.x, .w, .x, .z], 4, [0, 3, 0, 2]⟩,
   ⟨[.r, .a, .r, .b], 4, [0, 3, 0, 2]⟩,
   ⟨[.s, .q, .s, .p], 4, [0, 3, 0, 2]⟩,
   ⟨[.y, .w, .x, .z], 4, [1, 3, 0, 2]⟩,
   ⟨[.g, .a, .r, .b], 4, [1, 3, 0, 2]⟩,
   ⟨[.t, .q, .s, .p], 4, [1, 3, 0, 2]⟩,
   ⟨[.z, .w, .x, .z], 4, [2, 3, 0, 2]⟩,
   ⟨[.b, .a, .r, .b], 4, [2, 3, 0, 2]⟩,
   ⟨[.p, .q, .s, .p], 4, [2, 3, 0, 2]⟩,
   ⟨[.w, .w, .x, .z], 4, [3, 3, 0, 2]⟩,
   ⟨[.a, .a, .r, .b], 4, [3, 3, 0, 2]⟩,
   ⟨[.q, .q, .s, .p], 4, [3, 3, 0, 2]⟩,
   ⟨[.x, .x, .y, .z], 4, [0, 0, 1, 2]⟩,
   ⟨[.r, .r, .g, .b], 4, [0, 0, 1, 2]⟩,
   ⟨[.s, .s, .t, .p], 4, [0, 0, 1, 2]⟩,
   ⟨[.y, .x, .y, .z], 4, [1, 0, 1, 2]⟩,
   ⟨[.g, .r, .g, .b], 4, [1, 0, 1, 2]⟩,
   ⟨[.t, .s, .t, .p], 4, [1, 0, 1, 2]⟩,
   ⟨[.z, .x, .y, .z], 4, [2, 0, 1, 2]⟩,
   ⟨[.b, .r, .g, .b], 4, [2, 0, 1, 2]⟩,
   ⟨[.p, .s, .t, .p], 4, [2, 0, 1, 2]⟩,
   ⟨[.w, .x, .y, .z], 4, [3, 0, 1, 2]⟩,
   ⟨[.a, .r, .g, .b], 4, [3, 0, 1, 2]⟩,
   ⟨[.q, .s, .t, .p], 4, [3, 0, 1, 2]⟩,
   ⟨[.x, .y, .y, .z], 4, [0, 1, 1, 2]⟩,
   ⟨[.r, .g, .g, .b], 4, [0, 1, 1, 2]⟩,
   ⟨[.s, .t, .t, .p], 4, [0, 1, 1, 2]⟩,
   ⟨[.y, .y, .y, .z], 4, [1, 1, 1, 2]⟩,
   ⟨[.g, .g, .g, .b], 4, [1, 1, 1, 2]⟩,
   ⟨[.t, .t, .t, .p], 4, [1, 1, 1, 2]⟩,
   ⟨[.z, .y, .y, .z], 4, [2, 1, 1, 2]⟩,
   ⟨[.b, .g, .g, .b], 4, [2, 1, 1, 2]⟩,
   ⟨[.p, .t, .t, .p], 4, [2, 1, 1, 2]⟩,
   ⟨[.w, .y, .y, .z], 4, [3, 1, 1, 2]⟩,
   ⟨[.a, .g, .g, .b], 4, [3, 1, 1, 2]⟩,
   ⟨[.q, .t, .t, .p], 4, [3, 1, 1, 2]⟩,
   ⟨[.x, .z, .y, .z], 4, [0, 2, 1, 2]⟩,
   ⟨[.r, .b, .g, .b], 4, [0, 2, 1, 2]⟩,
   ⟨[.s, .p, .t, .p], 4, [0, 2, 1, 2]⟩,
   ⟨[.y, .z, .y, .z], 4, [1, 2, 1, 2]⟩,
   ⟨[.g, .b, .g, .b], 4, [1, 2, 1, 2]⟩,
   ⟨[.t, .p, .t, .p], 4, [1, 2, 1, 2]⟩,
   ⟨[.z, .z, .y, .z], 4, [2, 2, 1, 2]⟩,
   ⟨[.b, .b, .g, .b], 4, [2, 2, 1, 2]⟩,
   ⟨[.p, .p, .t, .p], 4, [2, 2, 1, 2]⟩,
   ⟨[.w, .z, .y, .z], 4, [3, 2, 1, 2]⟩,
   ⟨[.a, .b, .g, .b], 4, [3, 2, 1, 2]⟩,
   ⟨[.q, .p, .t, .p], 4, [3, 2, 1, 2]⟩,
   ⟨[.x, .w, .y, .z], 4, [0, 3, 1, 2]⟩,
   ⟨[.r, .a, .g, .b], 4, [0, 3, 1, 2]⟩,
   ⟨[.s, .q, .t, .p], 4, [0, 3, 1, 2]⟩,
   ⟨[.y, .w, .y, .z], 4, [1, 3, 1, 2]⟩,
   ⟨[.g, .a, .g, .b], 4, [1, 3, 1, 2]⟩,
   ⟨[.t, .q, .t, .p], 4, [1, 3, 1, 2]⟩,
   ⟨[.z, .w, .y, .z], 4, [2, 3, 1, 2]⟩,
   ⟨[.b, .a, .g, .b], 4, [2, 3, 1, 2]⟩,
   ⟨[.p, .q, .t, .p], 4, [2, 3, 1, 2]⟩,
   ⟨[.w, .w, .y, .z], 4, [3, 3, 1, 2]⟩,
   ⟨[.a, .a, .g, .b], 4, [3, 3, 1, 2]⟩,
   ⟨[.q, .q, .t, .p], 4, [3, 3, 1, 2]⟩,
   ⟨[.x, .x, .z, .z], 4, [0, 0, 2, 2]⟩,
   ⟨[.r, .r, .b, .b], 4, [0, 0, 2, 2]⟩,
   ⟨[.s, .s, .p, .p], 4, [0, 0, 2, 2]⟩,
   ⟨[.y, .x, .z, .z], 4, [1, 0, 2, 2]⟩,
   ⟨[.g, .r, .b, .b], 4, [1, 0, 2, 2]⟩,
   ⟨[.t, .s, .p, .p], 4, [1, 0, 2, 2]⟩,
   ⟨[.z, .x, .z, .z], 4, [2, 0, 2, 2]⟩,
   ⟨[.b, .r, .b, .b], 4, [2, 0, 2, 2]⟩,
   ⟨[.p, .s, .p, .p], 4, [2, 0, 2, 2]⟩,
   ⟨[.w, .x, .z, .z], 4, [3, 0, 2, 2]⟩,
   ⟨[.a, .r, .b, .b], 4, [3, 0, 2, 2]⟩,
   ⟨[.q, .s, .p, .p], 4, [3, 0, 2, 2]⟩,
   ⟨[.x, .y, .z, .z], 4, [0, 1, 2, 2]⟩,
   ⟨[.r, .g, .b, .b], 4, [0, 1, 2, 2]⟩,
   ⟨[.s, .t, .p, .p], 4, [0, 1, 2, 2]⟩,
   ⟨[.y, .y, .z, .z], 4, [1, 1, 2, 2]⟩,
   ⟨[.g, .g, .b, .b], 4, [1, 1, 2, 2]⟩,
   ⟨[.t, .t, .p, .p], 4, [1, 1, 2, 2]⟩,
   ⟨[.z, .y, .z, .z], 4, [2, 1, 2, 2]⟩,
   ⟨[.b, .g, .b, .b], 4, [2, 1, 2, 2]⟩,
   ⟨[.p, .t, .p, .p], 4, [2, 1, 2, 2]⟩,
   ⟨[.w, .y, .z, .z], 4, [3, 1, 2, 2]⟩,
   ⟨[.a, .g, .b, .b], 4, [3, 1, 2, 2]⟩,
   ⟨[.q, .t, .p, .p], 4, [3, 1, 2, 2]⟩,
   ⟨[.x, .z, .z, .z], 4, [0, 2, 2, 2]⟩,
   ⟨[.r, .b, .b, .b], 4, [0, 2, 2, 2]⟩,
   ⟨[.s, .p, .p, .p], 4, [0, 2, 2, 2]⟩,
   ⟨[.y, .z, .z, .z], 4, [1, 2, 2, 2]⟩,
   ⟨[.g, .b, .b, .b], 4, [1, 2, 2, 2]⟩,
   ⟨[.t, .p, .p, .p], 4, [1, 2, 2, 2]⟩,
   ⟨[.z, .z, .z, .z], 4, [2, 2, 2, 2]⟩,
   ⟨[.b, .b, .b, .b], 4, [2, 2, 2, 2]⟩,
   ⟨[.p, .p, .p, .p], 4, [2, 2, 2, 2]⟩,
   ⟨[.w, .z, .z, .z], 4, [3, 2, 2, 2]⟩,
   ⟨[.a, .b, .b, .b], 4, [3, 2, 2, 2]⟩,
   ⟨[.q, .p, .p, .p], 4, [3, 2, 2, 2]⟩,
   ⟨[.x, .w, .z, .z], 4, [0, 3, 2, 2]⟩,
   ⟨[.r, .a, .b, .b], 4, [0, 3, 2, 2]⟩,
   ⟨[.s, .q, .p, .p], 4, [0, 3, 2, 2]⟩,
   ⟨[.y, .w, .z, .z], 4, [1, 3, 2, 2]⟩,
   ⟨[.g, .a, .b, .b], 4, [1, 3, 2, 2]⟩,
   ⟨[.t, .q, .p, .p], 4, [1, 3, 2, 2]⟩,
   ⟨[.z, .w, .z, .z], 4, [2, 3, 2, 2]⟩,
   ⟨[.b, .a, .b, .b], 4, [2, 3, 2, 2]⟩,
   ⟨[.p, .q, .p, .p], 4, [2, 3, 2, 2]⟩,
   ⟨[.w, .w, .z, .z], 4, [3, 3, 2, 2]⟩,
   ⟨[.a, .a, .b, .b], 4, [3, 3, 2, 2]⟩,
   ⟨[.q, .q, .p, .p], 4, [3, 3, 2, 2]⟩,
   ⟨[.x, .x, .w, .z], 4, [0, 0, 3, 2]⟩,
   ⟨[.r, .r, .a, .b], 4, [0, 0, 3, 2]⟩,
   ⟨[.s, .s, .q, .p], 4, [0, 0, 3, 2]⟩,
   ⟨[.y, .x, .w, .z], 4, [1, 0, 3, 2]⟩,
   ⟨[.g, .r, .a, .b], 4, [1, 0, 3, 2]⟩,
   ⟨[.t, .s, .q, .p], 4, [1, 0, 3, 2]⟩,
   ⟨[.z, .x, .w, .z], 4, [2, 0, 3, 2]⟩,
   ⟨[.b, .r, .a, .b], 4, [2, 0, 3, 2]⟩,
   ⟨[.p, .s, .q, .p], 4, [2, 0, 3, 2]⟩,
   ⟨[.w, .x, .w, .z], 4, [3, 0, 3, 2]⟩,
   ⟨[.a, .r, .a, .b], 4, [3, 0, 3, 2]⟩,
   ⟨[.q, .s, .q, .p], 4, [3, 0, 3, 2]⟩,
   ⟨[.x, .y, .w, .z], 4, [0, 1, 3, 2]⟩,
   ⟨[.r, .g, .a, .b], 4, [0, 1, 3, 2]⟩,
   ⟨[.s, .t, .q, .p], 4, [0, 1, 3, 2]⟩,
   ⟨[.y, .y, .w, .z], 4, [1, 1, 3, 2]⟩,
   ⟨[.g, .g, .a, .b], 4, [1, 1, 3, 2]⟩,
   ⟨[.t, .t, .q, .p], 4, [1, 1, 3, 2]⟩,
   ⟨[.z, .y, .w, .z], 4, [2, 1, 3, 2]⟩,
   ⟨[.b, .g, .a, .b], 4, [2, 1, 3, 2]⟩,
   ⟨[.p, .t, .q, .p], 4, [2, 1, 3, 2]⟩,
   ⟨[.w, .y, .w, .z], 4, [3, 1, 3, 2]⟩,
   ⟨[.a, .g, .a, .b], 4, [3, 1, 3, 2]⟩,
   ⟨[.q, .t, .q, .p], 4, [3, 1, 3, 2]⟩,
   ⟨[.x, .z, .w, .z], 4, [0, 2, 3, 2]⟩,
   ⟨[.r, .b, .a, .b], 4, [0, 2, 3, 2]⟩,
   ⟨[.s, .p, .q, .p], 4, [0, 2, 3, 2]⟩,
   ⟨[.y, .z, .w, .z], 4, [1, 2, 3, 2]⟩,
   ⟨[.g, .b, .a, .b], 4, [1, 2, 3, 2]⟩,
   ⟨[.t, .p, .q, .p], 4, [1, 2, 3, 2]⟩,
   ⟨[.z, .z, .w, .z], 4, [2, 2, 3, 2]⟩,
   ⟨[.b, .b, .a, .b], 4, [2, 2, 3, 2]⟩,
   ⟨[.p, .p, .q, .p], 4, [2, 2, 3, 2]⟩,
   ⟨[.w, .z, .w, .z], 4, [3, 2, 3, 2]⟩,
   ⟨[.a, .b, .a, .b], 4, [3, 2, 3, 2]⟩,
   ⟨[.q, .p, .q, .p], 4, [3, 2, 3, 2]⟩,
   ⟨[.x, .w, .w, .z], 4, [0, 3, 3, 2]⟩,
   ⟨[.r, .a, .a, .b], 4, [0, 3, 3, 2]⟩,
   ⟨[.s, .q, .q, .p], 4, [0, 3, 3, 2]⟩,
   ⟨[.y, .w, .w, .z], 4, [1, 3, 3, 2]⟩,
   ⟨[.g, .a, .a, .b], 4, [1, 3, 3, 2]⟩,
   ⟨[.t, .q, .q, .p], 4, [1, 3, 3, 2]⟩,
   ⟨[.z, .w, .w, .z], 4, [2, 3, 3, 2]⟩,
   ⟨[.b, .a, .a, .b], 4, [2, 3, 3, 2]⟩,
   ⟨[.p, .q, .q, .p], 4, [2, 3, 3, 2]⟩,
   ⟨[.w, .w, .w, .z], 4, [3, 3, 3, 2]⟩,
   ⟨[.a, .a, .a, .b], 4, [3, 3, 3, 2]⟩,
   ⟨[.q, .q, .q, .p], 4, [3, 3, 3, 2]⟩,
   ⟨[.x, .x, .x, .w], 4, [0, 0, 0, 3]⟩,
   ⟨[.r, .r, .r, .a], 4, [0, 0, 0, 3]⟩,
   ⟨[.s, .s, .s, .q], 4, [0, 0, 0, 3]⟩,
   ⟨[.y, .x, .x, .w], 4, [1, 0, 0, 3]⟩,
   ⟨[.g, .r, .r, .a], 4, [1, 0, 0, 3]⟩,
   ⟨[.t, .s, .s, .q], 4, [1, 0, 0, 3]⟩,
   ⟨[.z, .x, .x, .w], 4, [2, 0, 0, 3]⟩,
   ⟨[.b, .r, .r, .a], 4, [2, 0, 0, 3]⟩,
   ⟨[.p, .s, .s, .q], 4, [2, 0, 0, 3]⟩,
   ⟨[.w, .x, .x, .w], 4, [3, 0, 0, 3]⟩,
   ⟨[.a, .r, .r, .a], 4, [3, 0, 0, 3]⟩,
   ⟨[.q, .s, .s, .q], 4, [3, 0, 0, 3]⟩,
   ⟨[.x, .y, .x, .w], 4, [0, 1, 0, 3]⟩,
   ⟨[.r, .g, .r, .a], 4, [0, 1, 0, 3]⟩,
   ⟨[.s, .t, .s, .q], 4, [0, 1, 0, 3]⟩,
   ⟨[.y, .y, .x, .w], 4, [1, 1, 0, 3]⟩,
   ⟨[.g, .g, .r, .a], 4, [1, 1, 0, 3]⟩,
   ⟨[.t, .t, .s, .q], 4, [1, 1, 0, 3]⟩,
   ⟨[.z, .y, .x, .w], 4, [2, 1, 0, 3]⟩,
   ⟨[.b, .g, .r, .a], 4, [2, 1, 0, 3]⟩,
   ⟨[.p, .t, .s, .q], 4, [2, 1, 0, 3]⟩,
   ⟨[.w, .y, .x, .w], 4, [3, 1, 0, 3]⟩,
   ⟨[.a, .g, .r, .a], 4, [3, 1, 0, 3]⟩,
   ⟨[.q, .t, .s, .q], 4, [3, 1, 0, 3]⟩,
   ⟨[.x, .z, .x, .w], 4, [0, 2, 0, 3]⟩,
   ⟨[.r, .b, .r, .a], 4, [0, 2, 0, 3]⟩,
   ⟨[.s, .p, .s, .q], 4, [0, 2, 0, 3]⟩,
   ⟨[.y, .z, .x, .w], 4, [1, 2, 0, 3]⟩,
   ⟨[.g, .b, .r, .a], 4, [1, 2, 0, 3]⟩,
   ⟨[.t, .p, .s, .q], 4, [1, 2, 0, 3]⟩,
   ⟨[.z, .z, .x, .w], 4, [2, 2, 0, 3]⟩,
   ⟨[.b, .b, .r, .a], 4, [2, 2, 0, 3]⟩,
   ⟨[.p, .p, .s, .q], 4, [2, 2, 0, 3]⟩,
   ⟨[.w, .z, .x, .w], 4, [3, 2, 0, 3]⟩,
   ⟨[.a, .b, .r, .a], 4, [3, 2, 0, 3]⟩,
   ⟨[.q, .p, .s, .q], 4, [3, 2, 0, 3]⟩,
   ⟨[.x, .w, .x, .w], 4, [0, 3, 0, 3]⟩,
   ⟨[.r, .a, .r, .a], 4, [0, 3, 0, 3]⟩,
   ⟨[.s, .q, .s, .q], 4, [0, 3, 0, 3]⟩,
   ⟨[.y, .w, .x, .w], 4, [1, 3, 0, 3]⟩,
   ⟨[.g, .a, .r, .a], 4, [1, 3, 0, 3]⟩,
   ⟨[.t, .q, .s, .q], 4, [1, 3, 0, 3]⟩,
   ⟨[.z, .w, .x, .w], 4, [2, 3, 0, 3]⟩,
   ⟨[.b, .a, .r, .a], 4, [2, 3, 0, 3]⟩,
   ⟨[.p, .q, .s, .q], 4, [2, 3, 0, 3]⟩,
   ⟨[.w, .w, .x, .w], 4, [3, 3, 0, 3]⟩,
   ⟨[.a, .a, .r, .a], 4, [3, 3, 0, 3]⟩,
   ⟨[.q, .q, .s, .q], 4, [3, 3, 0, 3]⟩,
   ⟨[.x, .x, .y, .w], 4, [0, 0, 1, 3]⟩,
   ⟨[.r, .r, .g, .a], 4, [0, 0, 1, 3]⟩,
   ⟨[.s, .s, .t, .q], 4, [0, 0, 1, 3]⟩,
   ⟨[.y, .x, .y, .w], 4, [1, 0, 1, 3]⟩,
   ⟨[.g, .r, .g, .a], 4, [1, 0, 1, 3]⟩,
   ⟨[.t, .s, .t, .q], 4, [1, 0, 1, 3]⟩,
   ⟨[.z, .x, .y, .w], 4, [2, 0, 1, 3]⟩,
   ⟨[.b, .r, .g, .a], 4, [2, 0, 1, 3]⟩,
   ⟨[.p, .s, .t, .q], 4, [2, 0, 1, 3]⟩,
   ⟨[.w, .x, .y, .w], 4, [3, 0, 1, 3]⟩,
   ⟨[.a, .r, .g, .a], 4, [3, 0, 1, 3]⟩,
   ⟨[.q, .s, .t, .q], 4, [3, 0, 1, 3]⟩,
   ⟨[.x, .y, .y, .w], 4, [0, 1, 1, 3]⟩,
   ⟨[.r, .g, .g, .a], 4, [0, 1, 1, 3]⟩,
   ⟨[.s, .t, .t, .q], 4, [0, 1, 1, 3]⟩,
   ⟨[.y, .y, .y, .w], 4, [1, 1, 1, 3]⟩,
   ⟨[.g, .g, .g, .a], 4, [1, 1, 1, 3]⟩,
   ⟨[.t, .t, .t, .q], 4, [1, 1, 1, 3]⟩,
   ⟨[.z, .y, .y, .w], 4, [2, 1, 1, 3]⟩,
   ⟨[.b, .g, .g, .a], 4, [2, 1, 1, 3]⟩,
   ⟨[.p, .t, .t, .q], 4, [2, 1, 1, 3]⟩,
   ⟨[.w, .y, .y, .w], 4, [3, 1, 1, 3]⟩,
   ⟨[.a, .g, .g, .a], 4, [3, 1, 1, 3]⟩,
   ⟨[.q, .t, .t, .q], 4, [3, 1, 1, 3]⟩,
   ⟨[.x, .z, .y, .w], 4, [0, 2, 1, 3]⟩,
   ⟨[.r, .b, .g, .a], 4, [0, 2, 1, 3]⟩,
   ⟨[.s, .p, .t, .q], 4, [0, 2, 1, 3]⟩,
   ⟨[.y, .z, .y, .w], 4, [1, 2, 1, 3]⟩,
   ⟨[.g, .b, .g, .a], 4, [1, 2, 1, 3]⟩,
   ⟨[.t, .p, .t, .q], 4, [1, 2, 1, 3]⟩,
   ⟨[.z, .z, .y, .w], 4, [2, 2, 1, 3]⟩,
   ⟨[.b, .b, .g, .a], 4, [2, 2, 1, 3]⟩,
   ⟨[.p, .p, .t, .q], 4, [2, 2, 1, 3]⟩,
   ⟨[.w, .z, .y, .w], 4, [3, 2, 1, 3]⟩,
   ⟨[.a, .b, .g, .a], 4, [3, 2, 1, 3]⟩,
   ⟨[.q, .p, .t, .q], 4, [3, 2, 1, 3]⟩,
   ⟨[.x, .w, .y, .w], 4, [0, 3, 1, 3]⟩,
   ⟨[.r, .a, .g, .a], 4, [0, 3, 1, 3]⟩,
   ⟨[.s, .q, .t, .q], 4, [0, 3, 1, 3]⟩,
   ⟨[.y, .w, .y, .w], 4, [1, 3, 1, 3]⟩,
   ⟨[.g, .a, .g, .a], 4, [1, 3, 1, 3]⟩,
   ⟨[.t, .q, .t, .q], 4, [1, 3, 1, 3]⟩,
   ⟨[.z, .w, .y, .w], 4, [2, 3, 1, 3]⟩,
   ⟨[.b, .a, .g, .a], 4, [2, 3, 1, 3]⟩,
   ⟨[.p, .q, .t, .q], 4, [2, 3, 1, 3]⟩,
   ⟨[.w, .w, .y, .w], 4, [3, 3, 1, 3]⟩,
   ⟨[.a, .a, .g, .a], 4, [3, 3, 1, 3]⟩,
   ⟨[.q, .q, .t, .q], 4, [3, 3, 1, 3]⟩,
   ⟨[.x, .x, .z, .w], 4, [0, 0, 2, 3]⟩,
   ⟨[.r, .r, .b, .a], 4, [0, 0, 2, 3]⟩,
   ⟨[.s, .s, .p, .q], 4, [0, 0, 2, 3]⟩,
   ⟨[.y, .x, .z, .w], 4, [1, 0, 2, 3]⟩,
   ⟨[.g, .r, .b, .a], 4, [1, 0, 2, 3]⟩,
   ⟨[.t, .s, .p, .q], 4, [1, 0, 2, 3]⟩,
   ⟨[.z, .x, .z, .w], 4, [2, 0, 2, 3]⟩,
   ⟨[.b, .r, .b, .a], 4, [2, 0, 2, 3]⟩,
   ⟨[.p, .s, .p, .q], 4, [2, 0, 2, 3]⟩,
   ⟨[.w, .x, .z, .w], 4, [3, 0, 2, 3]⟩,
   ⟨[.a, .r, .b, .a], 4, [3, 0, 2, 3]⟩,
   ⟨[.q, .s, .p, .q], 4, [3, 0, 2, 3]⟩,
   ⟨[.x, .y, .z, .w], 4, [0, 1, 2, 3]⟩,
   ⟨[.r, .g, .b, .a], 4, [0, 1, 2, 3]⟩,
   ⟨[.s, .t, .p, .q], 4, [0, 1, 2, 3]⟩,
   ⟨[.y, .y, .z, .w], 4, [1, 1, 2, 3]⟩,
   ⟨[.g, .g, .b, .a], 4, [1, 1, 2, 3]⟩,
   ⟨[.t, .t, .p, .q], 4, [1, 1, 2, 3]⟩,
   ⟨[.z, .y, .z, .w], 4, [2, 1, 2, 3]⟩,
   ⟨[.b, .g, .b, .a], 4, [2, 1, 2, 3]⟩,
   ⟨[.p, .t, .p, .q], 4, [2, 1, 2, 3]⟩,
   ⟨[.w, .y, .z, .w], 4, [3, 1, 2, 3]⟩,
   ⟨[.a, .g, .b, .a], 4, [3, 1, 2, 3]⟩,
   ⟨[.q, .t, .p, .q], 4, [3, 1, 2, 3]⟩,
   ⟨[.x, .z, .z, .w], 4, [0, 2, 2, 3]⟩,
   ⟨[.r, .b, .b, .a], 4, [0, 2, 2, 3]⟩,
   ⟨[.s, .p, .p, .q], 4, [0, 2, 2, 3]⟩,
   ⟨[.y, .z, .z, .w], 4, [1, 2, 2, 3]⟩,
   ⟨[.g, .b, .b, .a], 4, [1, 2, 2, 3]⟩,
   ⟨[.t, .p, .p, .q], 4, [1, 2, 2, 3]⟩,
   ⟨[.z, .z, .z, .w], 4, [2, 2, 2, 3]⟩,
   ⟨[.b, .b, .b, .a], 4, [2, 2, 2, 3]⟩,
   ⟨[.p, .p, .p, .q], 4, [2, 2, 2, 3]⟩,
   ⟨[.w, .z, .z, .w], 4, [3, 2, 2, 3]⟩,
   ⟨[.a, .b, .b, .a], 4, [3, 2, 2, 3]⟩,
   ⟨[.q, .p, .p, .q], 4, [3, 2, 2, 3]⟩,
   ⟨[.x, .w, .z, .w], 4, [0, 3, 2, 3]⟩,
   ⟨[.r, .a, .b, .a], 4, [0, 3, 2, 3]⟩,
   ⟨[.s, .q, .p, .q], 4, [0, 3, 2, 3]⟩,
   ⟨[.y, .w, .z, .w], 4, [1, 3, 2, 3]⟩,
   ⟨[.g, .a, .b, .a], 4, [1, 3, 2, 3]⟩,
   ⟨[.t, .q, .p, .q], 4, [1, 3, 2, 3]⟩,
   ⟨[.z, .w, .z, .w], 4, [2, 3, 2, 3]⟩,
   ⟨[.b, .a, .b, .a], 4, [2, 3, 2, 3]⟩,
   ⟨[.p, .q, .p, .q], 4, [2, 3, 2, 3]⟩,
   ⟨[.w, .w, .z, .w], 4, [3, 3, 2, 3]⟩,
   ⟨[.a, .a, .b, .a], 4, [3, 3, 2, 3]⟩,
   ⟨[.q, .q, .p, .q], 4, [3, 3, 2, 3]⟩,
   ⟨[.x, .x, .w, .w], 4, [0, 0, 3, 3]⟩,
   ⟨[.r, .r, .a, .a], 4, [0, 0, 3, 3]⟩,
   ⟨[.s, .s, .q, .q], 4, [0, 0, 3, 3]⟩,
   ⟨[.y, .x, .w, .w], 4, [1, 0, 3, 3]⟩,
   ⟨[.g, .r, .a, .a], 4, [1, 0, 3, 3]⟩,
   ⟨[.t, .s, .q, .q], 4, [1, 0, 3, 3]⟩,
   ⟨[.z, .x, .w, .w], 4, [2, 0, 3, 3]⟩,
   ⟨[.b, .r, .a, .a], 4, [2, 0, 3, 3]⟩,
   ⟨[.p, .s, .q, .q], 4, [2, 0, 3, 3]⟩,
   ⟨[.w, .x, .w, .w], 4, [3, 0, 3, 3]⟩,
   ⟨[.a, .r, .a, .a], 4, [3, 0, 3, 3]⟩,
   ⟨[.q, .s, .q, .q], 4, [3, 0, 3, 3]⟩,
   ⟨[.x, .y, .w, .w], 4, [0, 1, 3, 3]⟩,
   ⟨[.r, .g, .a, .a], 4, [0, 1, 3, 3]⟩,
   ⟨[.s, .t, .q, .q], 4, [0, 1, 3, 3]⟩,
   ⟨[.y, .y, .w, .w], 4, [1, 1, 3, 3]⟩,
   ⟨[.g, .g, .a, .a], 4, [1, 1, 3, 3]⟩,
   ⟨[.t, .t, .q, .q], 4, [1, 1, 3, 3]⟩,
   ⟨[.z, .y, .w, .w], 4, [2, 1, 3, 3]⟩,
   ⟨[.b, .g, .a, .a], 4, [2, 1, 3, 3]⟩,
   ⟨[.p, .t, .q, .q], 4, [2, 1, 3, 3]⟩,
   ⟨[.w, .y, .w, .w], 4, [3, 1, 3, 3]⟩,
   ⟨[.a, .g, .a, .a], 4, [3, 1, 3, 3]⟩,
   ⟨[.q, .t, .q, .q], 4, [3, 1, 3, 3]⟩,
   ⟨[.x, .z, .w, .w], 4, [0, 2, 3, 3]⟩,
   ⟨[.r, .b, .a, .a], 4, [0, 2, 3, 3]⟩,
   ⟨[.s, .p, .q, .q], 4, [0, 2, 3, 3]⟩,
   ⟨[.y, .z, .w, .w], 4, [1, 2, 3, 3]⟩,
   ⟨[.g, .b, .a, .a], 4, [1, 2, 3, 3]⟩,
   ⟨[.t, .p, .q, .q], 4, [1, 2, 3, 3]⟩,
   ⟨[.z, .z, .w, .w], 4, [2, 2, 3, 3]⟩,
   ⟨[.b, .b, .a, .a], 4, [2, 2, 3, 3]⟩,
   ⟨[.p, .p, .q, .q], 4, [2, 2, 3, 3]⟩,
   ⟨[.w, .z, .w, .w], 4, [3, 2, 3, 3]⟩,
   ⟨[.a, .b, .a, .a], 4, [3, 2, 3, 3]⟩,
   ⟨[.q, .p, .q, .q], 4, [3, 2, 3, 3]⟩,
   ⟨[.x, .w, .w, .w], 4, [0, 3, 3, 3]⟩,
   ⟨[.r, .a, .a, .a], 4, [0, 3, 3, 3]⟩,
   ⟨[.s, .q, .q, .q], 4, [0, 3, 3, 3]⟩,
   ⟨[.y, .w, .w, .w], 4, [1, 3, 3, 3]⟩,
   ⟨[.g, .a, .a, .a], 4, [1, 3, 3, 3]⟩,
   ⟨[.t, .q, .q, .q], 4, [1, 3, 3, 3]⟩,
   ⟨[.z, .w, .w, .w], 4, [2, 3, 3, 3]⟩,
   ⟨[.b, .a, .a, .a], 4, [2, 3, 3, 3]⟩,
   ⟨[.p, .q, .q, .q], 4, [2, 3, 3, 3]⟩,
   ⟨[.w, .w, .w, .w], 4, [3, 3, 3, 3]⟩,
   ⟨[.a, .a, .a, .a], 4, [3, 3, 3, 3]⟩,
   ⟨[.q, .q, .q, .q], 4, [3, 3, 3, 3]⟩]

end Zcm
