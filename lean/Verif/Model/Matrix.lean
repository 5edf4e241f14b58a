import Verif.Model.Mat

/-!
# Matrix functions and matrix division

Model of src/matrix.cpp and of the division operators of src/mat2.cpp, src/mat3.cpp,
src/mat4.cpp (they call `inverse`).  Entries assigned one by one to a fresh result
(`result[i][j] = …`, each entry assigned exactly once, never read before) are collected in one
constructor application.  A leading unary `+` is dropped: it is the identity on `float`.
-/

namespace Zcm

variable {α : Type} [Add α] [Sub α] [Mul α] [Div α] [Neg α] [FloatOps α] [Libm α]
  [LT α] [DecidableLT α] [LE α] [DecidableLE α] [BEq α]

/-- `matrixCompMult(mat2, mat2)` src/matrix.cpp:6-9 -/
def M2.matrixCompMult (x y : M2 α) : M2 α := ⟨x.c0 * y.c0, x.c1 * y.c1⟩

/-- `matrixCompMult(mat3, mat3)` src/matrix.cpp:12-15 -/
def M3.matrixCompMult (x y : M3 α) : M3 α := ⟨x.c0 * y.c0, x.c1 * y.c1, x.c2 * y.c2⟩

/-- `matrixCompMult(mat4, mat4)` src/matrix.cpp:17-20 -/
def M4.matrixCompMult (x y : M4 α) : M4 α := ⟨x.c0 * y.c0, x.c1 * y.c1, x.c2 * y.c2, x.c3 * y.c3⟩

/-- `transpose(mat2)` src/matrix.cpp:22-32 -/
def M2.transpose (m : M2 α) : M2 α :=
  let result : M2 α :=
    ⟨⟨m.c0.x,
      m.c1.x⟩,
     ⟨m.c0.y,
      m.c1.y⟩⟩
  result

/-- `transpose(mat3)` src/matrix.cpp:34-51 -/
def M3.transpose (m : M3 α) : M3 α :=
  let result : M3 α :=
    ⟨⟨m.c0.x,
      m.c1.x,
      m.c2.x⟩,
     ⟨m.c0.y,
      m.c1.y,
      m.c2.y⟩,
     ⟨m.c0.z,
      m.c1.z,
      m.c2.z⟩⟩
  result

/-- `transpose(mat4)` src/matrix.cpp:53-78 -/
def M4.transpose (m : M4 α) : M4 α :=
  let result : M4 α :=
    ⟨⟨m.c0.x,
      m.c1.x,
      m.c2.x,
      m.c3.x⟩,
     ⟨m.c0.y,
      m.c1.y,
      m.c2.y,
      m.c3.y⟩,
     ⟨m.c0.z,
      m.c1.z,
      m.c2.z,
      m.c3.z⟩,
     ⟨m.c0.w,
      m.c1.w,
      m.c2.w,
      m.c3.w⟩⟩
  result

/-- `determinant(mat2)` src/matrix.cpp:80-83 -/
def M2.determinant (m : M2 α) : α :=
  m.c0.x * m.c1.y - m.c1.x * m.c0.y

/-- `determinant(mat3)` src/matrix.cpp:85-91 -/
def M3.determinant (m : M3 α) : α :=
  m.c0.x * (m.c1.y * m.c2.z - m.c2.y * m.c1.z) - m.c1.x * (m.c0.y * m.c2.z - m.c2.y * m.c0.z) + m.c2.x * (m.c0.y * m.c1.z - m.c1.y * m.c0.z)

/-- `determinant(mat4)` src/matrix.cpp:93-111 -/
def M4.determinant (m : M4 α) : α :=
  let SubFactor00 : α := m.c2.z * m.c3.w - m.c3.z * m.c2.w
  let SubFactor01 : α := m.c2.y * m.c3.w - m.c3.y * m.c2.w
  let SubFactor02 : α := m.c2.y * m.c3.z - m.c3.y * m.c2.z
  let SubFactor03 : α := m.c2.x * m.c3.w - m.c3.x * m.c2.w
  let SubFactor04 : α := m.c2.x * m.c3.z - m.c3.x * m.c2.z
  let SubFactor05 : α := m.c2.x * m.c3.y - m.c3.x * m.c2.y
  let DetCof : V4 α := ⟨(m.c1.y * SubFactor00 - m.c1.z * SubFactor01 + m.c1.w * SubFactor02), (-(m.c1.x * SubFactor00 - m.c1.z * SubFactor03 + m.c1.w * SubFactor04)), (m.c1.x * SubFactor01 - m.c1.y * SubFactor03 + m.c1.w * SubFactor05), (-(m.c1.x * SubFactor02 - m.c1.y * SubFactor04 + m.c1.z * SubFactor05))⟩
  m.c0.x * DetCof.x + m.c0.y * DetCof.y + m.c0.z * DetCof.z + m.c0.w * DetCof.w

/-- `inverse(mat2)` src/matrix.cpp:113-125 -/
def M2.inverse (m : M2 α) : M2 α :=
  let OneOverDeterminant : α := lit 1 / (m.c0.x * m.c1.y - m.c1.x * m.c0.y)
  let inverse : M2 α := M2.ofFloats (m.c1.y * OneOverDeterminant) ((-m.c0.y) * OneOverDeterminant) ((-m.c1.x) * OneOverDeterminant) (m.c0.x * OneOverDeterminant)
  inverse

/-- `inverse(mat3)` src/matrix.cpp:127-146 -/
def M3.inverse (m : M3 α) : M3 α :=
  let oneOverDeterminant : α := lit 1 / (m.c0.x * (m.c1.y * m.c2.z - m.c2.y * m.c1.z) - m.c1.x * (m.c0.y * m.c2.z - m.c2.y * m.c0.z) + m.c2.x * (m.c0.y * m.c1.z - m.c1.y * m.c0.z))
  let inverse : M3 α :=
    ⟨⟨(m.c1.y * m.c2.z - m.c2.y * m.c1.z) * oneOverDeterminant,
      (-(m.c0.y * m.c2.z - m.c2.y * m.c0.z)) * oneOverDeterminant,
      (m.c0.y * m.c1.z - m.c1.y * m.c0.z) * oneOverDeterminant⟩,
     ⟨(-(m.c1.x * m.c2.z - m.c2.x * m.c1.z)) * oneOverDeterminant,
      (m.c0.x * m.c2.z - m.c2.x * m.c0.z) * oneOverDeterminant,
      (-(m.c0.x * m.c1.z - m.c1.x * m.c0.z)) * oneOverDeterminant⟩,
     ⟨(m.c1.x * m.c2.y - m.c2.x * m.c1.y) * oneOverDeterminant,
      (-(m.c0.x * m.c2.y - m.c2.x * m.c0.y)) * oneOverDeterminant,
      (m.c0.x * m.c1.y - m.c1.x * m.c0.y) * oneOverDeterminant⟩⟩
  inverse

/-- `inverse(mat4)` src/matrix.cpp:148-203 -/
def M4.inverse (m : M4 α) : M4 α :=
  let Coef00 : α := m.c2.z * m.c3.w - m.c3.z * m.c2.w
  let Coef02 : α := m.c1.z * m.c3.w - m.c3.z * m.c1.w
  let Coef03 : α := m.c1.z * m.c2.w - m.c2.z * m.c1.w
  let Coef04 : α := m.c2.y * m.c3.w - m.c3.y * m.c2.w
  let Coef06 : α := m.c1.y * m.c3.w - m.c3.y * m.c1.w
  let Coef07 : α := m.c1.y * m.c2.w - m.c2.y * m.c1.w
  let Coef08 : α := m.c2.y * m.c3.z - m.c3.y * m.c2.z
  let Coef10 : α := m.c1.y * m.c3.z - m.c3.y * m.c1.z
  let Coef11 : α := m.c1.y * m.c2.z - m.c2.y * m.c1.z
  let Coef12 : α := m.c2.x * m.c3.w - m.c3.x * m.c2.w
  let Coef14 : α := m.c1.x * m.c3.w - m.c3.x * m.c1.w
  let Coef15 : α := m.c1.x * m.c2.w - m.c2.x * m.c1.w
  let Coef16 : α := m.c2.x * m.c3.z - m.c3.x * m.c2.z
  let Coef18 : α := m.c1.x * m.c3.z - m.c3.x * m.c1.z
  let Coef19 : α := m.c1.x * m.c2.z - m.c2.x * m.c1.z
  let Coef20 : α := m.c2.x * m.c3.y - m.c3.x * m.c2.y
  let Coef22 : α := m.c1.x * m.c3.y - m.c3.x * m.c1.y
  let Coef23 : α := m.c1.x * m.c2.y - m.c2.x * m.c1.y
  let Fac0 : V4 α := ⟨Coef00, Coef00, Coef02, Coef03⟩
  let Fac1 : V4 α := ⟨Coef04, Coef04, Coef06, Coef07⟩
  let Fac2 : V4 α := ⟨Coef08, Coef08, Coef10, Coef11⟩
  let Fac3 : V4 α := ⟨Coef12, Coef12, Coef14, Coef15⟩
  let Fac4 : V4 α := ⟨Coef16, Coef16, Coef18, Coef19⟩
  let Fac5 : V4 α := ⟨Coef20, Coef20, Coef22, Coef23⟩
  let Vec0 : V4 α := ⟨m.c1.x, m.c0.x, m.c0.x, m.c0.x⟩
  let Vec1 : V4 α := ⟨m.c1.y, m.c0.y, m.c0.y, m.c0.y⟩
  let Vec2 : V4 α := ⟨m.c1.z, m.c0.z, m.c0.z, m.c0.z⟩
  let Vec3 : V4 α := ⟨m.c1.w, m.c0.w, m.c0.w, m.c0.w⟩
  let Inv0 : V4 α := Vec1 * Fac0 - Vec2 * Fac1 + Vec3 * Fac2
  let Inv1 : V4 α := Vec0 * Fac0 - Vec2 * Fac3 + Vec3 * Fac4
  let Inv2 : V4 α := Vec0 * Fac1 - Vec1 * Fac3 + Vec3 * Fac5
  let Inv3 : V4 α := Vec0 * Fac2 - Vec1 * Fac4 + Vec2 * Fac5
  let SignA : V4 α := ⟨lit 1, lit (-1), lit 1, lit (-1)⟩
  let SignB : V4 α := ⟨lit (-1), lit 1, lit (-1), lit 1⟩
  let inverse : M4 α := ⟨Inv0 * SignA, Inv1 * SignB, Inv2 * SignA, Inv3 * SignB⟩
  let Row0 : V4 α := ⟨inverse.c0.x, inverse.c1.x, inverse.c2.x, inverse.c3.x⟩
  let Dot0 : V4 α := m.c0 * Row0
  let Dot1 : α := (Dot0.x + Dot0.y) + (Dot0.z + Dot0.w)
  let oneOverDeterminant : α := lit 1 / Dot1
  inverse * oneOverDeterminant

/-- `adjugate(mat2)` src/matrix.cpp:206-214 -/
def M2.adjugate (m : M2 α) : M2 α :=
  let Adjugate : M2 α := M2.ofFloats (m.c1.y) ((-m.c0.y)) ((-m.c1.x)) (m.c0.x)
  Adjugate

/-- `adjugate(mat3)` src/matrix.cpp:217-231 -/
def M3.adjugate (m : M3 α) : M3 α :=
  let Adjugate : M3 α :=
    ⟨⟨(m.c1.y * m.c2.z - m.c2.y * m.c1.z),
      (-(m.c0.y * m.c2.z - m.c2.y * m.c0.z)),
      (m.c0.y * m.c1.z - m.c1.y * m.c0.z)⟩,
     ⟨(-(m.c1.x * m.c2.z - m.c2.x * m.c1.z)),
      (m.c0.x * m.c2.z - m.c2.x * m.c0.z),
      (-(m.c0.x * m.c1.z - m.c1.x * m.c0.z))⟩,
     ⟨(m.c1.x * m.c2.y - m.c2.x * m.c1.y),
      (-(m.c0.x * m.c2.y - m.c2.x * m.c0.y)),
      (m.c0.x * m.c1.y - m.c1.x * m.c0.y)⟩⟩
  Adjugate

/-- `adjugate(mat4)` src/matrix.cpp:233-281 -/
def M4.adjugate (m : M4 α) : M4 α :=
  let Coef00 : α := m.c2.z * m.c3.w - m.c3.z * m.c2.w
  let Coef02 : α := m.c1.z * m.c3.w - m.c3.z * m.c1.w
  let Coef03 : α := m.c1.z * m.c2.w - m.c2.z * m.c1.w
  let Coef04 : α := m.c2.y * m.c3.w - m.c3.y * m.c2.w
  let Coef06 : α := m.c1.y * m.c3.w - m.c3.y * m.c1.w
  let Coef07 : α := m.c1.y * m.c2.w - m.c2.y * m.c1.w
  let Coef08 : α := m.c2.y * m.c3.z - m.c3.y * m.c2.z
  let Coef10 : α := m.c1.y * m.c3.z - m.c3.y * m.c1.z
  let Coef11 : α := m.c1.y * m.c2.z - m.c2.y * m.c1.z
  let Coef12 : α := m.c2.x * m.c3.w - m.c3.x * m.c2.w
  let Coef14 : α := m.c1.x * m.c3.w - m.c3.x * m.c1.w
  let Coef15 : α := m.c1.x * m.c2.w - m.c2.x * m.c1.w
  let Coef16 : α := m.c2.x * m.c3.z - m.c3.x * m.c2.z
  let Coef18 : α := m.c1.x * m.c3.z - m.c3.x * m.c1.z
  let Coef19 : α := m.c1.x * m.c2.z - m.c2.x * m.c1.z
  let Coef20 : α := m.c2.x * m.c3.y - m.c3.x * m.c2.y
  let Coef22 : α := m.c1.x * m.c3.y - m.c3.x * m.c1.y
  let Coef23 : α := m.c1.x * m.c2.y - m.c2.x * m.c1.y
  let Fac0 : V4 α := ⟨Coef00, Coef00, Coef02, Coef03⟩
  let Fac1 : V4 α := ⟨Coef04, Coef04, Coef06, Coef07⟩
  let Fac2 : V4 α := ⟨Coef08, Coef08, Coef10, Coef11⟩
  let Fac3 : V4 α := ⟨Coef12, Coef12, Coef14, Coef15⟩
  let Fac4 : V4 α := ⟨Coef16, Coef16, Coef18, Coef19⟩
  let Fac5 : V4 α := ⟨Coef20, Coef20, Coef22, Coef23⟩
  let Vec0 : V4 α := ⟨m.c1.x, m.c0.x, m.c0.x, m.c0.x⟩
  let Vec1 : V4 α := ⟨m.c1.y, m.c0.y, m.c0.y, m.c0.y⟩
  let Vec2 : V4 α := ⟨m.c1.z, m.c0.z, m.c0.z, m.c0.z⟩
  let Vec3 : V4 α := ⟨m.c1.w, m.c0.w, m.c0.w, m.c0.w⟩
  let Inv0 : V4 α := Vec1 * Fac0 - Vec2 * Fac1 + Vec3 * Fac2
  let Inv1 : V4 α := Vec0 * Fac0 - Vec2 * Fac3 + Vec3 * Fac4
  let Inv2 : V4 α := Vec0 * Fac1 - Vec1 * Fac3 + Vec3 * Fac5
  let Inv3 : V4 α := Vec0 * Fac2 - Vec1 * Fac4 + Vec2 * Fac5
  let SignA : V4 α := ⟨lit 1, lit (-1), lit 1, lit (-1)⟩
  let SignB : V4 α := ⟨lit (-1), lit 1, lit (-1), lit 1⟩
  let inverse : M4 α := ⟨Inv0 * SignA, Inv1 * SignB, Inv2 * SignA, Inv3 * SignB⟩
  inverse

/-- `inverseTranspose(mat2)` src/matrix.cpp:283-294 -/
def M2.inverseTranspose (m : M2 α) : M2 α :=
  let Determinant : α := m.c0.x * m.c1.y - m.c1.x * m.c0.y
  let Inverse : M2 α := M2.ofFloats (m.c1.y / Determinant) ((-m.c0.y) / Determinant) ((-m.c1.x) / Determinant) (m.c0.x / Determinant)
  Inverse

/-- `inverseTranspose(mat3)` src/matrix.cpp:296-314 -/
def M3.inverseTranspose (m : M3 α) : M3 α :=
  let Determinant : α := m.c0.x * (m.c1.y * m.c2.z - m.c1.z * m.c2.y) - m.c0.y * (m.c1.x * m.c2.z - m.c1.z * m.c2.x) + m.c0.z * (m.c1.x * m.c2.y - m.c1.y * m.c2.x)
  let Inverse : M3 α :=
    ⟨⟨(m.c1.y * m.c2.z - m.c2.y * m.c1.z),
      (-(m.c1.x * m.c2.z - m.c2.x * m.c1.z)),
      (m.c1.x * m.c2.y - m.c2.x * m.c1.y)⟩,
     ⟨(-(m.c0.y * m.c2.z - m.c2.y * m.c0.z)),
      (m.c0.x * m.c2.z - m.c2.x * m.c0.z),
      (-(m.c0.x * m.c2.y - m.c2.x * m.c0.y))⟩,
     ⟨(m.c0.y * m.c1.z - m.c1.y * m.c0.z),
      (-(m.c0.x * m.c1.z - m.c1.x * m.c0.z)),
      (m.c0.x * m.c1.y - m.c1.x * m.c0.y)⟩⟩
  Inverse / Determinant

/-- `inverseTranspose(mat4)` src/matrix.cpp:316-366 -/
def M4.inverseTranspose (m : M4 α) : M4 α :=
  let SubFactor00 : α := m.c2.z * m.c3.w - m.c3.z * m.c2.w
  let SubFactor01 : α := m.c2.y * m.c3.w - m.c3.y * m.c2.w
  let SubFactor02 : α := m.c2.y * m.c3.z - m.c3.y * m.c2.z
  let SubFactor03 : α := m.c2.x * m.c3.w - m.c3.x * m.c2.w
  let SubFactor04 : α := m.c2.x * m.c3.z - m.c3.x * m.c2.z
  let SubFactor05 : α := m.c2.x * m.c3.y - m.c3.x * m.c2.y
  let SubFactor06 : α := m.c1.z * m.c3.w - m.c3.z * m.c1.w
  let SubFactor07 : α := m.c1.y * m.c3.w - m.c3.y * m.c1.w
  let SubFactor08 : α := m.c1.y * m.c3.z - m.c3.y * m.c1.z
  let SubFactor09 : α := m.c1.x * m.c3.w - m.c3.x * m.c1.w
  let SubFactor10 : α := m.c1.x * m.c3.z - m.c3.x * m.c1.z
  let SubFactor11 : α := m.c1.y * m.c3.w - m.c3.y * m.c1.w
  let SubFactor12 : α := m.c1.x * m.c3.y - m.c3.x * m.c1.y
  let SubFactor13 : α := m.c1.z * m.c2.w - m.c2.z * m.c1.w
  let SubFactor14 : α := m.c1.y * m.c2.w - m.c2.y * m.c1.w
  let SubFactor15 : α := m.c1.y * m.c2.z - m.c2.y * m.c1.z
  let SubFactor16 : α := m.c1.x * m.c2.w - m.c2.x * m.c1.w
  let SubFactor17 : α := m.c1.x * m.c2.z - m.c2.x * m.c1.z
  let SubFactor18 : α := m.c1.x * m.c2.y - m.c2.x * m.c1.y
  let Inverse : M4 α :=
    ⟨⟨(m.c1.y * SubFactor00 - m.c1.z * SubFactor01 + m.c1.w * SubFactor02),
      (-(m.c1.x * SubFactor00 - m.c1.z * SubFactor03 + m.c1.w * SubFactor04)),
      (m.c1.x * SubFactor01 - m.c1.y * SubFactor03 + m.c1.w * SubFactor05),
      (-(m.c1.x * SubFactor02 - m.c1.y * SubFactor04 + m.c1.z * SubFactor05))⟩,
     ⟨(-(m.c0.y * SubFactor00 - m.c0.z * SubFactor01 + m.c0.w * SubFactor02)),
      (m.c0.x * SubFactor00 - m.c0.z * SubFactor03 + m.c0.w * SubFactor04),
      (-(m.c0.x * SubFactor01 - m.c0.y * SubFactor03 + m.c0.w * SubFactor05)),
      (m.c0.x * SubFactor02 - m.c0.y * SubFactor04 + m.c0.z * SubFactor05)⟩,
     ⟨(m.c0.y * SubFactor06 - m.c0.z * SubFactor07 + m.c0.w * SubFactor08),
      (-(m.c0.x * SubFactor06 - m.c0.z * SubFactor09 + m.c0.w * SubFactor10)),
      (m.c0.x * SubFactor11 - m.c0.y * SubFactor09 + m.c0.w * SubFactor12),
      (-(m.c0.x * SubFactor08 - m.c0.y * SubFactor10 + m.c0.z * SubFactor12))⟩,
     ⟨(-(m.c0.y * SubFactor13 - m.c0.z * SubFactor14 + m.c0.w * SubFactor15)),
      (m.c0.x * SubFactor13 - m.c0.z * SubFactor16 + m.c0.w * SubFactor17),
      (-(m.c0.x * SubFactor14 - m.c0.y * SubFactor16 + m.c0.w * SubFactor18)),
      (m.c0.x * SubFactor15 - m.c0.y * SubFactor17 + m.c0.z * SubFactor18)⟩⟩
  let Determinant : α := m.c0.x * Inverse.c0.x + m.c0.y * Inverse.c0.y + m.c0.z * Inverse.c0.z + m.c0.w * Inverse.c0.w
  Inverse / Determinant

/-- `adjugateTranspose(mat2)` src/matrix.cpp:368-376 -/
def M2.adjugateTranspose (m : M2 α) : M2 α :=
  let Adjugate : M2 α := M2.ofFloats (m.c1.y) ((-m.c0.y)) ((-m.c1.x)) (m.c0.x)
  Adjugate

/-- `adjugateTranspose(mat3)` src/matrix.cpp:378-391 -/
def M3.adjugateTranspose (m : M3 α) : M3 α :=
  let Adjugate : M3 α :=
    ⟨⟨(m.c1.y * m.c2.z - m.c2.y * m.c1.z),
      (-(m.c1.x * m.c2.z - m.c2.x * m.c1.z)),
      (m.c1.x * m.c2.y - m.c2.x * m.c1.y)⟩,
     ⟨(-(m.c0.y * m.c2.z - m.c2.y * m.c0.z)),
      (m.c0.x * m.c2.z - m.c2.x * m.c0.z),
      (-(m.c0.x * m.c2.y - m.c2.x * m.c0.y))⟩,
     ⟨(m.c0.y * m.c1.z - m.c1.y * m.c0.z),
      (-(m.c0.x * m.c1.z - m.c1.x * m.c0.z)),
      (m.c0.x * m.c1.y - m.c1.x * m.c0.y)⟩⟩
  Adjugate

/-- `adjugateTranspose(mat4)` src/matrix.cpp:393-437 -/
def M4.adjugateTranspose (m : M4 α) : M4 α :=
  let SubFactor00 : α := m.c2.z * m.c3.w - m.c3.z * m.c2.w
  let SubFactor01 : α := m.c2.y * m.c3.w - m.c3.y * m.c2.w
  let SubFactor02 : α := m.c2.y * m.c3.z - m.c3.y * m.c2.z
  let SubFactor03 : α := m.c2.x * m.c3.w - m.c3.x * m.c2.w
  let SubFactor04 : α := m.c2.x * m.c3.z - m.c3.x * m.c2.z
  let SubFactor05 : α := m.c2.x * m.c3.y - m.c3.x * m.c2.y
  let SubFactor06 : α := m.c1.z * m.c3.w - m.c3.z * m.c1.w
  let SubFactor07 : α := m.c1.y * m.c3.w - m.c3.y * m.c1.w
  let SubFactor08 : α := m.c1.y * m.c3.z - m.c3.y * m.c1.z
  let SubFactor09 : α := m.c1.x * m.c3.w - m.c3.x * m.c1.w
  let SubFactor10 : α := m.c1.x * m.c3.z - m.c3.x * m.c1.z
  let SubFactor11 : α := m.c1.y * m.c3.w - m.c3.y * m.c1.w
  let SubFactor12 : α := m.c1.x * m.c3.y - m.c3.x * m.c1.y
  let SubFactor13 : α := m.c1.z * m.c2.w - m.c2.z * m.c1.w
  let SubFactor14 : α := m.c1.y * m.c2.w - m.c2.y * m.c1.w
  let SubFactor15 : α := m.c1.y * m.c2.z - m.c2.y * m.c1.z
  let SubFactor16 : α := m.c1.x * m.c2.w - m.c2.x * m.c1.w
  let SubFactor17 : α := m.c1.x * m.c2.z - m.c2.x * m.c1.z
  let SubFactor18 : α := m.c1.x * m.c2.y - m.c2.x * m.c1.y
  let Adjugate : M4 α :=
    ⟨⟨(m.c1.y * SubFactor00 - m.c1.z * SubFactor01 + m.c1.w * SubFactor02),
      (-(m.c1.x * SubFactor00 - m.c1.z * SubFactor03 + m.c1.w * SubFactor04)),
      (m.c1.x * SubFactor01 - m.c1.y * SubFactor03 + m.c1.w * SubFactor05),
      (-(m.c1.x * SubFactor02 - m.c1.y * SubFactor04 + m.c1.z * SubFactor05))⟩,
     ⟨(-(m.c0.y * SubFactor00 - m.c0.z * SubFactor01 + m.c0.w * SubFactor02)),
      (m.c0.x * SubFactor00 - m.c0.z * SubFactor03 + m.c0.w * SubFactor04),
      (-(m.c0.x * SubFactor01 - m.c0.y * SubFactor03 + m.c0.w * SubFactor05)),
      (m.c0.x * SubFactor02 - m.c0.y * SubFactor04 + m.c0.z * SubFactor05)⟩,
     ⟨(m.c0.y * SubFactor06 - m.c0.z * SubFactor07 + m.c0.w * SubFactor08),
      (-(m.c0.x * SubFactor06 - m.c0.z * SubFactor09 + m.c0.w * SubFactor10)),
      (m.c0.x * SubFactor11 - m.c0.y * SubFactor09 + m.c0.w * SubFactor12),
      (-(m.c0.x * SubFactor08 - m.c0.y * SubFactor10 + m.c0.z * SubFactor12))⟩,
     ⟨(-(m.c0.y * SubFactor13 - m.c0.z * SubFactor14 + m.c0.w * SubFactor15)),
      (m.c0.x * SubFactor13 - m.c0.z * SubFactor16 + m.c0.w * SubFactor17),
      (-(m.c0.x * SubFactor14 - m.c0.y * SubFactor16 + m.c0.w * SubFactor18)),
      (m.c0.x * SubFactor15 - m.c0.y * SubFactor17 + m.c0.z * SubFactor18)⟩⟩
  Adjugate

/-- `mat2 / mat2` src/mat2.cpp:82-85 -/
instance M2.instDiv : Div (M2 α) := ⟨fun first second => first * M2.inverse second⟩

/-- `mat2 / vec2` src/mat2.cpp:124-127 -/
instance M2.instDivV : HDiv (M2 α) (V2 α) (V2 α) := ⟨fun mat vec => M2.inverse mat * vec⟩

/-- `vec2 / mat2` src/mat2.cpp:129-132 -/
instance M2.instVDiv : HDiv (V2 α) (M2 α) (V2 α) := ⟨fun vec mat => vec * M2.inverse mat⟩

/-- `mat2 /= const mat2&` src/mat2.cpp:149-152, on a store: `this` and `first` may be the same address -/
def M2.divAssign (σ : Store (M2 α)) (this first : ℕ) : Store (M2 α) :=
  Function.update σ this (σ this / σ first)

/-- `mat3 / mat3` src/mat3.cpp:129-132 -/
instance M3.instDiv : Div (M3 α) := ⟨fun first second => first * M3.inverse second⟩

/-- `mat3 / vec3` src/mat3.cpp:208-211 -/
instance M3.instDivV : HDiv (M3 α) (V3 α) (V3 α) := ⟨fun mat vec => M3.inverse mat * vec⟩

/-- `vec3 / mat3` src/mat3.cpp:213-216 -/
instance M3.instVDiv : HDiv (V3 α) (M3 α) (V3 α) := ⟨fun vec mat => vec * M3.inverse mat⟩

/-- `mat3 /= const mat3&` src/mat3.cpp:189-192, on a store: `this` and `first` may be the same address -/
def M3.divAssign (σ : Store (M3 α)) (this first : ℕ) : Store (M3 α) :=
  Function.update σ this (σ this / σ first)

/-- `mat4 / mat4` src/mat4.cpp:108-111 -/
instance M4.instDiv : Div (M4 α) := ⟨fun first second => first * M4.inverse second⟩

/-- `mat4 / vec4` src/mat4.cpp:203-206 -/
instance M4.instDivV : HDiv (M4 α) (V4 α) (V4 α) := ⟨fun mat vec => M4.inverse mat * vec⟩

/-- `vec4 / mat4` src/mat4.cpp:208-211 -/
instance M4.instVDiv : HDiv (V4 α) (M4 α) (V4 α) := ⟨fun vec mat => vec * M4.inverse mat⟩

/-- `mat4 /= const mat4&` src/mat4.cpp:162-165, on a store: `this` and `first` may be the same address -/
def M4.divAssign (σ : Store (M4 α)) (this first : ℕ) : Store (M4 α) :=
  Function.update σ this (σ this / σ first)

end Zcm
