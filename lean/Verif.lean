import Verif.Model.Accessors
import Verif.Model.BVec
import Verif.Model.ColorSpace
import Verif.Model.Common
import Verif.Model.ComponentWise
import Verif.Model.Constants
import Verif.Model.Exponential
import Verif.Model.F32
import Verif.Model.Geometric
import Verif.Model.Hash
import Verif.Model.History
import Verif.Model.HistoryInt
import Verif.Model.HistoryMat
import Verif.Model.IVec
import Verif.Model.Mat
import Verif.Model.Matrix
import Verif.Model.MatrixTransform
import Verif.Model.Quat
import Verif.Model.QuatBasic
import Verif.Model.Scalar
import Verif.Model.Stmt
import Verif.Model.Trig
import Verif.Model.TypePtr
import Verif.Model.Vec
import Verif.Spec.Accumulate
import Verif.Spec.Accuracy
import Verif.Spec.Affine
import Verif.Spec.Angles
import Verif.Spec.Approach
import Verif.Spec.Area
import Verif.Spec.Between
import Verif.Spec.Bisect
import Verif.Spec.Blend
import Verif.Spec.Box
import Verif.Spec.Builds
import Verif.Spec.Chains
import Verif.Spec.Chunk
import Verif.Spec.Clip
import Verif.Spec.ClipTest
import Verif.Spec.Compare
import Verif.Spec.Coord
import Verif.Spec.Cramer
import Verif.Spec.Cull
import Verif.Spec.Curve
import Verif.Spec.Elementary
import Verif.Spec.Euclid
import Verif.Spec.Frame
import Verif.Spec.Frustum
import Verif.Spec.Grid
import Verif.Spec.Hamilton
import Verif.Spec.HamiltonF32
import Verif.Spec.History
import Verif.Spec.HistoryInt
import Verif.Spec.HistoryMat
import Verif.Spec.Int
import Verif.Spec.IntValued
import Verif.Spec.Interp
import Verif.Spec.Lattice
import Verif.Spec.Leibniz
import Verif.Spec.Line
import Verif.Spec.Linear
import Verif.Spec.March
import Verif.Spec.Mesh
import Verif.Spec.Morton
import Verif.Spec.Motion
import Verif.Spec.NaN
import Verif.Spec.Names
import Verif.Spec.Nearest
import Verif.Spec.Neighbour
import Verif.Spec.Octahedral
import Verif.Spec.Optics
import Verif.Spec.Ortho
import Verif.Spec.Pixel
import Verif.Spec.Place
import Verif.Spec.Polygon
import Verif.Spec.Polynomial
import Verif.Spec.Raster
import Verif.Spec.Ray
import Verif.Spec.RaySphere
import Verif.Spec.Rigid
import Verif.Spec.Rounding
import Verif.Spec.Scaled
import Verif.Spec.Segment
import Verif.Spec.Sight
import Verif.Spec.SignedZero
import Verif.Spec.Slab
import Verif.Spec.Sphere
import Verif.Spec.Srgb
import Verif.Spec.Table
import Verif.Spec.Transform
import Verif.Spec.TriMesh
import Verif.Spec.Triangle
import Verif.Spec.Turn
import Verif.Spec.Undo
import Verif.Spec.Unproject
import Verif.Spec.View
import Verif.Spec.Weighted
import Verif.Lemmas.Affine
import Verif.Lemmas.AngleAxis
import Verif.Lemmas.Arc
import Verif.Lemmas.Area
import Verif.Lemmas.Chunk
import Verif.Lemmas.ConstBounds
import Verif.Lemmas.Decompose
import Verif.Lemmas.Euclid
import Verif.Lemmas.Euler
import Verif.Lemmas.EulerExact
import Verif.Lemmas.F32
import Verif.Lemmas.F32Accumulate
import Verif.Lemmas.F32Adjacent
import Verif.Lemmas.F32Affine
import Verif.Lemmas.F32AffineQuat
import Verif.Lemmas.F32AngleLib
import Verif.Lemmas.F32Approach
import Verif.Lemmas.F32Approx
import Verif.Lemmas.F32Axis
import Verif.Lemmas.F32AxisAngle
import Verif.Lemmas.F32Between
import Verif.Lemmas.F32Bisect
import Verif.Lemmas.F32Bits
import Verif.Lemmas.F32Blend
import Verif.Lemmas.F32Box
import Verif.Lemmas.F32Chain
import Verif.Lemmas.F32ChainRot
import Verif.Lemmas.F32Circle
import Verif.Lemmas.F32Close
import Verif.Lemmas.F32Compose
import Verif.Lemmas.F32Correct
import Verif.Lemmas.F32Cull
import Verif.Lemmas.F32Curve
import Verif.Lemmas.F32Decompose
import Verif.Lemmas.F32Det
import Verif.Lemmas.F32Diag
import Verif.Lemmas.F32Division
import Verif.Lemmas.F32Error
import Verif.Lemmas.F32Euler
import Verif.Lemmas.F32Exact
import Verif.Lemmas.F32Fract
import Verif.Lemmas.F32Frame
import Verif.Lemmas.F32FrustInv
import Verif.Lemmas.F32Grid
import Verif.Lemmas.F32Horner
import Verif.Lemmas.F32Int
import Verif.Lemmas.F32InvSqrt
import Verif.Lemmas.F32Inverse
import Verif.Lemmas.F32Length
import Verif.Lemmas.F32Lerp
import Verif.Lemmas.F32Linear
import Verif.Lemmas.F32Local
import Verif.Lemmas.F32LookAt
import Verif.Lemmas.F32March
import Verif.Lemmas.F32Mesh
import Verif.Lemmas.F32Mix
import Verif.Lemmas.F32Mod
import Verif.Lemmas.F32Mono
import Verif.Lemmas.F32Motion
import Verif.Lemmas.F32NaN
import Verif.Lemmas.F32Neighbour
import Verif.Lemmas.F32Normal
import Verif.Lemmas.F32Oct
import Verif.Lemmas.F32Octa
import Verif.Lemmas.F32Optics
import Verif.Lemmas.F32Order
import Verif.Lemmas.F32Perp
import Verif.Lemmas.F32Persp
import Verif.Lemmas.F32Pixel
import Verif.Lemmas.F32Place
import Verif.Lemmas.F32Polygon
import Verif.Lemmas.F32Proj
import Verif.Lemmas.F32Quat
import Verif.Lemmas.F32QuatCast
import Verif.Lemmas.F32QuatChain
import Verif.Lemmas.F32Range
import Verif.Lemmas.F32Ray
import Verif.Lemmas.F32RaySphere
import Verif.Lemmas.F32Refract
import Verif.Lemmas.F32Rel
import Verif.Lemmas.F32Rigid
import Verif.Lemmas.F32Rotate
import Verif.Lemmas.F32Scale
import Verif.Lemmas.F32Seen
import Verif.Lemmas.F32SeenBox
import Verif.Lemmas.F32SeenDiv
import Verif.Lemmas.F32Segment
import Verif.Lemmas.F32Slab
import Verif.Lemmas.F32Slerp
import Verif.Lemmas.F32Sqrt
import Verif.Lemmas.F32Srgb
import Verif.Lemmas.F32Transform
import Verif.Lemmas.F32Triangle
import Verif.Lemmas.F32Turn
import Verif.Lemmas.F32TurnQuat
import Verif.Lemmas.F32Undo
import Verif.Lemmas.F32Unit
import Verif.Lemmas.F32Unproject
import Verif.Lemmas.F32Vec3
import Verif.Lemmas.F32Vec3Ops
import Verif.Lemmas.F32VecAngle
import Verif.Lemmas.F32View
import Verif.Lemmas.F32Weighted
import Verif.Lemmas.F32Zero
import Verif.Lemmas.Hamilton
import Verif.Lemmas.Hash
import Verif.Lemmas.History
import Verif.Lemmas.HistoryInt
import Verif.Lemmas.HistoryMat
import Verif.Lemmas.Int
import Verif.Lemmas.Lattice
import Verif.Lemmas.Line
import Verif.Lemmas.Linear
import Verif.Lemmas.Morton
import Verif.Lemmas.Names
import Verif.Lemmas.Nearest
import Verif.Lemmas.Normalize
import Verif.Lemmas.Ops
import Verif.Lemmas.PolyPos
import Verif.Lemmas.Polygon
import Verif.Lemmas.Raster
import Verif.Lemmas.RotQuat
import Verif.Lemmas.Rotate
import Verif.Lemmas.Round
import Verif.Lemmas.Rounding
import Verif.Lemmas.SignedZero
import Verif.Lemmas.Srgb
import Verif.Lemmas.Table
import Verif.Lemmas.TriMesh
import Verif.Props.C01
import Verif.Props.C02
import Verif.Props.C03
import Verif.Props.C04
import Verif.Props.C05
import Verif.Props.C06
import Verif.Props.C07
import Verif.Props.C08
import Verif.Props.C09
import Verif.Props.C09F32
import Verif.Props.C10
import Verif.Props.C100
import Verif.Props.C101
import Verif.Props.C102
import Verif.Props.C103
import Verif.Props.C104
import Verif.Props.C105
import Verif.Props.C106
import Verif.Props.C107
import Verif.Props.C108
import Verif.Props.C109
import Verif.Props.C11
import Verif.Props.C110
import Verif.Props.C111
import Verif.Props.C112
import Verif.Props.C113
import Verif.Props.C114
import Verif.Props.C115
import Verif.Props.C116
import Verif.Props.C117
import Verif.Props.C118
import Verif.Props.C119
import Verif.Props.C12
import Verif.Props.C120
import Verif.Props.C121
import Verif.Props.C122
import Verif.Props.C123
import Verif.Props.C124
import Verif.Props.C125
import Verif.Props.C126
import Verif.Props.C127
import Verif.Props.C128
import Verif.Props.C129
import Verif.Props.C13
import Verif.Props.C130
import Verif.Props.C131
import Verif.Props.C132
import Verif.Props.C133
import Verif.Props.C134
import Verif.Props.C135
import Verif.Props.C136
import Verif.Props.C137
import Verif.Props.C138
import Verif.Props.C139
import Verif.Props.C14
import Verif.Props.C140
import Verif.Props.C141
import Verif.Props.C142
import Verif.Props.C143
import Verif.Props.C144
import Verif.Props.C145
import Verif.Props.C146
import Verif.Props.C147
import Verif.Props.C148
import Verif.Props.C149
import Verif.Props.C14F32
import Verif.Props.C15
import Verif.Props.C150
import Verif.Props.C151
import Verif.Props.C152
import Verif.Props.C153
import Verif.Props.C154
import Verif.Props.C155
import Verif.Props.C156
import Verif.Props.C157
import Verif.Props.C158
import Verif.Props.C159
import Verif.Props.C16
import Verif.Props.C160
import Verif.Props.C161
import Verif.Props.C162
import Verif.Props.C163
import Verif.Props.C164
import Verif.Props.C165
import Verif.Props.C166
import Verif.Props.C17
import Verif.Props.C18
import Verif.Props.C19
import Verif.Props.C20
import Verif.Props.C21
import Verif.Props.C22
import Verif.Props.C23
import Verif.Props.C24
import Verif.Props.C25
import Verif.Props.C26
import Verif.Props.C27
import Verif.Props.C28
import Verif.Props.C29
import Verif.Props.C30
import Verif.Props.C31
import Verif.Props.C32
import Verif.Props.C33
import Verif.Props.C34
import Verif.Props.C35
import Verif.Props.C36
import Verif.Props.C37
import Verif.Props.C38
import Verif.Props.C39
import Verif.Props.C40
import Verif.Props.C41
import Verif.Props.C42
import Verif.Props.C43
import Verif.Props.C44
import Verif.Props.C45
import Verif.Props.C46
import Verif.Props.C47
import Verif.Props.C48
import Verif.Props.C49
import Verif.Props.C50
import Verif.Props.C51
import Verif.Props.C52
import Verif.Props.C53
import Verif.Props.C54
import Verif.Props.C55
import Verif.Props.C56
import Verif.Props.C57
import Verif.Props.C58
import Verif.Props.C59
import Verif.Props.C60
import Verif.Props.C61
import Verif.Props.C62
import Verif.Props.C63
import Verif.Props.C64
import Verif.Props.C65
import Verif.Props.C66
import Verif.Props.C67
import Verif.Props.C68
import Verif.Props.C69
import Verif.Props.C70
import Verif.Props.C71
import Verif.Props.C72
import Verif.Props.C73
import Verif.Props.C74
import Verif.Props.C75
import Verif.Props.C76
import Verif.Props.C77
import Verif.Props.C78
import Verif.Props.C79
import Verif.Props.C80
import Verif.Props.C81
import Verif.Props.C82
import Verif.Props.C83
import Verif.Props.C84
import Verif.Props.C85
import Verif.Props.C86
import Verif.Props.C87
import Verif.Props.C88
import Verif.Props.C89
import Verif.Props.C90
import Verif.Props.C91
import Verif.Props.C92
import Verif.Props.C93
import Verif.Props.C94
import Verif.Props.C95
import Verif.Props.C96
import Verif.Props.C97
import Verif.Props.C98
import Verif.Props.C99
import Verif.Conformance.BVec2
import Verif.Conformance.BVec3
import Verif.Conformance.BVec4
import Verif.Conformance.Gtest
import Verif.Conformance.IVec2
import Verif.Conformance.IVec3
import Verif.Conformance.IVec4
import Verif.Conformance.Quaternion
import Verif.Conformance.Vec2
import Verif.Conformance.Vec3
import Verif.Conformance.Vec4
import Verif.Audit
