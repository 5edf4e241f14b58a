# Formal model of zettdaymond/zcm in Lean 4

zcm is a GLM-like C++ math library (vec/ivec/bvec 2..4, mat2..4, quat and free functions).
This directory holds `properties.jsonl` (the properties), `lean/` (model, specifications,
proofs), `MANIFEST.json` (property -> theorem) and `seeded/LOG.jsonl` (the wrong-program
experiments).

## Layout

* `Verif/Model/*`  - the model, one definition per C++ function/overload, each with a comment
  citing file and lines of /repo.
* `Verif/Spec/*`   - small specifications that do not use the model's own helpers (coordinates,
  Mathlib matrices, Mathlib quaternions, Euclidean norm, lexicographic order, ...).
* `Verif/Lemmas/*` - helper lemmas.
* `Verif/Props/*`  - the property theorems, each followed by a non-vacuity `example`.
* `Verif/Conformance/*` - the project's own unit tests, translated statement by statement (`tools/gen_conformance.py`) and
  run against the model by the kernel. Tests, not proofs: no claim rests on them.

## How the code is modelled

* **Scalars.** Every float function is one Lean definition polymorphic in a carrier `α`
  offering exactly the operations the C++ text uses, in the order it uses them
  (left-associated sums stay left-associated, `1/sqrt` stays two operations, ...).
  - at `α := ℝ`: exact arithmetic. Algebraic laws that are false under rounding
    (associativity, `inverse(m)*m = 1`, ...) are stated here and labelled "exact arithmetic".
  - at `α := F32`: IEEE-754 binary32 with NaN, ±inf, ±0, subnormals, round-to-nearest-even,
    fused multiply-add and square root (`Model/F32.lean`). The F32 properties (C75-C77 and
    parts of others) are stated here.
  - theorems that hold for every `α` (layout, componentwise action, bitwise selection) are
    stated for every `α`, hence for floats.
* **int32.** `I32` wraps a `BitVec 32`; arithmetic returns `Res`, with `ub` for signed overflow,
  division by zero, `INT_MIN/-1`, bad shift counts and `abs(INT_MIN)`.
* **Outcomes.** `Res = ok | abort | ub`; `assert` aborts in `Build.debug` and is skipped in
  `Build.release`; reads/writes outside an array are `ub`.
* **Aliasing.** Compound assignments that take their operand by reference (`quat`, `mat`) are
  also modelled on an addressable memory, statement by statement, so that `q *= q` is a real case.
* **Literals.** `lit q` : exact rational at `ℝ`, correctly rounded at `F32`.
* **libm.** `sinf ... atanhf`: class `Libm`. At `ℝ` they are the mathematical functions
  (`atan2f` = complex argument, so the two signed-zero variants of ±π are not distinguished).
  There is no F32 instance: theorems about floats hold for every libm, except C100, C101, C104, C111, C112 and C116, which assume as an explicit
  hypothesis that `sinf` and `cosf` are within 2^-23 (`GoodTrig`), that `tanf` is within 2^-22 relative (`GoodTan`), and that
  `sinf` and `acosf` are within 2^-22 relative between 0 and a right angle (`GoodArc`), and that `acosf` is within 2^-21 on
  [-1, 1] (`GoodAcos`; `AcosDomain`: NaN above 1), and that `asinf` is within 2^-22 and `atan2f` within 2^-21 of an argument
  of the point (`GoodAsin`, `GoodAtan2`), and that `powf` is within 2^-22 relative (`GoodPow`). Libraries meeting these are constructed beside the theorems.

## Trusted base

* Lean 4.33.0 kernel; axioms `propext`, `Classical.choice`, `Quot.sound` only
  (`Verif/Audit.lean` prints them for every property theorem).
* The reading of C++ given in the comments of `Verif/Model`. In particular: IEEE binary32,
  `FLT_EVAL_METHOD = 0`, no floating-point contraction, default rounding mode, 32-bit `int`,
  64-bit `size_t`, two's complement, C++14 semantics and overload resolution.

### Modelled, file by file

| source in /repo | model | remarks |
|---|---|---|
| `src/vec{2,3,4}.cpp`, `include/zcm/vec*.hpp`, `detail/impl_op_macro.hpp` | `Model/Vec` | constructors, operators, compound assignments, subscripts, comparisons |
| `src/ivec{2,3,4}.cpp` | `Model/IVec` | arithmetic in `Res` with signed-overflow UB, shifts, bit operations |
| `src/bvec{2,3,4}.cpp` | `Model/BVec` | |
| `include/zcm/detail/vec*_access.hpp`, member tables of `vec*.hpp`/`ivec*.hpp` | `Model/Accessors` | one table entry per declared member name; the `.cpp` counterparts only instantiate these templates explicitly and have no behaviour of their own |
| `src/mat{2,3,4}.cpp` | `Model/Mat` | |
| `src/quat.cpp`, `src/quaternion.cpp` | `Model/QuatBasic`, `Model/Quat` | |
| `src/geometric.cpp` | `Model/Geometric` | |
| `src/matrix.cpp`, `src/matrix_transform.cpp` | `Model/Matrix`, `Model/MatrixTransform` | |
| `src/common.cpp`, `src/exponential.cpp`, `src/angle_and_trigonometry.cpp`, `src/component_wise.cpp`, `src/constants.cpp`, `src/color_space.cpp` | modules of the same names (`Common`, `Exponential`, `Trig`, `ComponentWise`, `Constants`, `ColorSpace`) | |
| `src/hash.cpp`, `include/zcm/hash.hpp` | `Model/Hash` | |
| `src/type_ptr.cpp` | `Model/TypePtr` | pointers as bounded views of an array |
| the matrix and matrix/quaternion code again, statement by statement | `Model/Stmt` | `no_init_t` objects have indeterminate components, `operator[]` checks its index, assertions abort; C97 proves that these programs return what the functional model returns |
| client programs: sequences of statements on objects of one type (`vec`, `ivec`; `mat`, `quat`, `bvec`) | `Model/History`, `Model/HistoryInt`, `Model/HistoryMat` | an operation alphabet and its interpreter; C74 and C92 quantify over all programs |

### Simplifications

* One NaN: payloads and the sign of NaN are not distinguished, nor are floating-point exception flags.
* `union { T _data[n]; accessors... }`: reading through another union member of the same layout is taken to read
  the same cells. C++ leaves this undefined in general; the model gives it the meaning the library evidently intends.
* Two objects passed by reference are either the same object or do not overlap. A `mat` seen through `value_ptr` is one
  contiguous block (`sizeof` is asserted in `src/matN.cpp`; indexing across columns is otherwise outside C++'s array rules).
* The functional model of `decompose_orthogonal` takes its output arguments to be distinct objects; the statement-level one
  (`Stmt.decompose_orthogonal`) does not, and C97 relates the two.
* libm functions are mathematical functions on `ℝ`; there is no claim about their rounding (C100, C101, C104, C111, C112 and C116 take error
  bounds for `sinf`, `cosf`, `tanf`, `acosf`, `asinf` and `atan2f` as hypotheses).

### Not modelled

Padding/ABI (`alignas`, vectorcall), declarations
without definition (ivec4 `% | & ^ << >>`, quat `sterp`: link errors), compile-time-only facts (deleted overloads; the
accessors of ivec derive from those of vec and so hide `operator=(T)`: by our reading `iv.x = 5` does not compile, nothing was compiled to confirm it), `tools/benchgen`.

### How far the float model can be trusted

`Model/F32.lean` defines rounding by an explicit algorithm. C80 proves that `+ - * /`, sqrt and fma return *the* correctly
rounded value (nearest representable number, ties to even significand, overflow threshold), stated with a separate definition
(`Spec/Nearest.lean`) and shown to determine the number uniquely. So for these operations the rounding algorithm is not trusted.
Still trusted, because only the model says what they are: the set of representable numbers, special values (NaN, infinities,
signed zeros), comparisons, and the bit patterns used by hash. As a test (not a proof) `tools/f32_hardware_test.lean.txt`
compares the model with the machine's floats through Lean's native `Float32`: on 300000 pseudo-random pairs (special values, subnormals,
ties, neighbours) the bits of `+ - * /`, negation, sqrt, fabs, floor, ceil, round, `< <= ==`, isnan, isinf and of the encoding agreed everywhere.
`trunc`, `nearbyint` and `fma` with a non-zero addend have no native counterpart there and were not compared.
The 178 unit tests of /repo/test that do not need the glm library also pass in the model (`Verif/Conformance`).

## Where the code disagrees with the expected property

"Refuted" means a `_false` theorem contradicts the property as listed in properties.jsonl, and the property is `partial` in
MANIFEST.json. "Statement adjusted" means that the listed statement was written, after reading the code, so as to exclude or
describe the surprising case. Such a property counts as proved, but a user might have expected the stronger statement.

Refuted:

1. `vec2`/`ivec2`/`bvec2::operator[]` assert `val < 3`: index 2 is let through (`C05_*_false`).
2. `a.x = b.x` copies the whole vector, `a.xy = b.xy` likewise (`C06_*_assignFrom_false`, `C06_swizzle_assign_false`).
3. `mat3(mat2)` reads column 2 of a two-column matrix (`C15_mat3_of_mat2_false`; no `_partial`, it fails on every input).
4. `fract(-1e-20f)` is 1 (`C21_float_false`); this happens exactly for `-2^-25 <= x < 0` (`C21_float_all`).
5. `roundEven` rounds to even integers: `roundEven(1) = 0` (`C22_real_false`, `C22_float_false`).
6. `length(float)` returns its argument, negative ones included (`C31_float_false`).
7. `distance2` of vec3/vec4 is not squared (`C33_distance2_false`).
8. `decode_octahedral` is wrong for every unit vector with z < 0 (`C39_lower_false`). In float arithmetic it is also wrong for some
   vectors on or just above the equator, whose encoding rounds into the lower half of the square (`C110_equator_false`).
9. `inverseTranspose(mat2)` and `adjugateTranspose(mat2)` are not transposed (`C46_mat2_false`).
10. `perspective*` assert `abs(aspect - epsilon) > 0`: aspect = epsilon is rejected, 0 accepted (`C52_assert_false`).
11. `exp2` calls `expf` (`C66_exp2_false`).
12. `convertLinearToSRGB` does not invert gamma (`C69_inverse_false`, `C69_encode_monotone_false`); the overload without gamma
    is negative for dark colours (`C69_approx_false`).
13. `0.0 == -0.0` but the hashes differ (`C70_*_false`).
14. `hash(mat4)` ignores columns 1 and 2 (`C71_mat4_false`).
15. `quat() * q` loses small components in float (`C87_identity_false`).
16. `eulerAngles` at gimbal lock: the special case of `pitch` asks whether two computed numbers are exactly 0, which rounding
    errors prevent, so `quat(eulerAngles(q))` is a different rotation for some `q` (`C112_lock_false`).

Statement adjusted:

* `sign(NaN)` is -1; C19 excludes NaN (`C19_float_sign_nan`).
* `mix(x, y, 1) != y` and `mix(x, y, 0)` NaN for some floats; C24 says so (`C24_float_endpoints`).
* `orthogonal_branchless` is zero for some non-zero non-unit vectors; C38 asks for unit vectors (`C38_branchless_needs_unit`).
* `slerp(x, y, 1)` is `-y` when dot(x, y) < 0; C63 says "the nearer of +-y" (`C63_ends`). Same rotation, different quaternion.
* Signed overflow in ivec operators is undefined; C11 says exactly when.
* C53 asks for positive scales.
* `mod(27, 0.3f)` is negative and `mod(-1e-10f, 1)` is 1; C114 allows for the rounding (`C114_ends`).
* `angle(q)` is NaN for some products of two normalised quaternions; C111 says so (`C111_angle_nan`).

`decompose_orthogonal` divides by a zero scale when a column is zero; the orientation is then NaN (`C99_decompose`).

## Wrong-program experiments

`seeded/LOG.jsonl` has one line per edit of a model definition, made in a scratch copy. How the lines so far were made:

* Edits are generated by random textual rules (swapped component, operator, boundary, constant). Edits that do not compile are dropped.
* Several definitions are edited in one build, chosen so that no property theorem depends on two of them; a failing theorem is
  attributed to the one edited definition it depends on.
* `theorems_failed` lists theorems whose proof, or a lemma they use, no longer compiles. That does not by itself show that the
  theorem became false: a proof can also break because it is brittle.
* `claim_broken` of these generated lines is the title of the properties whose theorems failed. It was filled in from that list, not
  judged beforehand. So these lines show that each edit is noticed by something; they cannot show that *every* claim the edit falsifies
  has a theorem that fails.
* No theorem was tightened because of these generated edits (`theorems_tightened` is empty on those lines). The two edits nothing
  noticed are explained on their lines.

A second kind of line was judged first: `seeded/predictions.jsonl` lists 1046 hand-written edits with the claims each should break. Every
batch was committed before any of its edits was run. The edits cover `F32`, `Scalar`, the integer operators, the state-passing models, all
other model modules, and the callers' programs and small specifications of the later properties. Of the 1028 different edits, 972 were run and
are in the log, 25 did not compile, and 31 were not run: mostly edits of basic operators whose rebuild is too large, ten of `Model/Stmt`,
and six of `Spec/TriMesh`. How they were run:

* `theorems_failed` has the same meaning as above. So a failing theorem shows that the edit is noticed, not that the statement became false.
* Lemmas that the edit itself falsifies are dropped instead of being repaired.
* In the larger batches only the predicted claims, and some cheap other ones, were rebuilt. The notes name claims that were not rebuilt.
* In the last batch (callers' programs) only the predicted claims were rebuilt. A control run with edits that change nothing made no theorem fail.

Outcome:

* Dropping the gimbal-lock case of `pitch` failed nothing, as predicted. `C61_reconstruct` was added.
* Folding the lower hemisphere of `encode_octahedral` wrongly broke only a helper lemma. `C39_encode_standard` was added, which compares
  `encode_octahedral` with the standard octahedral map (`Spec/Octahedral`).
* An edit of the `vec3` `smoothstep` was missed by C26, which spoke of the scalar function only. `C26_vec2`, `C26_vec3` and `C26_vec4` were added.
* Replacing equality of floats by equality of bits was missed by C09. `C09_float`, `C09_vec2_float`, `C09_vec3_float` and `C09_vec4_float` were added.
* All other edits predicted to break a claim made a theorem of that claim fail, or the prediction was wrong. The wrong predictions are
  explained on their lines (`M4.quat_cast`, `Quat.ofUV`, `F.clamp`, `V2.mix`, `V2.max`, `V3.max`, and three edits of `storeEntry` that only rename).
* Of the edits predicted harmless, one prediction was wrong (`Quat.axis`), and in four cases proofs broke (brittle) without a visible change of truth.
* No theorem depends on `V2.cells`, `M2.storeCol`, `M2.loadEntry`, `M2.loadCol`, `M4.loadEntry` and `M4.loadCol`, helpers that no modelled function needs.

## Plan per property

* **C01** Vector arithmetic is componentwise: V2/V3/V4 operators over any carrier + I32 operators in Res; theorem: coordinate i of the result is the scalar op of coordinates i. Case split on Fin n.
* **C02** Compound assignment equals the binary operator, also when aliased: state-passing model of each compound operator (sequential writes) and a by-reference memory model for quat/mat; equality with the binary operator incl. same address.
* **C03** Increment and decrement: state-passing model returning (new object, returned value).
* **C04** Vector constructors place components in order: constructors as functions to coordinates; theorem lists coordinates as append of argument lists.
* **C05** Subscripting is exact and out-of-range indices are stopped: operator[] with Res and Build; in-range exactness for all types; negation for vec2/ivec2/bvec2 index 2 (assert says <3); _partial.
* **C06** Named component writes touch only that component: accessor writes incl. the implicit copy assignment chosen for same-type right-hand sides; negation + _partial.
* **C07** Swizzles return the components they name: swizzle table generated from the headers (name, indices) for each vector type; whole-table `decide`, lifted to all values.
* **C08** make_* and value_ptr round-trip, in documented memory order: value_ptr modelled as list of memory cells; make_* as functions of memory; round trips.
* **C09** Equality means equality of every component: Bool equality functions; iff with coordinatewise ==. For floats the scalar == is compared with equality on the extended number line (EReal).
* **C10** ivec ordering is a strict total lexicographic order: operator< vs. Mathlib's lexicographic order on coordinates lists; order laws.
* **C11** Integer vector arithmetic is exact or undefined, and exactly when: Res-valued I32 arithmetic; iff characterisation of ok and value.
* **C12** Integer vector bitwise and shift operators: testBit characterisation and shift = multiplication/floor division.
* **C13** Boolean vectors form a Boolean algebra; all/any quantify over components: Boolean algebra laws by coordinates.
* **C14** Relational functions mirror the scalar comparisons: Bool-valued relational functions on any carrier; NaN part on F32.
* **C15** Matrix constructors and conversions: constructors; mat3(mat2) reads column 2 of a two-column array: negation (abort/UB) + _partial for the rest.
* **C16** Entrywise matrix operators: entrywise theorem over any carrier.
* **C17** min and max: ite-definitions; order lemmas at linear orders (ℝ, I32) and on F32 with NaN.
* **C18** clamp stays in range: same.
* **C19** abs, sign and signNotZero: same; F32 as well.
* **C20** floor, ceil, trunc, round: ℝ and F32.
* **C21** fract lies in [0,1): ℝ exact; F32: exact for x >= 0 and x <= -1/2; negation of <1 (tiny negative x), and exactly which x give 1.
* **C22** roundEven rounds to nearest, ties to even: model gives nearest EVEN integer; negation of the GLSL property with witness, and what it really computes.
* **C23** mod is floored modulo: ℝ.
* **C24** mix interpolates: ℝ, F32 endpoint facts.
* **C25** Boolean mix selects: any carrier.
* **C26** step and smoothstep: ℝ; F32 range in C76.
* **C27** isnan and isinf classify per component: F32.
* **C28** Vector overloads are the scalar function per component: one coordinate theorem per overload, any carrier.
* **C29** dot is an inner product: ℝ vs. Mathlib dotProduct / inner.
* **C30** cross product laws: ℝ vs. Mathlib crossProduct.
* **C31** length is the Euclidean norm: ℝ vs. EuclideanSpace norm; length(float)=x: negation + _partial.
* **C32** distance is a metric: ℝ, dist axioms.
* **C33** length2 and distance2 are squares: vec3/vec4 distance2 returns the unsquared length: negation + _partial.
* **C34** normalize gives the unit vector of the same direction: ℝ.
* **C35** faceforward faces against the incident vector: any ordered carrier / ℝ.
* **C36** reflect is the mirror reflection: ℝ.
* **C37** refract obeys Snell's law: ℝ.
* **C38** orthogonal vectors are orthogonal and non-zero: ℝ.
* **C39** Octahedral encoding round-trips: lower hemisphere wrong: negation + upper-hemisphere _partial; range of encode; encode agrees with the standard octahedral map on all non-zero vectors.
* **C40** Matrix multiplication is the linear-algebra product: toMatrix homomorphism into Mathlib matrices; laws as corollaries on the model.
* **C41** Matrix-vector products: mulVec / vecMul.
* **C42** transpose: Matrix.transpose.
* **C43** determinant: Matrix.det by expansion.
* **C44** inverse is the two-sided inverse: field_simp/ring per entry or via adjugate.
* **C45** adjugate: Matrix.adjugate.
* **C46** inverseTranspose and adjugateTranspose: mat2 versions are not transposed: negation; mat3/mat4 proved (_partial overall).
* **C47** Matrix division undoes multiplication: from C44.
* **C48** translate and scale post-multiply: ℝ.
* **C49** rotate builds a proper rotation about the axis: ℝ, Rodrigues.
* **C50** lookAt builds a rigid view transform: ℝ.
* **C51** Orthographic projections map the box to the clip volume: ℝ.
* **C52** Perspective projections map the frustum to the clip volume: ℝ.
* **C53** decompose_orthogonal inverts composition: ℝ, all branches of the quaternion extraction.
* **C54** Quaternion product is Hamilton's product: Mathlib Quaternion ℝ.
* **C55** Quaternion length is multiplicative; conjugate and inverse: norm_mul etc.
* **C56** q*v rotates, v*q rotates back: ℝ.
* **C57** mat3_cast/mat4_cast agree with quaternion rotation: ℝ.
* **C58** quat_cast inverts mat3_cast: ℝ, four branches.
* **C59** angleAxis, axis and angle: ℝ.
* **C60** quat(u,v) rotates u onto v: ℝ.
* **C61** Euler angle constructor and extraction: ℝ; both round trips (angles away from gimbal lock; every unit quaternion up to sign).
* **C62** lerp and nlerp: ℝ + assert model.
* **C63** slerp follows the shorter arc at constant speed: ℝ.
* **C64** quatLookAt: ℝ.
* **C65** quaternion rotate: ℝ.
* **C66** Exponential-family inverse relations: exp2 calls expf: negation; rest proved (_partial).
* **C67** Degrees and radians: ℝ with explicit error bounds on the literal factors.
* **C68** Trigonometric and hyperbolic inverse relations: ℝ.
* **C69** sRGB conversions keep alpha and invert each other: gamma not inverted: negation; alpha, monotonicity proved (_partial).
* **C70** Equal values have equal hashes: BitVec 64 model; holds for int/bool types, fails for floats at ±0: negation + _partial.
* **C71** hash depends on every component: injectivity of odd multiplication mod 2^64; mat4 ignores columns 1,2: negation + _partial.
* **C72** Component reductions: ℝ/I32/F32.
* **C73** Constants are the correctly rounded mathematical constants: enclosure of each constant between the midpoints around the rounded literal.
* **C74** Histories of vector mutations refine an array: operation lists, induction over the history.
* **C75** Symmetric operations are bitwise symmetric in IEEE arithmetic: F32 commutativity lemmas.
* **C76** Range guarantees survive rounding: F32 rounding monotonicity.
* **C77** Identity matrix is exact in IEEE arithmetic: F32 exactness of *1, +0.
* **C78** Converting an integer vector to a boolean vector: per component, `toInt ≠ 0`; `all`/`any` as quantifiers.
* **C79** Quaternion constructors and linear operators: coordinates, any carrier.
* **C80** Arithmetic operators, sqrt and fma are correctly rounded: `CorrectlyRounded` (Spec/Nearest) is IEEE's roundTiesToEven over the reals, independent of the rounding algorithm of the model; existence (each operation) and uniqueness. This also validates `Model/F32`.
* **C81** Sums of products are accurate: standard error analysis (running (1+u)^n factors) with explicit underflow and overflow terms.
* **C82** length and distance are accurate: C81 + square-root error.
* **C83** normalize is accurate: C82 + division and product errors.
* **C84** Sign symmetries: symmetry of rounding to nearest; zero signs through `SameNumber` (Spec/SignedZero).
* **C85** Rounding never reverses an order: monotonicity of the rounding function; infinities case by case.
* **C86** Integer-valued data computes exactly: an "exact integer of magnitude at most B" calculus over the float operators, applied to the evaluation order of each function; `2^24` never exceeded at the stated entry bounds.
* **C87** Quaternion product accuracy: a running error calculus (`Close x r P M E`) over the factored 9-multiplication formula; the exactness claim for `quat()` fails (witness `1 + 2^-30 i`).
* **C88** Long quaternion products: induction over the history with one factor `1 + 2^-16` per product.
* **C89** Renormalising loop: an invariant (norm within 2^-20 of 1) plus an additive error per step, for histories of any length.
* **C90** Rotating vectors in float: the same calculus on `v + w t + u x t`; the non-unit defect `(1 - |q|^2) v` bounded separately; histories by induction.
* **C91** mat3_cast in float: columns are the float formula at the basis vectors; orthonormality from the isometry `v -> q v q^-1`.
* **C92** Histories of matrices, quaternions and boolean vectors: one-statement simulation against Mathlib matrices, Mathlib quaternions and Boolean arrays (Spec/HistoryMat), lifted to programs by one generic induction.
* **C93** Pure translations and scalings: zero terms are absorbed (`SameNumber` calculus over the real evaluation order of `mat4 * vec4`), the remaining one or two operations are correctly rounded (C80).
* **C94** Agreement of constructions: matrices are compared through their action on `hom p w`; quaternion routes through the sandwich product in Mathlib's quaternions.
* **C95** Normals and planes: dot products as Mathlib `dotProduct`, moved across the matrix; cross products by polynomial identity. The mat2 case is refuted.
* **C96** Powers of two: round-to-nearest commutes with `·2^k` on regular exponents (Lemmas/F32Scale), sums never underflow, so the relation `ScaledBy` is carried through each operation; `normalize` cancels the two opposite scalings.
* **C97** Statement level: a second transcription of the matrix code in the `Res` monad, storage as `Option` cells (`none` = indeterminate). Equality with the functional model is proved by case analysis on the build and computation; `decompose_orthogonal` takes its outputs as addresses in a store, so aliasing is covered.
* **C98** Running error analysis: `Poly` (Lemmas/F32Det) carries a computed value, the exact polynomial, the sum of its term magnitudes, the number of roundings and an underflow count through sums and products of entries; a general quotient lemma then bounds the division by the determinant. Exact determinants, adjugates and inverses are Mathlib's.
* **C99** NaN: absorption laws of the float operations (Lemmas/F32NaN), then case analysis on the position of the NaN; degenerate inputs by evaluating the few operations on zeros and infinities.
* **C100** Rotations from angles: `GoodTrig` (Spec/Turn) is a hypothesis on the libm; running error analysis with `Close` (Lemmas/F32Turn, F32TurnQuat), halving is shown to be exact up to 2^-150, Hamilton's and Rodrigues' rotations are identified by polynomial identity; histories by induction on the list of turns. A libm meeting the hypothesis is constructed.
* **C101** Projections: `GoodTan` (Spec/Clip) is a hypothesis on the libm; the entries are products and quotients without cancellation, so a relative-error calculus (`Rel`, Lemmas/F32Rel) bounds them; the zero pattern of the matrices makes most terms of the matrix-vector product exact zeros (Lemmas/F32Diag, F32Persp), leaving one or two rounded terms per row. Different floats are at least 2^-25 of their size apart, which keeps `zFar - zNear` from vanishing. A libm meeting the hypothesis is constructed.
* **C102** lookAt: error analysis in Euclidean norm (Lemmas/F32Vec3: computed differences, cross and dot products and normalisation are near the exact ones; `normalize` is Lipschitz with constant 2/length), then through the three steps of the frame (Lemmas/F32View). Exact directions, angles and norms are Mathlib's (Spec/View).
* **C103** Interpolation: relative-error calculus for `mix`; Sterbenz' lemma (same sign, within a factor of two: the difference is exact) from divisibility by the spacing; monotonicity of rounding for the order statements; `smoothstep` by cases on the position, doubling is exact, and the cubic has slope at most 3/2 (Lemmas/F32Mix).
* **C104** Rotations in between: the exact arc is written with the weights `s*sinc(s*θ)/sinc(θ)` (Lemmas/Arc), which are continuous at 0 and Lipschitz in `cos θ`, so both branches of `slerp` are compared with the same expression; a rounding analysis in norm for the branches (Lemmas/F32Slerp); `acosf` is only used where the angle is at least 2^-12. The sign of the computed dot product is right as soon as the exact one exceeds its error. A libm meeting `GoodArc` is constructed (Lemmas/F32Lerp).
* **C105** Reflection and refraction in float: vectors of `EuclideanSpace` (Spec/Optics), `mirror` is Mathlib's reflection and `Snell` the law of refraction by its three defining conditions, shown to have exactly one solution (`C105_snell`). The rounding analysis is in norm (Lemmas/F32Optics, F32Refract): the dot product error is multiplied through `k`, the square root loses a factor 1/cosine of the refracted angle, hence the bound and the guard on that cosine.
* **C106** Matrices to quaternions in float: the columns of the exact rotation are quadratic in the components of `Q` (`unit_columns`), so the four numbers `quat_cast` compares are 4 times the squares of the components up to small errors; the largest is at least 1 up to that error whichever branch the comparison picks, the square root and the quotients are then well conditioned, and one sign serves all four components (Lemmas/F32QuatCast). For `quatLookAt*`, every right-handed orthonormal frame is the image of the axes under some unit quaternion (`exists_unit_of_frame`, Lemmas/F32LookAt) and the computed frame is near the exact one as in C102.
* **C107** Inverses in float: `inverse` divides the exact conjugate by the computed squared norm, a relative-error bound per component; rotating back is rotation by the computed inverse, and conjugation by two nearby quaternions differs by at most twice their relative distance (`conj_close_of`).
* **C108** quat(u, v) in float: `1 + a.b + a x b` for unit vectors is twice the cosine of the half angle times the exact rotation (Lemmas/F32Between, `between_exact`), computed up to 11*2^-24 times the product of the lengths; normalising divides the error by the half-angle cosine. The guard of the special case is bracketed by what it says about the angle (`between_test`), so that both sides of the threshold are covered; the perpendicular axis is exact and at least |u|/sqrt 2 long.
* **C109** Products of matrices in float: one product is off by at most 16.01*2^-24 times the product of the operator norms (rows and columns are no longer than the norm, and a matrix with entries up to e has norm at most 4e; Lemmas/F32Chain), so by induction on the list (from the right end for products, from the left end for vectors) each factor adds one factor 1 + 17*2^-24. For matrices of quaternions, conjugation gives a homomorphism into matrices of norm 1 (`rotMat_mul`, Lemmas/F32ChainRot), and C91 bounds the distance of each factor from it.
* **C110** Octahedral encoding in float: the projection is within 4.01*2^-24 relative of the exact one, and never exceeds 1 because rounding is monotone (Lemmas/F32Oct); the published map is continuous across its folds, so a point on the wrong side of a fold costs at most twice that error (`octSurface_upper`, `octSurface_lower`). The decoder subtracts |x| and |y| from 1 with a result that cannot be negative when |x|+|y| <= 1, again by monotone rounding (`decode_raw`, Lemmas/F32Octa). The equator is refuted on two vectors.
* **C111** Normalised components: a float x with fl(x*x) <= d satisfies |x| <= fl(sqrt d) because rounding is monotone and the next float is too far away (`abs_le_sqrt_of_sq`, Lemmas/F32Unit), and multiplying by the rounded reciprocal cannot pass 1 either, by the sharp error bound |x|/(2^24+1). The reciprocal square root in `axis` is off by 3.4*2^-24/s^2 relative, because 1-w*w cancels (`axis_factor`, Lemmas/F32AxisAngle); multiplied by the vector part of length s this costs 1/s. NaN for a product of normalised quaternions is shown on quat(0, 1, 0, 4).
* **C112** Euler angles in float: over the reals the arguments of atan2 in pitch and roll are cos(yaw) times the cosine and sine of the angle (`euler_exact`), so an error e in them moves the direction by at most 2e/cos(yaw) (`chord_polar`); the clamped sine of the yaw by `chord_arcsin`. Errors are measured as distances on the unit circle (`chord`), which is what `quat(pitch, yaw, roll)` depends on up to sign. Gimbal lock: on quat(0.7, 0.1, 0.7, -0.1) the two arguments are rounding errors of opposite sign, so the half-angle product has w = 0.
* **C113** binary32 model of `decompose_orthogonal` (`M4.decompose_orthogonal` over `F32`). Column lengths come from `sqLen3`/`SqLen.sqrt` (C105), the sign from the computed triple product, the orientation from a case split on the largest diagonal term as in C106; the product `translate * mat4_cast * scale` is evaluated entry by entry with `SameNumber` (products with 0 and 1 do not round). The inverse direction uses `mat3_cast_near` (C107).
* **C114** mod in float: rounding is monotone and integers up to 2^24 are floats, so the rounded quotient stays between the floor and the ceiling of the exact one (`round_between_ints`, Lemmas/F32Mod); if it reaches the ceiling, the rounding error bounds the distance. Numbers below `y` are at least one unit in the last place below, so the quotient is at most 1 - 2^-24. For integers the rounding error is less than the distance 1/|y| to the next integer.
* **C115** orthogonal in float: only negations, so everything is exact; the two products in the dot product are the same float with opposite signs. The branchless vector is (k, 0, 1) x v, so its squared length is (k^2+1)|v|^2 - (kx+z)^2 >= (k sqrt(|v|^2 - x^2) - |x|)^2, a one-variable inequality on either side of the jump of k (`branchless_length`, Lemmas/F32Perp).
* **C116** sRGB in float: relative errors through the power by `rpow_perturb` (Lemmas/Srgb); the thresholds 0.04045 and 0.0031308 are compared exactly (`srgb_le_iff`, `srgb_lt_iff`), so the float takes the branch of the standard; at the seam both formulas differ by less than 2^-24, which the round trips absorb. The fit by square roots is compared with the curve after c = u^24, where the bound is a polynomial inequality on an interval, decided by sign of coefficients after mapping the interval to [0, oo) (Lemmas/PolyPos, for all real arguments).
* **C117** inverse of transforms in float: C98 bounds each entry of the inverse by the sizes of determinant and minors without cancellation. For nearly perpendicular axes the determinant is at least 0.9998 times the product of their lengths (Gram determinant, `triple_ge`), the sum of the magnitudes of its terms at most sqrt(3) times it, and a 2x2 minor at most the product of two lengths (`crosswise_le`, Lemmas/F32Transform). So every entry of row i has an error of 2^-18 over the length of axis i; products with the computed inverse are added up with C81 (Lemmas/F32Local). For normals the exact covector Z satisfies |n_c| = |<Z, axis c>| <= |Z| |axis c|, which turns the entrywise errors into a relative error of the vector (Lemmas/F32Normal).
* **C118** undoing a perspective projection in float: the cofactors of a matrix with the zero pattern of a projection are single products (`frust_cofs`, Lemmas/F32FrustInv), so nothing cancels in the inversion and every entry keeps a small relative error (`frust_inverse`, relative to the matrix as computed; `frust_inverse_ideal`, relative to the ideal one). In the unprojection only the fourth component cancels, from 1/zNear down to 1/d, which gives the factor d/zNear (`unproject_near`, Lemmas/F32Unproject). The round trip uses the bounds of C101 for the projected point.
* **C119** `inversesqrt`, `compAdd`, `compMul` in float: `sqrt` is correctly rounded and its result lies in [2^-75, 2^64], so neither the root nor the quotient can underflow or overflow (`inversesqrt_rel`, Lemmas/F32InvSqrt); antitone because `sqrt` is monotone and a quotient rounds monotonically; the sums by `sum_step`, one rounding per addition; the products by `Rel.mul`.
* **C120** the camera pipeline in float: `ViewOf` collects what C102 says about the view matrix and the point it makes of p; a row of the product with a matrix of the zero pattern of a projection has at most two terms (`pv_row`, Lemmas/F32Seen), so both orders of multiplication give the clip coordinates up to the same bound (`camera_clip`). The fourth component stays within a quarter of d because d >= size/65536, and the quotient follows (`seen_div`, `camera_point`, Lemmas/F32SeenDiv).
* **C121** order under projections in float: rounding is monotone, and by the zero pattern each computed coordinate is fl(fl(s x) + t) (box) or fl(fl(X x)/w) (frustum) up to the sign of a zero, so weak order is kept exactly (`box_order`, `frust_order`, Lemmas/F32Order). Strict order of depths: the exact depths differ by f/(f-n) * n(d'-d)/(d d') (`depth_gap`), which exceeds the two errors of C101, or of C120 behind a camera.
* **C122** Angles, Cauchy-Schwarz, triangle inequality, cross product in floats: the error bounds of C81-C83 transported to
  `EuclideanSpace` (`near_cos`, `near_acos`, `cauchy_float`, `triangle_float` in Lemmas/F32VecAngle.lean).  The angle bound uses
  `|cos x - cos y| >= 2 (x - y)^2 / pi^2`.  The NaN without the clamp is shown by evaluating `vec2(1, 4)` in the kernel.
* **C123** triangle normals in float: the edges are rounded once per component (`near_sub`), the cross product and `normalize` carry the error on (`NearV.cross`, `NearV.normalize`; the division by the sine is the conditioning of the normal), all in Lemmas/F32Triangle. The exchange of corners uses C84 and that `normalize` does not see the sign of a zero (`normalize_same`).
* **C124** dividing by a matrix in float: one product sum (C81) whose second factors are entries of the computed inverse (C98); `division` (Lemmas/F32Division) adds the two errors for any assignment of entries, so it serves `m / v`, `v / m`, `a / b` and both products with the inverse. `divisionError` (Spec/Cramer) is the bound.
* **C125** placing points in float: the entries of the product of the three matrices are computed exactly up to three roundings each (`place_entry`, Lemmas/F32Place: the zeros and ones of `translate` and `scale` contribute nothing), the entries of `mat4_cast` are close to the rotation (Lemmas/F32QuatCast), and one product sum gives the point. The specification `placeAt` (Spec/Place) is the textbook `w t + R(q)(s p)`.
* **C126** clipping tests in float: the clip coordinates are within the errors of C101 of the exact ones, `w` is exactly the distance, and each comparison of floats is the comparison of the rationals. Behind the camera `w < 0`, so `-w <= x <= w` has no solution whatever `x` is, NaN included.
* **C127** debug and release builds: `BuildsAgree` (Spec/Builds) compares the two outcomes of one call or program. It holds for `assert` and is preserved by sequencing, hence for every function by its text and for every program by induction. The conditions under which a debug build stops are worked out in float arithmetic (`aspect_assert`: a difference of floats is zero only for equal floats).
* **C128** rigid motions in float: the computed `q * v` is within `2^-16 |v|` of `turned q v` (C90, restated in Euclidean space in Lemmas/F32Rigid), `turned q` is an isometry and commutes with the cross product (the vector part of a product of pure quaternions), and the error bounds of `dot`, `cross` and `distance` add the rest.
* **C129** elementary functions in float: sine and cosine change no faster than their argument, so an error in the angle is at most as large in the result; the products and the length add a few rounding errors (`circle_part`). `exp` turns an absolute error of the logarithm into a relative error. The assumptions on the C library (Spec/Turn, Spec/Angles, Spec/Elementary) are met by a library that is constructed in Lemmas.
* **C130** matrix algebra in float: the bitwise laws follow from the commutativity of the rounded product and the order of the additions in the text. The approximate laws follow from the error bound of sums of products (C81) for each of the three products involved and the rounding errors of the sums (`linear_core`).
* **C131** loops in float: induction on the list, with the start value generalised (sums, `fold_add`) or with the relative error so far as an invariant (products, `fold_mul`). The counter is exact while it is an integer up to 2^24, and 2^24 is a fixed point of adding 1.
* **C132** Spec/Box.lean says what the smallest and largest number of a list are. Induction over the list for min and max on binary32 (NaN aware) and int32; the smallest element is unique up to ==, which gives independence of the order. Nearest point: three cases of clamp, and monotonicity of binary32 subtraction, squaring, addition and square root (C85).
* **C133** correct rounding of the square and of the root, with the sharp relative error 1/(2^24+1), leaves no other binary32 number near enough (gap of 2^-24 between neighbours). The lemma of Sterbenz and gradual underflow for differences; doubling is exact, which gives the midpoint by monotonicity.
* **C134** accuracy of sums of products (C81) and of mix (C103) are combined by the triangle inequality around the exact affine map; the quaternion case uses Hamilton's exact rotation (C90), which is linear.
* **C135** the histories of C100 compare with the product of exact turns; exact turns about one axis add up (addition formulas of sine and cosine), and differ by at most half the difference of their angles.
* **C136** one reflection is within 81/2^24 of the exact mirror image (C105) and exact mirrors keep distances, so errors add up, by induction over the list; refraction by substituting the formula into itself, with the second discriminant being the square of the first cosine.
* **C137** one mix is within a few roundings of exact interpolation (C103); exact interpolation does not enlarge errors and the exact scheme is the Bernstein formula (Pascal's rule), so errors add up by induction; for settling the error recursion is a contraction.
* **C138** errors of dot, multiples, differences, normalize and cross are composed (Lemmas/F32Vec3Ops); the exact frame is orthonormal by the algebra of inner and cross products, and the length before normalising is the sine times the length of t.
* **C139** induction on the list from its end: one multiply-add multiplies the growth factor by (1+2^-24)^2; components of a vector polynomial are scalar polynomials because * and + act componentwise.
* **C140** the sum with its larger term is exact or within a factor of two of that term, so Sterbenz' lemma makes the subtraction exact; histories by induction with relative errors; a permutation leaves exact sums and products unchanged.
* **C141** errors of the difference, the two dot products, the quotient (near_quotient), the multiple and the sum are composed (Lemmas/F32Ray); symmetries from the exact sign rules of C84.
* **C142** induction on the list from its end with a growth factor (1+2^-24) per step; components of a weighted sum are weighted sums of components; a convex combination of numbers lies between their bounds.
* **C143** errors of the differences, dot products and quotient are composed, clamp is exact and does not increase errors (Lemmas/F32Segment); that the exact points are nearest is proved from Pythagoras.
* **C144** one update x += v*w of a computed number by a computed rate is bounded (near_update), then induction over the list with error bounds linear in n for the velocity and quadratic for the position (Lemmas/F32Motion).
* **C145** the row lemma of C120 with a translation (camera_row) applied to the accurate entries of C101 and C102; the last row consists of zeros and one and is exact (Lemmas/F32SeenBox).
* **C146** error analysis of products, differences and square roots of computed numbers (Lemmas/F32RaySphere), over C44, C51 and C52; the specification is shown to be the first point of the line on the sphere.
* **C147** Monotonicity of float subtraction and multiplication (including infinities) gives nested slabs; C72 and C132 for compMin/compMax and folded boxes; error of a crossing parameter from the quotient and product bounds, then interval reasoning in the reals.
* **C148** Exact antisymmetry from C84; induction over the way a region is glued from triangles; error analysis of the determinant and the triple product; barycentric coordinates for the exact meaning.
* **C149** Monotonicity of rounded products and sums, coordinate by coordinate; error of dot from C81 for the decision against the exact geometry.
* **C150** Rows by C42, error of the planes from rounded sums, then C149.
* **C151** chained hash table with rehash and search tree with arbitrary rebalancing written in Spec/Table as the caller's containers; representation invariants by induction over the history, instantiated with the library's ==, hash and <.
* **C152** caller's loops in Spec/Neighbour as folds over F32; first-smallest characterisation by reverse induction; monotone sqrt for the squared variant; exact part from the error bound of distance (C82), zero distances exactly.
* **C153** caller's code in Spec/Grid; monotone division and floor for the order; for neighbours: nearest-float property of the quotient, quotients are never half-way between floats (divisibility), and the gap below a multiple 2^j*s (Lemmas/F32Adjacent).
* **C154** caller's code in Spec/Pixel; gap of the floats below 1 and the sharp relative error of one product; rounding does not pass an integer; error analysis of one division and one product for the round trips.
* **C155** Model the loop in Spec/Bisect. Show that the computed midpoint is a nearest binary32 number to the exact one, that a wide interval shrinks by 9/16 in each round and that a narrow one loses a step of a uniform grid in each round.
* **C156** caller's code in Spec/Blend; a + fl(1 - a) rounds to exactly 1, every operation is monotone, and below 1 one rounding is at most 2^-25; induction on the layers
* **C157** caller's loop in Spec/Approach; relative error of difference, length, quotient and product, absolute error of the sum; induction on the rounds; a concrete fixed point for the failing case
* **C158** Spec/Polygon.lean holds the caller's code. List induction for the corners (Lemmas/Polygon.lean); in Lemmas/F32Polygon.lean the parameter is shown to be from 0 to 1, since round(ha - hb) >= ha, and the exact height of the new corner is bounded with the accuracy of dot (C81) and mix (C103).
* **C159** caller's code in Spec/Chunk; one coordinate on mathematical integers (floor division, two's complement) in Lemmas/Chunk; then per type
* **C160** The computed distance to one ball by the error bounds of C82, with C85 for tiny distances; the least by the fold of min. The gap along the exact ray is Lipschitz with the length of the direction, so one round keeps t at most tau + M / 2^17, and past tau the computed distance is below the threshold, so the error does not add up; every round that does not stop adds at least half the threshold. Induction on the rounds.
* **C161** Caller's code in Spec/Morton; each step never shifts a set bit out (masks bound the values), so it is the operation on bits; bit i of the result for each i below 32 by rewriting; then equality bit by bit.
* **C162** Caller's code in Spec/Raster; on integers the inner side is positivity in a lexicographic order, which is linear in the edge; between two corners that have the pixel on their left every corner has it (a positive combination), so the signs along the fan change from yes to no at most once; the converse by the barycentric identity in the same order.
* **C163** Caller's code in Spec/Line; invariant: after n turns the pixel is i and j steps away with the longer side's count equal to n, and twice the area D*j - E*i is at most the longer side; one turn keeps it (linear integer arithmetic); the loop by induction on the turns left.
* **C164** Caller's code in Spec/TriMesh; the lexicographic rule is the strict rule at a point moved by a tiny amount (scaled integers); for one anticlockwise triangle the drawing test equals the sum of the three turns by signs and one identity; the sum over all edges depends only on what is left after cancelling, since turns are antisymmetric (a permutation argument).
* **C165** Caller's code in Spec/Area; the loop with a bound on the partial sums; the mesh by cancelling edges in opposite directions as in C164; moving by a telescoping sum over the closed path.
* **C166** Caller's code in Spec/Lattice; truncated remainders keep the greatest common divisor and every second turn halves the second coordinate; the points by Bezout's identity.
