{"id": "C01", "title": "Vector arithmetic is componentwise", "statement": "For vec2/3/4 and ivec2/3/4 the operators + - * / (and unary + -) between two vectors, a vector and a scalar, or a scalar and a vector return the vector whose i-th component is the scalar operation applied to the i-th components (a scalar is used for every component, on the side it was written).", "quantifier": "all vectors, scalars, component indices, operators, both operand orders, any scalar arithmetic", "why_tests_cant": "The input space (all float/int tuples) is far too large to enumerate; a test only samples a few literals.", "anchors": ["include/zcm/detail/impl_op_macro.hpp:ZCM_IMPL_V2_BINOP", "src/vec2.cpp", "src/vec3.cpp", "src/vec4.cpp"]}
{"id": "C02", "title": "Compound assignment equals the binary operator, also when aliased", "statement": "After `a op= b` the object a holds exactly the value `a op b` had before the statement, for vec, ivec, bvec, mat and quat, for vector and scalar right-hand sides, and also when b is the same object as a.", "quantifier": "all values of a and b, all operators, both aliased (b is a) and unaliased placements", "why_tests_cant": "Aliasing bugs depend on update order; each operator/type/placement/value combination would need its own test.", "anchors": ["include/zcm/detail/impl_op_macro.hpp:ZCM_IMPL_V2_COMPOUND_OP", "src/quat.cpp:operator*=", "src/mat2.cpp:operator*=", "src/mat3.cpp:operator*=", "src/mat4.cpp:operator*="]}
{"id": "C03", "title": "Increment and decrement", "statement": "Prefix ++/-- add/subtract one to every component and yield the updated object; postfix ++/-- leave the same updated object and yield the value the object had before.", "quantifier": "all vectors (vec and ivec) and all component values", "why_tests_cant": "The input space (all float/int tuples) is far too large to enumerate; a test only samples a few literals.", "anchors": ["src/vec2.cpp:operator++", "src/vec3.cpp:operator++", "src/vec4.cpp:operator++", "src/ivec2.cpp:operator++"]}
{"id": "C04", "title": "Vector constructors place components in order", "statement": "Every constructor of vec/ivec/bvec 2/3/4 lays its arguments out left to right with no component lost, duplicated or swapped; a single scalar fills every component; the default constructor gives zeros (false).", "quantifier": "all argument values of all constructors", "why_tests_cant": "The input space (all float/int tuples) is far too large to enumerate; a test only samples a few literals.", "anchors": ["src/vec3.cpp:vec3::vec3", "src/vec4.cpp:vec4::vec4", "src/ivec4.cpp:ivec4::ivec4", "src/bvec4.cpp:bvec4::bvec4"]}
{"id": "C05", "title": "Subscripting is exact and out-of-range indices are stopped", "statement": "For vec/ivec/bvec/mat/quat, v[i] with i below the dimension reads exactly component i, writing v[i] changes component i and nothing else, and an index not below the dimension is stopped by the assertion in a debug build (never silently reads or writes other memory).", "quantifier": "all values, all 32-bit unsigned indices, debug and release builds", "why_tests_cant": "There are 2^32 indices and every object value; the failing index is exactly the one nobody writes a test for.", "anchors": ["src/vec2.cpp:operator[]", "src/ivec2.cpp:operator[]", "src/bvec2.cpp:operator[]", "src/vec3.cpp:operator[]", "src/vec4.cpp:operator[]", "src/quat.cpp:operator[]", "src/mat2.cpp:operator[]"]}
{"id": "C06", "title": "Named component writes touch only that component", "statement": "Assigning to a named component (v.x = s, v.g += s, ++v.z ...) changes only that component of v, whether the right-hand side is a number or a named component of another vector.", "quantifier": "all vectors, all component names (xyzw/rgba/stpq), all right-hand sides including another vector's component of the same or a different name", "why_tests_cant": "A frame property over all objects and all name pairs.", "anchors": ["include/zcm/detail/vec2_access.hpp:scalar_accessor_2", "include/zcm/detail/vec3_access.hpp:scalar_accessor_3", "include/zcm/detail/vec4_access.hpp:scalar_accessor_4"]}
{"id": "C07", "title": "Swizzles return the components they name", "statement": "For every swizzle member of vec2/3/4 and ivec2/3/4, reading it (or handing it to a formatting library through format_as) yields the vector of the components its letters spell, in that order; every combination of 2..n letters from one of the naming sets xyzw/rgba/stpq exists exactly once.", "quantifier": "all vectors and all ~2,000 swizzle member names", "why_tests_cant": "Thousands of hand/generator-written table rows times all values.", "anchors": ["include/zcm/vec2.hpp", "include/zcm/vec3.hpp", "include/zcm/vec4.hpp", "include/zcm/ivec2.hpp", "include/zcm/ivec3.hpp", "include/zcm/ivec4.hpp", "tools/combinations.py"]}
{"id": "C08", "title": "make_* and value_ptr round-trip, in documented memory order", "statement": "make_T(value_ptr(v)) == v, and value_ptr(make_T(p)) points at the same numbers p held; matrices are laid out column by column, quaternions as x,y,z,w; only the first n elements of the input array matter.", "quantifier": "all values, all input arrays", "why_tests_cant": "The input space (all float/int tuples) is far too large to enumerate; a test only samples a few literals.", "anchors": ["src/type_ptr.cpp:value_ptr", "src/vec2.cpp:make_vec2", "src/mat3.cpp:make_mat3", "src/mat4.cpp:make_mat4", "src/quat.cpp:make_quat", "src/bvec3.cpp:make_bvec3"]}
{"id": "C09", "title": "Equality means equality of every component", "statement": "a == b holds exactly when every pair of corresponding components compares equal, and a != b is its exact negation, for vec/ivec/bvec/mat/quat; on integer and boolean types it is an equivalence relation that coincides with identity of values; on floats two components compare equal exactly when neither is a NaN and they are the same number or the same infinity (so -0 equals +0), == is symmetric and transitive, and a value equals itself exactly when it has no NaN component.", "quantifier": "all pairs of values", "why_tests_cant": "The input space (all float/int tuples) is far too large to enumerate; a test only samples a few literals.", "anchors": ["src/vec2.cpp:operator==", "src/vec3.cpp:operator==", "src/vec4.cpp:operator==", "src/mat2.cpp:operator==", "src/mat4.cpp:operator==", "src/quat.cpp:operator=="]}
{"id": "C10", "title": "ivec ordering is a strict total lexicographic order", "statement": "operator< on ivec2/3/4 is the lexicographic order by components: irreflexive, transitive, total and consistent with ==; <=, > and >= are the relations derived from it. Hence ivecs can be used as keys of ordered containers.", "quantifier": "all pairs and triples of integer vectors", "why_tests_cant": "Transitivity/trichotomy quantify over all triples.", "anchors": ["src/ivec2.cpp:operator<", "src/ivec3.cpp:operator<", "src/ivec4.cpp:operator<"]}
{"id": "C11", "title": "Integer vector arithmetic is exact or undefined, and exactly when", "statement": "ivec + - * / %, unary -, ++/--, abs, compAdd and compMul give the mathematically exact (C++ truncated) integer result whenever no component leaves the int32 range and no divisor is zero; otherwise the operation is undefined behaviour, and there is no third case. (For compAdd and compMul the intermediate results of the left-to-right evaluation count as results.)", "quantifier": "all int32 component values", "why_tests_cant": "The overflow boundary is a measure-zero set in a 2^64..2^256 input space.", "anchors": ["src/ivec2.cpp", "src/ivec3.cpp", "src/ivec4.cpp", "src/common.cpp:abs", "src/component_wise.cpp:compAdd"]}
{"id": "C12", "title": "Integer vector bitwise and shift operators", "statement": "ivec2/3 & | ^ act bitwise per component; x >> s is floor division by 2^s; x << s is x*2^s converted to int32 when x >= 0 and the product fits uint32, and otherwise undefined (C++14); shift counts outside 0..31 are undefined.", "quantifier": "all int32 component values and shift counts", "why_tests_cant": "The input space (all float/int tuples) is far too large to enumerate; a test only samples a few literals.", "anchors": ["src/ivec2.cpp", "src/ivec3.cpp", "include/zcm/detail/impl_op_macro.hpp"]}
{"id": "C13", "title": "Boolean vectors form a Boolean algebra; all/any quantify over components", "statement": "bvec && || ^ ! act per component (scalar operand broadcast on either side) and obey the Boolean algebra laws; all(b) is true iff every component is, any(b) iff some component is; De Morgan links them.", "quantifier": "all boolean vectors and scalars", "why_tests_cant": "Finite but multi-operator; stated for all values and lifted to all three sizes.", "anchors": ["src/bvec2.cpp", "src/bvec3.cpp", "src/bvec4.cpp", "src/common.cpp:all", "src/common.cpp:any"]}
{"id": "C14", "title": "Relational functions mirror the scalar comparisons", "statement": "lessThan/lessThanEqual/greaterThan/greaterThanEqual/equal/notEqual return per component the scalar comparison, which for floats is the order of the numbers and infinities on the extended number line, and for NaN is false (except notEqual); greaterThan(x,y)=lessThan(y,x), notEqual = !equal, and all(equal(x,y)) == (x == y).", "quantifier": "all vector pairs, including NaN and infinities", "why_tests_cant": "The input space (all float/int tuples) is far too large to enumerate; a test only samples a few literals.", "anchors": ["src/common.cpp:lessThan", "src/common.cpp:equal", "src/common.cpp:notEqual"]}
{"id": "C15", "title": "Matrix constructors and conversions", "statement": "matN() is the identity, matN(s) is s times the identity, the scalar and column constructors place entries column-major, mat4(mat3) / mat3(mat2) embed the smaller matrix in the top-left corner of an identity matrix, and the converse conversions drop exactly the last row and column (so mat3(mat4(m)) == m and mat2(mat3(m)) == m).", "quantifier": "all matrices and scalars", "why_tests_cant": "The input space (all float/int tuples) is far too large to enumerate; a test only samples a few literals.", "anchors": ["src/mat2.cpp:mat2::mat2", "src/mat3.cpp:mat3::mat3", "src/mat4.cpp:mat4::mat4", "src/mat3.cpp:operator mat2", "src/mat4.cpp:operator mat3"]}
{"id": "C16", "title": "Entrywise matrix operators", "statement": "Matrix + -, unary + -, matrix*scalar, scalar*matrix, matrix/scalar, scalar/matrix and matrixCompMult act on each entry with the scalar operation.", "quantifier": "all matrices and scalars, any scalar arithmetic", "why_tests_cant": "The input space (all float/int tuples) is far too large to enumerate; a test only samples a few literals.", "anchors": ["src/mat2.cpp:operator+", "src/mat3.cpp:operator/", "src/mat4.cpp:operator*", "src/matrix.cpp:matrixCompMult"]}
{"id": "C17", "title": "min and max", "statement": "min/max return one of their two arguments; on non-NaN arguments the result is a lower/upper bound of both and the two functions are commutative, associative and idempotent up to ==; a NaN second argument is ignored (the first is returned).", "quantifier": "all floats incl. NaN, infinities and signed zeros; all ints", "why_tests_cant": "The input space (all float/int tuples) is far too large to enumerate; a test only samples a few literals.", "anchors": ["src/common.cpp:min", "src/common.cpp:max"]}
{"id": "C18", "title": "clamp stays in range", "statement": "For lo <= hi and non-NaN x, clamp(x,lo,hi) lies in [lo,hi], equals x when x already does, is idempotent and monotone in x; for lo > hi it is hi; for NaN x it is NaN.", "quantifier": "all floats (incl. special values) and all ints", "why_tests_cant": "The input space (all float/int tuples) is far too large to enumerate; a test only samples a few literals.", "anchors": ["src/common.cpp:clamp"]}
{"id": "C19", "title": "abs, sign and signNotZero", "statement": "abs(x) >= 0, abs(x) is x or -x; sign(x) is -1/0/1 and sign(x)*abs(x) == x for every non-NaN x; signNotZero is +-1, +1 at zero, and signNotZero(x)*abs(x)==x.", "quantifier": "all floats (sign for NaN treated separately) and all ints except the abs of the most negative int", "why_tests_cant": "The input space (all float/int tuples) is far too large to enumerate; a test only samples a few literals.", "anchors": ["src/common.cpp:abs", "src/common.cpp:sign", "src/common.cpp:signNotZero"]}
{"id": "C20", "title": "floor, ceil, trunc, round", "statement": "floor(x) is the greatest integer <= x, ceil(x) the least integer >= x, trunc(x) the integer part toward zero, round(x) the nearest integer with halves away from zero; vector versions act per component.", "quantifier": "all reals / all finite binary32 values", "why_tests_cant": "The input space (all float/int tuples) is far too large to enumerate; a test only samples a few literals.", "anchors": ["src/common.cpp:floor", "src/common.cpp:ceil", "src/common.cpp:trunc", "src/common.cpp:round"]}
{"id": "C21", "title": "fract lies in [0,1)", "statement": "fract(x) = x - floor(x) lies in [0,1), is 0 exactly at integers and is 1-periodic; x == floor(x) + fract(x).", "quantifier": "all finite floats / all reals", "why_tests_cant": "The input space (all float/int tuples) is far too large to enumerate; a test only samples a few literals.", "anchors": ["src/common.cpp:fract"]}
{"id": "C22", "title": "roundEven rounds to nearest, ties to even", "statement": "roundEven(x) is the integer nearest to x, choosing the even one for exact halves (GLSL roundEven).", "quantifier": "all finite floats", "why_tests_cant": "The deviation appears on a set of inputs no existing test exercises.", "anchors": ["src/common.cpp:roundEven"]}
{"id": "C23", "title": "mod is floored modulo", "statement": "For y > 0, mod(x,y) lies in [0,y) and x - mod(x,y) is an integer multiple of y; for y < 0 it lies in (y,0]; mod(x+y,y)==mod(x,y).", "quantifier": "all x and all non-zero y", "why_tests_cant": "The input space (all float/int tuples) is far too large to enumerate; a test only samples a few literals.", "anchors": ["src/common.cpp:mod"]}
{"id": "C24", "title": "mix interpolates", "statement": "In exact arithmetic mix(x,y,0)==x, mix(x,y,1)==y, for t in [0,1] the result lies between x and y, it is monotone in t for x<=y, and mix(x,x,t)==x; vector overloads (scalar or vector t) act per component. In binary32, mix(x,y,0)==x holds whenever y-x does not overflow, while mix(x,y,1) can miss y.", "quantifier": "all x, y, t", "why_tests_cant": "The input space (all float/int tuples) is far too large to enumerate; a test only samples a few literals.", "anchors": ["src/common.cpp:mix"]}
{"id": "C25", "title": "Boolean mix selects", "statement": "mix(x,y,b) with a boolean selector returns, per component, exactly y where b is true and exactly x where it is false - bit for bit, even if the unselected value is NaN.", "quantifier": "all values incl. NaN, all selectors", "why_tests_cant": "The input space (all float/int tuples) is far too large to enumerate; a test only samples a few literals.", "anchors": ["src/common.cpp:mix(bool)"]}
{"id": "C26", "title": "step and smoothstep", "statement": "step(edge,x) is 0 for x<edge and 1 otherwise; smoothstep(e0,e1,x) for e0<e1 is 0 for x<=e0, 1 for x>=e1, lies in [0,1], is monotone in x and satisfies smoothstep(e0,e1,(e0+e1)-x) = 1 - smoothstep(e0,e1,x).", "quantifier": "all edges with e0<e1 and all x", "why_tests_cant": "The input space (all float/int tuples) is far too large to enumerate; a test only samples a few literals.", "anchors": ["src/common.cpp:step", "src/common.cpp:smoothstep"]}
{"id": "C27", "title": "isnan and isinf classify per component", "statement": "isnan/isinf return per component whether the value is NaN / infinite; no value is both, and x is NaN iff x != x.", "quantifier": "all binary32 values", "why_tests_cant": "All 2^32 bit patterns and all vectors of them.", "anchors": ["src/common.cpp:isinf", "src/common.cpp:isnan"]}
{"id": "C28", "title": "Vector overloads are the scalar function per component", "statement": "Every vec2/3/4 (and quat, where it exists) overload of abs, floor, ceil, trunc, round, roundEven, sign, signNotZero, fract, fma, min, max, clamp, mod, mix, step, smoothstep, exp, exp2, log, log2, sqrt, cbrt, inversesqrt, pow, sin ... tanh, radians, degrees returns at each component what the scalar function returns on that component.", "quantifier": "all vectors, any scalar arithmetic/libm", "why_tests_cant": "The input space (all float/int tuples) is far too large to enumerate; a test only samples a few literals.", "anchors": ["src/common.cpp", "src/exponential.cpp", "src/angle_and_trigonometry.cpp", "src/detail/utils.hpp:applyOp"]}
{"id": "C29", "title": "dot is an inner product", "statement": "dot is symmetric, bilinear and positive definite and equals the sum of the products of corresponding components; |dot(a,b)|^2 <= dot(a,a)*dot(b,b).", "quantifier": "all vectors (exact arithmetic); symmetry also for IEEE arithmetic", "why_tests_cant": "The input space (all float/int tuples) is far too large to enumerate; a test only samples a few literals.", "anchors": ["src/geometric.cpp:dot"]}
{"id": "C30", "title": "cross product laws", "statement": "cross(a,b) is orthogonal to a and b, cross(b,a) == -cross(a,b), cross(a,a)==0, it is bilinear, satisfies the Jacobi and Lagrange identities and the right-hand rule cross(x,y)==z.", "quantifier": "all vectors", "why_tests_cant": "The input space (all float/int tuples) is far too large to enumerate; a test only samples a few literals.", "anchors": ["src/geometric.cpp:cross"]}
{"id": "C31", "title": "length is the Euclidean norm", "statement": "length(v) >= 0, length(v)==0 iff v is zero, length(s*v)==|s|*length(v), length(a+b) <= length(a)+length(b), length(v)^2 == dot(v,v), for float, vec2/3/4 and quat.", "quantifier": "all vectors and scalars", "why_tests_cant": "The input space (all float/int tuples) is far too large to enumerate; a test only samples a few literals.", "anchors": ["src/geometric.cpp:length"]}
{"id": "C32", "title": "distance is a metric", "statement": "distance(a,b) >= 0, is 0 iff a==b, is symmetric and satisfies the triangle inequality, for float, vec2/3/4.", "quantifier": "all pairs/triples of vectors", "why_tests_cant": "The input space (all float/int tuples) is far too large to enumerate; a test only samples a few literals.", "anchors": ["src/geometric.cpp:distance"]}
{"id": "C33", "title": "length2 and distance2 are squares", "statement": "length2(v) == length(v)^2 and distance2(a,b) == distance(a,b)^2 for every overload.", "quantifier": "all vectors", "why_tests_cant": "The input space (all float/int tuples) is far too large to enumerate; a test only samples a few literals.", "anchors": ["src/geometric.cpp:length2", "src/geometric.cpp:distance2"]}
{"id": "C34", "title": "normalize gives the unit vector of the same direction", "statement": "For every non-zero v, normalize(v) has length 1 and is a positive multiple of v (v == length(v)*normalize(v)); normalizing twice changes nothing; positive scaling of v does not matter.", "quantifier": "all non-zero vectors / quaternions", "why_tests_cant": "The input space (all float/int tuples) is far too large to enumerate; a test only samples a few literals.", "anchors": ["src/geometric.cpp:normalize"]}
{"id": "C35", "title": "faceforward faces against the incident vector", "statement": "faceforward(N,I,Nref) is N if dot(Nref,I)<0 and -N otherwise; in particular dot(faceforward(N,I,N), I) <= 0.", "quantifier": "all vectors", "why_tests_cant": "The input space (all float/int tuples) is far too large to enumerate; a test only samples a few literals.", "anchors": ["src/geometric.cpp:faceforward"]}
{"id": "C36", "title": "reflect is the mirror reflection", "statement": "For unit N, reflect(I,N) negates the component of I along N and keeps the tangential part, preserves length and is an involution; reflect is linear in I.", "quantifier": "all I and all unit N", "why_tests_cant": "The input space (all float/int tuples) is far too large to enumerate; a test only samples a few literals.", "anchors": ["src/geometric.cpp:reflect"]}
{"id": "C37", "title": "refract obeys Snell's law", "statement": "For unit I,N and eta with 1-eta^2(1-dot(N,I)^2) >= 0, refract(I,N,eta) is a unit vector lying in the plane of I and N, on the far side of the surface, whose tangential part is eta times that of I (Snell); otherwise (total internal reflection) the result is the zero vector.", "quantifier": "all unit I, N and all eta", "why_tests_cant": "The input space (all float/int tuples) is far too large to enumerate; a test only samples a few literals.", "anchors": ["src/geometric.cpp:refract"]}
{"id": "C38", "title": "orthogonal vectors are orthogonal and non-zero", "statement": "orthogonal(v) and orthogonal_branchless(v) are orthogonal to v; orthogonal(v) is non-zero for every non-zero v; orthogonal_branchless(v) is non-zero for every unit v.", "quantifier": "all non-zero / unit vectors", "why_tests_cant": "The degenerate inputs form a lower-dimensional set.", "anchors": ["src/geometric.cpp:orthogonal", "src/geometric.cpp:orthogonal_branchless"]}
{"id": "C39", "title": "Octahedral encoding round-trips", "statement": "decode_octahedral(encode_octahedral(v)) == v for every unit v, and every encoded component lies in [-1,1]; the encoding is the standard octahedral map (unfolding it the standard way gives the direction of v back).", "quantifier": "all unit vectors", "why_tests_cant": "A whole hemisphere must be covered.", "anchors": ["src/geometric.cpp:encode_octahedral", "src/geometric.cpp:decode_octahedral"]}
{"id": "C40", "title": "Matrix multiplication is the linear-algebra product", "statement": "A*B is the matrix product under column-major indexing; it is associative, distributes over +, and matN() is a two-sided identity.", "quantifier": "all matrices (mat2/3/4), exact arithmetic", "why_tests_cant": "The input space (all float/int tuples) is far too large to enumerate; a test only samples a few literals.", "anchors": ["src/mat2.cpp:operator*", "src/mat3.cpp:operator*", "src/mat4.cpp:operator*"]}
{"id": "C41", "title": "Matrix-vector products", "statement": "M*v is the product with v as a column and v*M with v as a row; (A*B)*v == A*(B*v), v*(A*B) == (v*A)*B, v*M == transpose(M)*v, and both are linear.", "quantifier": "all matrices and vectors", "why_tests_cant": "The input space (all float/int tuples) is far too large to enumerate; a test only samples a few literals.", "anchors": ["src/mat2.cpp:operator*", "src/mat3.cpp:operator*", "src/mat4.cpp:operator*"]}
{"id": "C42", "title": "transpose", "statement": "transpose(m)[i][j] == m[j][i]; transpose is an involution, linear and transpose(A*B) == transpose(B)*transpose(A).", "quantifier": "all matrices; the indexing law for any scalar arithmetic", "why_tests_cant": "The input space (all float/int tuples) is far too large to enumerate; a test only samples a few literals.", "anchors": ["src/matrix.cpp:transpose"]}
{"id": "C43", "title": "determinant", "statement": "determinant(A*B)==determinant(A)*determinant(B), determinant(transpose(A))==determinant(A), determinant(matN())==1, it is the (Leibniz) determinant of the entries.", "quantifier": "all matrices mat2/3/4", "why_tests_cant": "The input space (all float/int tuples) is far too large to enumerate; a test only samples a few literals.", "anchors": ["src/matrix.cpp:determinant"]}
{"id": "C44", "title": "inverse is the two-sided inverse", "statement": "Whenever determinant(m) != 0, inverse(m)*m == m*inverse(m) == identity, inverse is an involution and inverse(A*B)==inverse(B)*inverse(A).", "quantifier": "all matrices with non-zero determinant", "why_tests_cant": "The input space (all float/int tuples) is far too large to enumerate; a test only samples a few literals.", "anchors": ["src/matrix.cpp:inverse"]}
{"id": "C45", "title": "adjugate", "statement": "adjugate(m)*m == m*adjugate(m) == determinant(m)*identity for every m, singular or not; hence inverse(m) == adjugate(m)/determinant(m).", "quantifier": "all matrices", "why_tests_cant": "The input space (all float/int tuples) is far too large to enumerate; a test only samples a few literals.", "anchors": ["src/matrix.cpp:adjugate"]}
{"id": "C46", "title": "inverseTranspose and adjugateTranspose", "statement": "inverseTranspose(m) == transpose(inverse(m)) when determinant(m) != 0, and adjugateTranspose(m) == transpose(adjugate(m)), for mat2, mat3 and mat4.", "quantifier": "all matrices (of non-zero determinant)", "why_tests_cant": "The input space (all float/int tuples) is far too large to enumerate; a test only samples a few literals.", "anchors": ["src/matrix.cpp:inverseTranspose", "src/matrix.cpp:adjugateTranspose"]}
{"id": "C47", "title": "Matrix division undoes multiplication", "statement": "(A*B)/B == A, A/A == identity, M/v solves M*x==v, v/M solves x*M==v, whenever the divisor matrix is invertible.", "quantifier": "all matrices/vectors with invertible divisor", "why_tests_cant": "The input space (all float/int tuples) is far too large to enumerate; a test only samples a few literals.", "anchors": ["src/mat2.cpp:operator/", "src/mat3.cpp:operator/", "src/mat4.cpp:operator/"]}
{"id": "C48", "title": "translate and scale post-multiply", "statement": "translate(m,v) == m * T(v) and scale(m,v) == m * S(v) where T(v) maps point p to p+v and S(v) maps p to v*p; translations compose additively and scales multiplicatively.", "quantifier": "all matrices and vectors", "why_tests_cant": "The input space (all float/int tuples) is far too large to enumerate; a test only samples a few literals.", "anchors": ["src/matrix_transform.cpp:translate", "src/matrix_transform.cpp:scale"]}
{"id": "C49", "title": "rotate builds a proper rotation about the axis", "statement": "rotate(m,a,v) == m*R where, for non-zero v, R is orthogonal with determinant 1, fixes v, rotates by angle a counter-clockwise (Rodrigues), R(a)R(b)==R(a+b) and R(0)==identity; scaling v by a positive factor does not matter.", "quantifier": "all matrices, angles, non-zero axes", "why_tests_cant": "The input space (all float/int tuples) is far too large to enumerate; a test only samples a few literals.", "anchors": ["src/matrix_transform.cpp:rotate"]}
{"id": "C50", "title": "lookAt builds a rigid view transform", "statement": "lookAtRH/LH(eye,center,up) with center!=eye and up not parallel to the view direction is a rigid transform (orthogonal, det 1 rotation part) mapping eye to the origin, center onto the -z (RH) / +z (LH) axis at the eye-center distance, and up into the half-plane x=0,y>0.", "quantifier": "all non-degenerate eye, center, up", "why_tests_cant": "The input space (all float/int tuples) is far too large to enumerate; a test only samples a few literals.", "anchors": ["src/matrix_transform.cpp:lookAtRH", "src/matrix_transform.cpp:lookAtLH"]}
{"id": "C51", "title": "Orthographic projections map the box to the clip volume", "statement": "ortho* maps x in [left,right] and y in [bottom,top] affinely onto [-1,1], and depth zNear..zFar (at -z for RH, +z for LH) onto [0,1] (ZO) or [-1,1] (NO), with w==1.", "quantifier": "all boxes with left!=right, bottom!=top, zNear!=zFar and all points", "why_tests_cant": "The input space (all float/int tuples) is far too large to enumerate; a test only samples a few literals.", "anchors": ["src/matrix_transform.cpp:ortho", "src/matrix_transform.cpp:orthoLH_ZO", "src/matrix_transform.cpp:orthoRH_NO"]}
{"id": "C52", "title": "Perspective projections map the frustum to the clip volume", "statement": "After dividing by w, perspective* maps depth zNear to 0 (ZO) or -1 (NO) and zFar to 1, depth order is preserved between them, the top/right frustum planes given by fovy and aspect map to y=1/x=1, w is the distance along the view direction (-z RH, +z LH).", "quantifier": "all fovy in (0,pi), aspect>0, 0<zNear<zFar and all points of the frustum", "why_tests_cant": "The input space (all float/int tuples) is far too large to enumerate; a test only samples a few literals.", "anchors": ["src/matrix_transform.cpp:perspectiveRH_ZO", "src/matrix_transform.cpp:perspectiveLH_NO"]}
{"id": "C53", "title": "decompose_orthogonal inverts composition", "statement": "For a matrix M whose upper 3x3 columns are non-zero and mutually orthogonal, decompose_orthogonal returns scale s, unit quaternion q, translation t with translate(t)*mat4_cast(q)*scale(s) == M; for M = T(t)*R(q)*S(s) with positive s it returns t, s and q up to sign.", "quantifier": "all such matrices", "why_tests_cant": "The input space (all float/int tuples) is far too large to enumerate; a test only samples a few literals.", "anchors": ["src/matrix_transform.cpp:decompose_orthogonal"]}
{"id": "C54", "title": "Quaternion product is Hamilton's product", "statement": "q1*q2 is the Hamilton product: associative, distributive, quat() is the two-sided identity, i*j==k etc.; q1*=q2 stores the same value as q1*q2.", "quantifier": "all quaternions (exact arithmetic)", "why_tests_cant": "The input space (all float/int tuples) is far too large to enumerate; a test only samples a few literals.", "anchors": ["src/quat.cpp:operator*", "src/quat.cpp:operator*="]}
{"id": "C55", "title": "Quaternion length is multiplicative; conjugate and inverse", "statement": "length(p*q)==length(p)*length(q); conjugate is an anti-automorphism; q*inverse(q)==inverse(q)*q==identity for every q != 0; for unit q inverse(q)==conjugate(q).", "quantifier": "all (non-zero) quaternions", "why_tests_cant": "The input space (all float/int tuples) is far too large to enumerate; a test only samples a few literals.", "anchors": ["src/quaternion.cpp:conjugate", "src/quaternion.cpp:inverse", "src/geometric.cpp:length(quat)"]}
{"id": "C56", "title": "q*v rotates, v*q rotates back", "statement": "For unit q, q*v preserves lengths, dot and cross products, equals the sandwich product q v q^-1, composes as (p*q)*v == p*(q*v), and v*q undoes it ((q*v)*q == v).", "quantifier": "all unit quaternions and all vectors", "why_tests_cant": "The input space (all float/int tuples) is far too large to enumerate; a test only samples a few literals.", "anchors": ["src/quat.cpp:operator*(quat,vec3)", "src/quat.cpp:operator*(vec3,quat)"]}
{"id": "C57", "title": "mat3_cast/mat4_cast agree with quaternion rotation", "statement": "For every q, mat3_cast(q)*v == q*v when q is unit; the matrix is orthogonal with determinant 1; mat3_cast(p*q)==mat3_cast(p)*mat3_cast(q); mat3_cast(-q)==mat3_cast(q); mat4_cast is mat4(mat3_cast).", "quantifier": "all unit quaternions and vectors", "why_tests_cant": "The input space (all float/int tuples) is far too large to enumerate; a test only samples a few literals.", "anchors": ["src/quaternion.cpp:mat3_cast", "src/quaternion.cpp:mat4_cast"]}
{"id": "C58", "title": "quat_cast inverts mat3_cast", "statement": "quat_cast(mat3_cast(q)) is q or -q for every unit q, and mat3_cast(quat_cast(R)) == R for every rotation matrix R; the largest component is chosen so the division is never by zero (its magnitude is at least 1/2).", "quantifier": "all unit quaternions / all rotation matrices, all four selection branches", "why_tests_cant": "Four data-dependent branches whose boundary cases tests miss.", "anchors": ["src/quaternion.cpp:quat_cast"]}
{"id": "C59", "title": "angleAxis, axis and angle", "statement": "angleAxis(a,n) for unit n is a unit quaternion rotating by a about n (fixes n, angle a in the orthogonal plane); axis/angle recover n and a for a in (0,2pi); angleAxis(a,n)*angleAxis(b,n)==angleAxis(a+b,n).", "quantifier": "all angles and unit axes", "why_tests_cant": "The input space (all float/int tuples) is far too large to enumerate; a test only samples a few literals.", "anchors": ["src/quaternion.cpp:angleAxis", "src/quaternion.cpp:axis", "src/quaternion.cpp:angle"]}
{"id": "C60", "title": "quat(u,v) rotates u onto v", "statement": "The two-vector constructor yields a unit quaternion q that maps the direction of u to the direction of v (q*normalize(u) == normalize(v)), for all non-zero u, v that are not (nearly) opposite; for exactly opposite vectors it is a half-turn mapping u to -u.", "quantifier": "all non-zero u, v", "why_tests_cant": "The nearly-opposite branch is a thin set.", "anchors": ["src/quat.cpp:quat(vec3,vec3)"]}
{"id": "C61", "title": "Euler angle constructor and extraction", "statement": "quat(vec3(pitch,yaw,roll)) is a unit quaternion equal to the product of the axis rotations Rz(roll)*Ry(yaw)*Rx(pitch); eulerAngles(quat(e)) == e for e with |yaw|<pi/2 and pitch, roll in (-pi,pi); conversely quat(eulerAngles(q)) is q or -q for every unit q, gimbal lock included.", "quantifier": "all Euler angle triples (in the stated range for extraction)", "why_tests_cant": "The input space (all float/int tuples) is far too large to enumerate; a test only samples a few literals.", "anchors": ["src/quat.cpp:quat(vec3)", "src/quaternion.cpp:pitch", "src/quaternion.cpp:yaw", "src/quaternion.cpp:roll", "src/quaternion.cpp:eulerAngles"]}
{"id": "C62", "title": "lerp and nlerp", "statement": "lerp(x,y,0)==x, lerp(x,y,1)==y, lerp is the straight segment; it asserts t in [0,1]; nlerp returns a unit quaternion whenever the segment does not hit zero, in particular for unit x,y with dot(x,y) >= 0.", "quantifier": "all quaternions and t in [0,1]", "why_tests_cant": "The input space (all float/int tuples) is far too large to enumerate; a test only samples a few literals.", "anchors": ["src/quaternion.cpp:lerp", "src/quaternion.cpp:nlerp"]}
{"id": "C63", "title": "slerp follows the shorter arc at constant speed", "statement": "For unit x,y, slerp(x,y,0) is x, slerp(x,y,1) is the representative of +-y nearest to x; away from the near-parallel fallback the result is a unit quaternion at angle t*theta from x (theta the shorter arc); slerp(x,-y,t)==slerp(x,y,t) when dot(x,y) != 0.", "quantifier": "all unit quaternions and all t", "why_tests_cant": "The input space (all float/int tuples) is far too large to enumerate; a test only samples a few literals.", "anchors": ["src/quaternion.cpp:slerp"]}
{"id": "C64", "title": "quatLookAt", "statement": "quatLookAtRH/LH(direction,up) for unit direction not parallel to up is a unit quaternion rotating -z (RH) / +z (LH) to direction and keeping +y in the half-plane of up.", "quantifier": "all unit directions and non-parallel ups", "why_tests_cant": "The input space (all float/int tuples) is far too large to enumerate; a test only samples a few literals.", "anchors": ["src/quaternion.cpp:quatLookAtLH", "src/quaternion.cpp:quatLookAtRH"]}
{"id": "C65", "title": "quaternion rotate", "statement": "rotate(q,a,v) == q * angleAxis(a, normalize(v)): rotating by q after a local rotation by a about v; it preserves unit length for non-zero v.", "quantifier": "all quaternions, angles and non-zero axes", "why_tests_cant": "The input space (all float/int tuples) is far too large to enumerate; a test only samples a few literals.", "anchors": ["src/quaternion.cpp:rotate"]}
{"id": "C66", "title": "Exponential-family inverse relations", "statement": "log(exp(x))==x, exp(log(x))==x, log2(exp2(x))==x, sqrt(x)^2==x, cbrt(x)^3==x, inversesqrt(x)*sqrt(x)==1, pow(x,a+b)==pow(x,a)*pow(x,b) on the domains where they are defined.", "quantifier": "all reals in the respective domains", "why_tests_cant": "The input space (all float/int tuples) is far too large to enumerate; a test only samples a few literals.", "anchors": ["src/exponential.cpp:exp2", "src/exponential.cpp:log2", "src/exponential.cpp:inversesqrt"]}
{"id": "C67", "title": "Degrees and radians", "statement": "radians and degrees convert with the factor pi/180 to within the accuracy of float, and degrees(radians(x)) == x to within float accuracy.", "quantifier": "all angles", "why_tests_cant": "The input space (all float/int tuples) is far too large to enumerate; a test only samples a few literals.", "anchors": ["src/angle_and_trigonometry.cpp:degrees", "src/angle_and_trigonometry.cpp:radians"]}
{"id": "C68", "title": "Trigonometric and hyperbolic inverse relations", "statement": "sin(asin(x))==x and cos(acos(x))==x on [-1,1], tan(atan(x))==x, atan(y,x) is the angle of the point (x,y), sinh(asinh(x))==x, tanh(atanh(x))==x on (-1,1), cosh(acosh(x))==x for x>=1, cos^2+sin^2==1.", "quantifier": "all reals in the respective domains", "why_tests_cant": "The input space (all float/int tuples) is far too large to enumerate; a test only samples a few literals.", "anchors": ["src/angle_and_trigonometry.cpp"]}
{"id": "C69", "title": "sRGB conversions keep alpha and invert each other", "statement": "The vec4 colour conversions convert r,g,b exactly like the vec3 ones and return alpha unchanged bit for bit; convertSRGBToLinear(c,g) and convertLinearToSRGB(c,g) with the same gamma are mutually inverse on [0,1] outside the seam; both are monotone.", "quantifier": "all colours in [0,1] and gammas > 0", "why_tests_cant": "The input space (all float/int tuples) is far too large to enumerate; a test only samples a few literals.", "anchors": ["src/color_space.cpp:convertLinearToSRGB", "src/color_space.cpp:convertSRGBToLinear"]}
{"id": "C70", "title": "Equal values have equal hashes", "statement": "If a == b then hash(a) == hash(b) for every hashable type (required by std::unordered_map/set, for which std::hash is specialised).", "quantifier": "all pairs of values incl. signed zeros", "why_tests_cant": "The failing pairs are a measure-zero set.", "anchors": ["src/hash.cpp:hash", "include/zcm/hash.hpp:std::hash"]}
{"id": "C71", "title": "hash depends on every component", "statement": "hash(int)/hash(unsigned) are injective; for vectors and matrices changing any single component changes the hash for some value, i.e. no component is ignored.", "quantifier": "all values and all components", "why_tests_cant": "The input space (all float/int tuples) is far too large to enumerate; a test only samples a few literals.", "anchors": ["src/hash.cpp:hash(mat4)", "src/hash.cpp:hash(int)"]}
{"id": "C72", "title": "Component reductions", "statement": "compAdd/compMul/compMin/compMax return the sum/product/minimum/maximum over all components and do not depend on component order (exact arithmetic; min/max also for floats without NaN).", "quantifier": "all vectors", "why_tests_cant": "The input space (all float/int tuples) is far too large to enumerate; a test only samples a few literals.", "anchors": ["src/component_wise.cpp:compAdd", "src/component_wise.cpp:compMul", "src/component_wise.cpp:compMin", "src/component_wise.cpp:compMax"]}
{"id": "C73", "title": "Constants are the correctly rounded mathematical constants", "statement": "Each function of constants.hpp returns the binary32 number nearest to the constant its documentation names.", "quantifier": "all 29 constants", "why_tests_cant": "A test would compare to another literal typed by hand, not to the mathematical constant.", "anchors": ["src/constants.cpp"]}
{"id": "C74", "title": "Histories of vector mutations refine an array", "statement": "Any finite sequence of subscript writes, named-component writes, compound assignments, increments and whole assignments to a vec leaves it equal to a plain array of n scalars subjected to the same per-cell updates.", "quantifier": "all operation sequences of any length, all initial values", "why_tests_cant": "Unbounded histories.", "anchors": ["src/vec3.cpp", "include/zcm/detail/vec3_access.hpp"]}
{"id": "C75", "title": "Symmetric operations are bitwise symmetric in IEEE arithmetic", "statement": "In binary32 with round-to-nearest-even, dot(a,b) and dot(b,a) are the same float, as are distance(a,b) and distance(b,a), a+b and b+a, a*b and b*a (NaN payloads aside), including overflow, subnormals and infinities.", "quantifier": "all binary32 vectors", "why_tests_cant": "2^64..2^256 bit patterns.", "anchors": ["src/geometric.cpp:dot", "src/geometric.cpp:distance", "src/vec3.cpp"]}
{"id": "C76", "title": "Range guarantees survive rounding", "statement": "In binary32 arithmetic, for finite x: 0 <= fract(x) <= 1; clamp stays in [lo,hi]; dot(v,v) and length(v) are non-negative or NaN; smoothstep(e0,e1,x) never leaves [0,1] (unless NaN); mix(x,y,0)==x when y-x does not overflow.", "quantifier": "all binary32 values", "why_tests_cant": "Rounding corner cases are single bit patterns among 2^32..2^96.", "anchors": ["src/common.cpp:fract", "src/common.cpp:smoothstep", "src/common.cpp:mix", "src/geometric.cpp:length"]}
{"id": "C77", "title": "Identity matrix is exact in IEEE arithmetic", "statement": "In binary32 arithmetic, matN()*v == v, v*matN() == v, matN()*M == M == M*matN() and transpose/casts are exact for all finite inputs.", "quantifier": "all finite binary32 matrices and vectors", "why_tests_cant": "The input space (all float/int tuples) is far too large to enumerate; a test only samples a few literals.", "anchors": ["src/mat2.cpp:operator*", "src/mat3.cpp:operator*", "src/mat4.cpp:operator*"]}
{"id": "C78", "title": "Converting an integer vector to a boolean vector", "statement": "bvecN(ivecN) is true in exactly the components that are not 0; any of it is 'some component is not 0', all of it is 'no component is 0'.", "quantifier": "all int32 vectors", "why_tests_cant": "The input space (all float/int tuples) is far too large to enumerate; a test only samples a few literals.", "anchors": ["src/ivec2.cpp:operator bvec2", "src/ivec3.cpp:operator bvec3", "src/ivec4.cpp:operator bvec4"]}
{"id": "C79", "title": "Quaternion constructors and linear operators", "statement": "Every quaternion constructor and quat::wxyz puts the scalar part in w and the vector part in x,y,z; quat() is the identity 1; + - (unary and binary), * and / by a scalar act on each of the four components.", "quantifier": "all quaternions and scalars, any scalar arithmetic", "why_tests_cant": "The input space (all float/int tuples) is far too large to enumerate; a test only samples a few literals.", "anchors": ["src/quat.cpp:quat::quat", "src/quat.cpp:operator+", "src/quat.cpp:operator/"]}
{"id": "C80", "title": "Arithmetic operators, sqrt and fma are correctly rounded", "statement": "In IEEE binary32 every component of every vector/matrix/quaternion + - * / (vector or scalar operand), of sqrt and of fma is the correctly rounded (nearest, ties to even, overflow to infinity) value of the exact real result, and there is only one such number.", "quantifier": "all finite binary32 operands", "why_tests_cant": "2^64 operand pairs per component; ties and overflow thresholds are isolated points.", "anchors": ["src/vec3.cpp:operator+", "src/exponential.cpp:sqrt", "src/common.cpp:fma", "src/mat4.cpp:operator+"]}
{"id": "C81", "title": "Sums of products are accurate in IEEE arithmetic", "statement": "dot, length2, cross, matrix*vector, vector*matrix and matrix*matrix computed in binary32 differ from the exact result by at most ((1+2^-24)^n - 1) times the sum of the magnitudes of the n terms (plus underflow), and stay finite as long as that sum is well below the overflow threshold.", "quantifier": "all finite binary32 vectors and matrices", "why_tests_cant": "The input space (all float/int tuples) is far too large to enumerate; a test only samples a few literals.", "anchors": ["src/geometric.cpp:dot", "src/geometric.cpp:cross", "src/mat4.cpp:operator*"]}
{"id": "C82", "title": "length and distance are accurate in IEEE arithmetic", "statement": "For vectors whose exact length lies between 2^-50 and 2^63 the computed length is finite and within 4*2^-24 relative of it; distance is within 5*2^-24 relative for distances between 2^-49 and 2^62, whatever the size of the operands.", "quantifier": "all such binary32 vectors and quaternions", "why_tests_cant": "The input space (all float/int tuples) is far too large to enumerate; a test only samples a few literals.", "anchors": ["src/geometric.cpp:length", "src/geometric.cpp:distance", "src/geometric.cpp:length"]}
{"id": "C83", "title": "normalize is accurate in IEEE arithmetic", "statement": "For vectors whose exact length lies between 2^-50 and 2^63 every component of normalize(v) is within 6*2^-24 relative (plus half the least positive float) of the exact quotient, and the exact length of the result is within 2^-20 of 1.", "quantifier": "all such binary32 vectors and quaternions", "why_tests_cant": "The input space (all float/int tuples) is far too large to enumerate; a test only samples a few literals.", "anchors": ["src/geometric.cpp:normalize", "src/quaternion.cpp:normalize"]}
{"id": "C84", "title": "Sign symmetries hold in IEEE arithmetic", "statement": "In binary32: a-b == -(b-a), dot(-a,b) == -dot(a,b), cross(a,b) == -cross(b,a), M*(-v) == -(M*v) up to the sign of a zero; dot(-a,-b), length(-a), distance(-a,-b), distance(b,a) are bit-identical to the unnegated ones, normalize(-v) is bit-identical to -normalize(v), and cross(a,a) is +0 or NaN in every component.", "quantifier": "all binary32 vectors incl. NaN, infinities and overflow", "why_tests_cant": "The input space (all float/int tuples) is far too large to enumerate; a test only samples a few literals.", "anchors": ["src/geometric.cpp:dot", "src/geometric.cpp:cross", "src/geometric.cpp:normalize", "src/mat3.cpp:operator*"]}
{"id": "C85", "title": "Rounding never reverses an order", "statement": "In binary32: componentwise a<=b implies a+c<=b+c, a-c<=b-c, c-b<=c-a, a*s<=b*s for s>=0, a/s<=b/s for s>0, sqrt, floor, ceil, trunc, round and step keep the order; mix(x,y,t) is monotone in t when x<=y and y-x is finite; growing every component in magnitude never makes length or length2 smaller.", "quantifier": "all finite binary32 operands (any non-NaN for roundings and length)", "why_tests_cant": "Monotonicity is a statement about all pairs of inputs; a violation would be an isolated pair.", "anchors": ["src/vec3.cpp:operator+", "src/common.cpp:floor", "src/common.cpp:mix", "src/geometric.cpp:length"]}
{"id": "C86", "title": "Integer-valued data computes exactly in IEEE arithmetic", "statement": "If the components are integers small enough that every intermediate stays within 2^24, then vector and matrix + - *, dot, cross, matrix*vector, vector*matrix, matrix*matrix, determinant and adjugate return exactly the integer result; for integer matrices of determinant 1 or -1 inverse(m) is exactly the integer inverse and inverse(m)*m == matN().", "quantifier": "all integer-valued vectors and matrices within the stated size (entries up to 2896, 140, 28 in magnitude for mat2, mat3, mat4 determinants)", "why_tests_cant": "The input space (all float/int tuples) is far too large to enumerate; a test only samples a few literals.", "anchors": ["src/geometric.cpp:dot", "src/mat3.cpp:operator*", "src/matrix.cpp:determinant", "src/matrix.cpp:inverse"]}
{"id": "C87", "title": "The quaternion product is accurate in IEEE arithmetic", "statement": "For finite p, q of norm at most 2^60 (and |p||q| >= 2^-100) p*q computed in binary32 is finite, every component is within 2^-17 |p||q| and the whole within 2^-16 |p||q| of the Hamilton product; quat()*q == q == q*quat() for finite q.", "quantifier": "all such binary32 quaternions", "why_tests_cant": "The input space (all float/int tuples) is far too large to enumerate; a test only samples a few literals.", "anchors": ["src/quat.cpp:operator*"]}
{"id": "C88", "title": "Long products of quaternions stay accurate", "statement": "q0*q1*...*qn evaluated in binary32 is within n*2^-15 (relative) of the exact Hamilton product for every n up to 2^15 as long as the exact partial products stay between 2^-98 and 2^59; in particular for normalised factors.", "quantifier": "all sequences of up to 2^15 quaternions", "why_tests_cant": "Histories of up to 32768 steps, every input.", "anchors": ["src/quat.cpp:operator*"]}
{"id": "C89", "title": "The renormalising rotation update never degrades", "statement": "In a loop q = normalize(q*d) over any finite increments d of norm between 2^-40 and 2^40, started from a finite q of norm 1 (within 2^-20), q stays finite with norm within 2^-20 of 1 for ever, and after n steps it is within (n+1)*2^-14 of the exact normalised product.", "quantifier": "all sequences of increments of any length", "why_tests_cant": "Unbounded histories.", "anchors": ["src/quat.cpp:operator*", "src/geometric.cpp:normalize(quat)"]}
{"id": "C90", "title": "Rotating vectors by a normalised quaternion is accurate and keeps lengths", "statement": "For a finite q of norm within 2^-20 of 1 and any finite v of length between 2^-100 and 2^120, q*v in binary32 is finite and within 2^-16 |v| of the exact rotation q v q^-1, its length is within 2^-16 of that of v, and n successive rotations (n <= 2^15) are within n*2^-15 |v| of the exact result.", "quantifier": "all such quaternions and vectors, all sequences of rotations", "why_tests_cant": "The input space (all float/int tuples) is far too large to enumerate; a test only samples a few literals.", "anchors": ["src/quat.cpp:operator*(quat, vec3)"]}
{"id": "C91", "title": "Matrices of normalised quaternions are orthonormal in IEEE arithmetic", "statement": "For a finite q of norm within 2^-20 of 1 the columns of mat3_cast(q) in binary32 are within 2^-17 of the exactly rotated basis vectors and orthonormal to within 2^-15; mat4_cast(q) has that block and exactly the last row and column of the identity.", "quantifier": "all such binary32 quaternions", "why_tests_cant": "The input space (all float/int tuples) is far too large to enumerate; a test only samples a few literals.", "anchors": ["src/quaternion.cpp:mat3_cast", "src/quaternion.cpp:mat4_cast"]}
{"id": "C92", "title": "Histories of matrix, quaternion and boolean vector objects", "statement": "Any sequence of element writes m[c][r]=a, column copies and column compound assignments (also within one matrix), whole assignments, compound assignments (also aliased), scalings, transpose and inverse on matrix variables leaves exactly the matrices the same sequence leaves in real matrix algebra and outputs the same numbers; a program that uses a row or column that does not exist never ends normally; the same for quaternion variables and Hamilton's quaternions (also conjugate, inverse, normalize) and for boolean vectors and arrays of truth values (in a release build, and for bvec2 in any build, provided only existing components are used).", "quantifier": "all finite programs, all initial values, debug and release builds", "why_tests_cant": "Histories have unbounded length and aliasing patterns.", "anchors": ["src/mat2.cpp", "src/mat3.cpp", "src/mat4.cpp", "src/matrix.cpp:inverse", "src/matrix.cpp:transpose", "src/quat.cpp:operator+=", "src/quat.cpp:operator*=", "src/quat.cpp:operator[]", "src/bvec2.cpp", "src/bvec3.cpp", "src/bvec4.cpp"]}
{"id": "C93", "title": "Pure translations and scalings make no avoidable rounding error", "statement": "In binary32 arithmetic, translate(mat4(), v) * vec4(p, 1) is the point p + v with every coordinate correctly rounded (and w == 1), it leaves vec4(d, 0) exactly alone, translate(translate(mat4(), v), u) moves the origin by the correctly rounded u + v, scale(mat4(), s) * vec4(p, w) has the correctly rounded products s*p and w unchanged, and scale(translate(mat4(), v), s) * vec4(p, 1) makes exactly two roundings per coordinate.", "quantifier": "all finite float vectors (overflow to infinity included)", "why_tests_cant": "There are 2^192 inputs; one lost ulp in a rare case is invisible to tests.", "anchors": ["src/matrix_transform.cpp:translate", "src/matrix_transform.cpp:scale", "src/mat4.cpp:operator*"]}
{"id": "C94", "title": "Different ways of building the same transform agree", "statement": "In exact arithmetic: inverse(lookAt(eye, center, up)) is translate(mat4(), eye) * mat4_cast(quatLookAt(normalize(center - eye), up)) for both handednesses; mat4_cast(quat(euler)) is the three nested rotate calls; mat4_cast(rotate(q, a, v)) == rotate(mat4_cast(q), a, v); inverse of translate, scale and rotate are the opposite translate, scale and rotate; inverse(mat4_cast(q)) == transpose(mat4_cast(q)) == mat4_cast(inverse(q)); slerp(quat(), angleAxis(a, n), t) == angleAxis(t*a, n) for unit n and angles from 0 to pi outside the linear fallback near 0; slerp commutes with turning both ends by the same unit quaternion from either side; quat(u, v) is angleAxis of the angle between them about cross(u, v).", "quantifier": "all eyes, centers and ups that are not degenerate, all angles, all unit quaternions, all axes", "why_tests_cant": "The routes go through unrelated code (matrix entries, extraction of a quaternion, sines); agreement on samples does not exclude a wrong branch or sign elsewhere.", "anchors": ["src/matrix_transform.cpp:lookAtRH", "src/matrix_transform.cpp:lookAtLH", "src/matrix_transform.cpp:rotate", "src/quaternion.cpp:quatLookAtRH", "src/quaternion.cpp:quatLookAtLH", "src/quaternion.cpp:slerp", "src/quaternion.cpp:rotate"]}
{"id": "C95", "title": "Normals and planes transform by the inverse transpose", "statement": "dot(inverseTranspose(m) * n, m * t) == dot(n, t) for invertible mat2 and mat3, cross(m * s, m * t) == adjugateTranspose(m) * cross(s, t) for every mat3, and dot(inverseTranspose(m) * plane, m * p) == dot(plane, p) for invertible mat4, in exact arithmetic.", "quantifier": "all matrices (invertible where stated) and all vectors", "why_tests_cant": "A wrong sign or transposition is invisible for symmetric, diagonal or orthogonal samples, the usual test data.", "anchors": ["src/matrix.cpp:inverseTranspose", "src/matrix.cpp:adjugateTranspose"]}
{"id": "C96", "title": "Powers of two factor out exactly", "statement": "In IEEE float, multiplying the inputs of dot, cross, length, distance, mix and matrix products by powers of two multiplies the result by exactly the corresponding power of two, rounding errors included, and normalize(2^k * v) is bit-identical to normalize(v), for vec2, vec3, vec4 and quat, as long as no sum overflows and no product underflows.", "quantifier": "all integers j, k and all finite float vectors, quaternions and matrices meeting the range conditions", "why_tests_cant": "It compares two runs over all floats and all scales; a formula with one unscaled term (an epsilon, a clamp) agrees on every sample near unit scale.", "anchors": ["src/geometric.cpp:normalize", "src/geometric.cpp:length", "src/geometric.cpp:dot", "src/geometric.cpp:cross", "src/geometric.cpp:distance", "src/common.cpp:mix"]}
{"id": "C97", "title": "Matrix code never reads uninitialised memory and never indexes out of range", "statement": "Every matrix operator and function (arithmetic, comparison, transpose, determinant, inverse, adjugate, translate, rotate, scale, lookAt, ortho, perspective, casts between matrices and quaternions, quatLookAt, decompose_orthogonal), in debug and in release builds, reads only components that were written before, uses only valid subscripts and fails no assertion other than the documented aspect check. decompose_orthogonal overwrites its outputs completely, whatever they held, and changes nothing else; if scale and translation are one object it ends up holding the scale. A vector or quaternion made with no_init_t may not be read before it is written; a matrix made with no_init_t is in fact all zeros.", "quantifier": "all float types, all arguments, both builds, all prior contents of output objects including indeterminate ones, all aliasings of the vec3 outputs", "why_tests_cant": "Uninitialised reads often return plausible values, and which subscripts run depends on the data (quat_cast, decompose_orthogonal have data-dependent branches).", "anchors": ["src/matrix.cpp", "src/matrix_transform.cpp:decompose_orthogonal", "src/quaternion.cpp:quat_cast", "src/quaternion.cpp:quatLookAtLH", "src/mat4.cpp", "include/zcm/init.hpp:no_init_t"]}
{"id": "C98", "title": "Determinants, adjugates and inverses are accurate in float arithmetic", "statement": "For a matrix of floats at most B <= 2^30 in magnitude, determinant and adjugate do not overflow, and the result differs from the exact determinant or adjugate entry by a few rounding errors times the sum of the magnitudes of the Leibniz terms (2, 5, 9 roundings for 2x2, 3x3, 4x4); in particular the determinant has the right sign whenever the exact one exceeds this bound. adjugate(mat2) is exact, and adjugateTranspose is bit for bit the transpose of adjugate. If less than 18 bits cancel in the determinant and it is not tiny relative to the entries, every entry of inverse and of inverseTranspose (mat3, mat4) is finite and within 2^-19 times the stated condition numbers of the exact inverse entry.", "quantifier": "all float matrices with entries up to 2^30 in magnitude; for inverses those satisfying the stated conditioning", "why_tests_cant": "The worst case over all float matrices cannot be sampled, and cancellation makes a few matrices far worse than typical ones.", "anchors": ["src/matrix.cpp:determinant", "src/matrix.cpp:adjugate", "src/matrix.cpp:inverse", "src/matrix.cpp:inverseTranspose", "src/matrix.cpp:adjugateTranspose"]}
{"id": "C99", "title": "A NaN is not silently lost, and degenerate inputs give no finite-looking result", "statement": "In float arithmetic a NaN component of an operand makes the corresponding component of every vector, quaternion and matrix operator NaN; dot, length, distance, normalize, reflect, refract, compAdd, compMul, determinant, inverse, quaternion products and rotations of a value containing a NaN are NaN throughout; == is false and != true. Exceptions, exactly: min and max return their first argument when the other is NaN, clamp ignores a NaN bound, step returns 1, sign and signNotZero return -1, faceforward returns -N. length is NaN only if a component is. normalize of a vector whose squared length is 0 has no finite component (all NaN for the zero vector); if the squared length overflows it is the zero vector. The inverse of a matrix whose computed determinant is 0 has no finite entry. decompose_orthogonal of a matrix with a zero or NaN column returns an orientation that is NaN in all components. lerp with a NaN parameter aborts in a debug build.", "quantifier": "all float arguments, including NaN, infinities and zeros of both signs", "why_tests_cant": "NaN payloads arise from rare data; which of the many branches swallow them cannot be sampled.", "anchors": ["src/geometric.cpp", "src/common.cpp", "src/matrix.cpp:inverse", "src/quat.cpp", "src/matrix_transform.cpp:decompose_orthogonal", "src/quaternion.cpp:lerp"]}
{"id": "C100", "title": "Rotations built from an angle are accurate in float arithmetic", "statement": "If the C library's sinf and cosf are within 2^-23 of the exact sine and cosine for finite arguments, then in IEEE float: rotate(mat4, angle, axis) multiplies by Rodrigues' rotation (by exactly the given angle, about exactly the given direction) to within 49 rounding units of the magnitudes in each row and leaves the translation column alone; rotate(mat4(1), a, v) has orthonormal columns to within 2^-15 and an exact last row and column; angleAxis(a, normalize(v)) is within 10 * 2^-24 of the exact unit quaternion and rotates vectors like Rodrigues' formula to within 2^-15 of their length; quat(eulerAngles) is within 2^-18 of the exact product of the three turns; the matrix and the quaternion route agree to within 2^-15; and up to 2^15 successive rotate calls, on a quaternion or on a matrix, drift by at most 2^-13 (2^-15 for matrix rows) per call.", "quantifier": "all C libraries with that accuracy, all finite angles, all axes of length between 2^-50 and 2^63, all matrices and vectors in the stated ranges, all histories up to 2^15 calls", "why_tests_cant": "Accuracy over all angles and axes and long histories cannot be sampled, and a wrong sign in one entry shows only for axes off the coordinate planes.", "anchors": ["src/matrix_transform.cpp:rotate", "src/quaternion.cpp:angleAxis", "src/quaternion.cpp:rotate", "src/quaternion.cpp:mat3_cast", "src/quat.cpp:quat"]}
{"id": "C101", "title": "Projection matrices are accurate in float arithmetic", "statement": "In IEEE float: every entry of ortho and of the four orthoXX matrices is within 4 * 2^-24 relative of the exact one, points are sent to the exact normalized position (-1..1 or 0..1) to within 5 * 2^-24 times (2|p|+|sides|)/width, the fourth coordinate is exactly 1, and when the sides are placed symmetrically no point between them is pushed outside -1..1 by rounding. If tanf has relative error at most 2^-22, the four perspectiveXX functions return (no assertion) a matrix whose entries are within 7 * 2^-24 relative of the exact ones, the fourth coordinate of a transformed point is exactly its distance in front of the camera, and after the division x and y are within 9 * 2^-24 relative and the depth within 7 * 2^-24 times the condition f(d+n)/(d(f-n)) of the exact depth.", "quantifier": "all finite sides up to 2^60 at least 2^-60 apart, all points up to 2^60; all opening angles from 2^-20 with tangent of the half up to 2^30, aspect ratios 2^-20..2^20, all floats zNear < zFar in 2^-30..2^30, all points in front of the camera in that range, every such C library, debug and release builds", "why_tests_cant": "An error in a rarely used convention (left-handed, zero-to-one) or a loss of precision for planes close together shows only in particular ranges of the parameters.", "anchors": ["src/matrix_transform.cpp:ortho", "src/matrix_transform.cpp:orthoLH_ZO", "src/matrix_transform.cpp:orthoRH_NO", "src/matrix_transform.cpp:perspectiveRH_ZO", "src/matrix_transform.cpp:perspectiveLH_NO"]}
{"id": "C102", "title": "lookAt is accurate in float arithmetic", "statement": "In IEEE float, with u = 2^-24 and s the sine of the angle between the direction of view and up: the side and up rows of lookAtRH and lookAtLH are within 45u/s of the exact directions and the view row within 9u whatever up is, the translation column is within 49u/s (13u for depth) times the length of eye, the last row is exactly 0 0 0 1; a transformed point is within 55u/s (18u for depth) times |p|+|eye| of its exact camera coordinates; in particular the eye goes to the origin and the centre to the axis of view at its distance, within these bounds.", "quantifier": "all finite eye, center, up with distance 2^-40..2^60, |up| 2^-30..2^60, |eye| up to 2^60 and sine at least 2^-16, and all finite points up to 2^60", "why_tests_cant": "How fast the result degrades when up approaches the direction of view, and that depth does not degrade, is a statement about all cameras.", "anchors": ["src/matrix_transform.cpp:lookAtRH", "src/matrix_transform.cpp:lookAtLH"]}
{"id": "C103", "title": "mix and smoothstep are accurate in float arithmetic", "statement": "In IEEE float, with u = 2^-24: mix(x,y,t) is within u*(|r| + 2.001*|t*(y-x)|) + 2^-149 of the exact r = x+t*(y-x); for t between 0 and 1 it moves monotonically from x, reached exactly at 0, to mix(x,y,1), which misses y by at most u*(|y| + 1.001*|y-x|) and equals y when x and y have the same sign and are within a factor of two. smoothstep is exactly 0 up to the first edge, exactly 1 from the second on, within 2^-21 of the exact cubic everywhere, and increasing up to 2^-20 (but not exactly). The vector overloads do this in every component.", "quantifier": "all finite x, y up to 2^124 and t in [-1,1] or [0,1]; all finite edges e0 < e1 up to 2^60 and at least 2^-60 apart and all finite x up to 2^60", "why_tests_cant": "Bounds on the rounding error and monotonicity are about all triples of floats; a counterexample to monotonicity was only found by search.", "anchors": ["src/common.cpp:mix", "src/common.cpp:smoothstep"]}
{"id": "C104", "title": "Interpolating rotations is accurate in float arithmetic", "statement": "In IEEE float: lerp(q1,q2,t) with t between 0 and 1 fails no assertion and is within 3.001 roundings of the exact point of the segment; nlerp of two quaternions of length 1 up to 2^-20 again has length 1 up to 2^-20 and is within 2^-20 + 6.1*2^-24/d of the exact normalized point, d its distance from zero (so within 2^-19 when the two are at most a right angle apart); slerp of such quaternions, with sinf and acosf of relative error 2^-22, is within 2^-17 of the exact point of the great arc from q1 to q2 or -q2 and has length 1 up to 2^-17, and it is the shorter arc that is taken unless the two are of equal length up to 2^-21.", "quantifier": "all finite quaternions (for nlerp, slerp: of length 1 up to 2^-20), all floats t in [0,1], all C libraries with that accuracy", "why_tests_cant": "The error bound covers both branches of slerp for every pair of float quaternions, also next to the threshold between them; the correct library results are not known to a test.", "anchors": ["src/quaternion.cpp:lerp", "src/quaternion.cpp:nlerp", "src/quaternion.cpp:slerp"]}
{"id": "C105", "title": "Reflection, refraction and faceforward are accurate in float arithmetic", "statement": "In IEEE float, for a normal N of length 1 up to 2^-20: reflect(I,N) is within 16*2^-24*|I| + 2^-143 of I-2*(N.I)*N and within 81*2^-24*|I| + 2^-143 of the exact mirror image of I, and keeps the length of I up to that bound; refract(I,N,eta) for such I, N and eta >= 0 is within (1+eta)^2*2^-17/c of the direction T given by Snell's law (unit length, on the far side, tangential part eta times that of I), where c is the cosine of the refracted angle and is at least (1+eta)/256; it is exactly the zero vector if the sine s of the refracted angle would satisfy s^2 >= 1+(1+eta)^2*2^-17 (and eta is up to 2^30). There is exactly one T unless s > 1. faceforward(N,I,Nref) is exactly N or -N as the sign of the exact Nref.I requires, unless |Nref.I| is at most 4.001*2^-24*|Nref|*|I| + 2^-147.", "quantifier": "all finite I up to 2^60 and N of length 1 up to 2^-20 (reflect); all I, N of length 1 up to 2^-20 and finite eta >= 0 (refract); all finite vectors with |Nref|*|I| up to 2^120 (faceforward); vec2, vec3 and vec4", "why_tests_cant": "How the error of refract grows towards the critical angle is a bound over all directions and ratios; on either side of that angle a wrong branch gives a completely different ray.", "anchors": ["src/geometric.cpp:reflect", "src/geometric.cpp:refract", "src/geometric.cpp:faceforward"]}
{"id": "C106", "title": "Converting rotation matrices to quaternions is accurate in float arithmetic", "statement": "In IEEE float: if the columns of a mat3 (or of the upper left block of a mat4) are within d <= 1/64 of those of the rotation by a unit quaternion Q, quat_cast of it has no NaN or infinity and is within 6*d + 30*2^-24 of Q or of -Q, whichever of its four branches runs; mat3_cast(quat_cast(m)) then differs from m by at most 27*d + 150*2^-24 in every entry. For a quaternion q of norm 1 up to 2^-20, quat_cast(mat3_cast(q)) and quat_cast(mat4_cast(q)) are within 2^-14 of q or of -q. quatLookAtRH(d, up) and quatLookAtLH(d, up), for d of length 1 up to 2^-20 and an up whose angle to d has a sine s >= 2^-11, are within 440*2^-24/s of the unit quaternion (up to sign) whose rotation sends the x, y and z axes to the side, upward and backward directions (RH) or to minus the side, the upward and the forward direction (LH).", "quantifier": "all finite matrices that close to a rotation; all finite quaternions of norm 1 up to 2^-20; all finite directions d of length 1 up to 2^-20 and finite up of length 2^-30 to 2^60 at that angle", "why_tests_cant": "Which branch runs depends on rounding near the ties, and three of the four would divide by a small number; the bound is over all rotations.", "anchors": ["src/quaternion.cpp:quat_cast", "src/quaternion.cpp:mat3_cast", "src/quaternion.cpp:mat4_cast", "src/quaternion.cpp:quatLookAtRH", "src/quaternion.cpp:quatLookAtLH"]}
{"id": "C107", "title": "Undoing rotations is accurate in float arithmetic", "statement": "In IEEE float: conjugate makes no rounding error. inverse(q) has no NaN or infinity and is within 5.1*2^-24 (relative to its norm) of the exact inverse; q*inverse(q) and inverse(q)*q are within 2^-15 of the identity. For q of norm 1 up to 2^-20, vec * quat is within 2^-15*|v| of the vector exactly rotated back, and (q*v)*q and q*(v*q) are within 2^-14*|v| of v.", "quantifier": "all finite quaternions of norm 2^-50 to 2^50 (the rotations: of norm 1 up to 2^-20); all finite vectors of length 2^-99 to 2^119", "why_tests_cant": "The bound is over all rotations and vectors; a test sees a handful of either.", "anchors": ["src/quaternion.cpp:conjugate", "src/quaternion.cpp:inverse", "src/quat.cpp:operator*"]}
{"id": "C108", "title": "The rotation between two directions is accurate in float arithmetic", "statement": "In IEEE float, for finite u and v, not necessarily of the same length: quat(u, v) has no NaN or infinity and norm 1 up to 2^-20, for all directions including parallel and opposite ones. Writing h for the cosine of half the angle between u and v: for h >= 2^-10 it is within 27*2^-24/h of the rotation through the smallest angle that turns u to the direction of v, and quat(u, v) * u as computed is within 273*2^-24/h*|u| of the vector of length |u| in the direction of v. For h <= 2^-12 it is, up to 2^-20, a half turn about an axis perpendicular to u, which reverses u. In every case the rotation turns the direction of u to within 2^-7 of that of v.", "quantifier": "all finite u and v of length 2^-18 to 2^30, at every angle", "why_tests_cant": "Near opposite directions the result is dominated by cancellation and by which side of the threshold the rounded numbers fall; only a bound over all pairs covers the whole transition.", "anchors": ["src/quat.cpp:quat::quat(vec3 u, vec3 v)", "src/quat.cpp:operator*", "src/quaternion.cpp:normalize"]}
{"id": "C109", "title": "Long products of matrices are accurate in float arithmetic", "statement": "In IEEE float, for a chain of up to 2^15 finite matrices whose partial products of operator norms stay within 2^-100..2^100: m0*m1*...*mn has no NaN or infinity and is within n*18*2^-24 times the product of the norms (in the operator norm) of the exact product; applying the matrices to a vector one after the other is within n*18*2^-24 of applying the exact product; multiplying the matrices first and applying the result differs from applying one after the other by at most (n+1)*36*2^-24 times the product of the norms and the length of the vector. The product of up to 2^12 matrices mat3_cast(q) of quaternions of norm 1 up to 2^-20 has its columns within (n+1)*2^-15 of the basis vectors exactly rotated by the Hamilton product of the quaternions.", "quantifier": "all lists of finite mat2, mat3 or mat4 of these lengths and sizes; all vectors of matching size; all lists of such quaternions", "why_tests_cant": "Errors accumulate over the whole history of multiplications; a test fixes one short list.", "anchors": ["src/mat2.cpp:operator*", "src/mat3.cpp:operator*", "src/mat4.cpp:operator*", "src/quaternion.cpp:mat3_cast"]}
{"id": "C110", "title": "The octahedral encoding is accurate in float arithmetic", "statement": "In IEEE float, for every finite v with |x|+|y|+|z| in 2^-100..2^100: both components of encode_octahedral(v) are finite and in [-1,1]; the point of the octahedron the published octahedral map puts at that position is within 12*2^-24 (each component) of the exact v/(|x|+|y|+|z|), in both hemispheres; decode_octahedral(e) for finite e with |x|+|y| <= 1 is within 2^-20 of the exact direction of that position; decode_octahedral(encode_octahedral(v)) is within 2^-19 of the exact direction of v.", "quantifier": "all finite vec3 of these sizes, all finite positions", "why_tests_cant": "Rounding can push a point across the fold of the square, where the decoder takes another branch; about a quarter of the vectors on the equator do this, and a test on a few nice directions hits none.", "anchors": ["src/geometric.cpp:encode_octahedral", "src/geometric.cpp:decode_octahedral"]}
{"id": "C111", "title": "Normalised components never exceed 1, and axis and angle are accurate in float arithmetic", "statement": "In IEEE float: no component of normalize(v) exceeds 1 in absolute value, for vec2, vec3, vec4 and quat, although normalize rounds several times. So angle(normalize(q)) is never NaN: it is finite, the cosine of half of it is within 2^-20 of the exact w/|q|, and it lies in [0, 2*pi] up to 2^-20 (a product of normalised quaternions, however, can have w > 1 and then angle is NaN). axis(q) is finite whenever |w| <= 1, also next to the identity. For q of norm 1 up to 2^-20 with |w| <= 1 and 1-w^2 >= 2^-18, the exact rotation by the computed angle about the computed axis is within 2^-19 + 2^-20/s of q, s the sine of half the angle, and angleAxis(angle(q), axis(q)) is within 2^-18 + 2^-20/s of q.", "quantifier": "all finite vectors and quaternions of length 2^-50 to 2^63 (normalize, angle); all finite quaternions with |w| <= 1 (axis); all C libraries whose acosf is within 2^-21 on [-1,1] and sinf, cosf within 2^-23", "why_tests_cant": "One float above 1 among all normalised vectors would turn an angle into NaN; no sample of vectors excludes it.", "anchors": ["src/quaternion.cpp:normalize", "src/geometric.cpp:normalize", "src/quaternion.cpp:angle", "src/quaternion.cpp:axis", "src/quaternion.cpp:angleAxis"]}
{"id": "C112", "title": "Euler angles and quaternions are inverse to each other in float arithmetic", "statement": "In IEEE float, with accurate sinf, cosf, asinf and atan2f: quat(eulerAngles(q)) is q or -q, the same rotation, for every unit quaternion q, to within 2^-16/cos(yaw); the other way round, eulerAngles(quat(pitch, yaw, roll)) returns the angles given, up to whole turns, to within 2^-15/cos(yaw), for |yaw| <= 90 degrees. The angles are never NaN, also at gimbal lock and also for quaternions that are not normalised; the yaw is in [-pi/2, pi/2], the roll in [-pi, pi] and the pitch in [-2pi, 2pi], up to 2^-20.", "quantifier": "all finite quaternions of norm 1 up to 2^-20 (round trip); all finite Euler angles with cos(yaw) >= 2^-10 (extraction); all finite quaternions with components up to 2^40 (no NaN); all C libraries whose asinf is within 2^-22, atan2f within 2^-21, sinf and cosf within 2^-23", "why_tests_cant": "The error grows towards gimbal lock, where pitch switches to another formula on an exact test for 0; whether rounding defeats that test depends on the last bits of the quaternion.", "anchors": ["src/quaternion.cpp:pitch", "src/quaternion.cpp:yaw", "src/quaternion.cpp:roll", "src/quaternion.cpp:eulerAngles", "src/quat.cpp:quat"]}
{"id": "C113", "title": "Splitting a transform into scale, rotation and translation is accurate in IEEE arithmetic", "statement": "decompose_orthogonal(M, scale, orientation, translation), computed in IEEE binary32, copies the translation of M bit for bit. If the first three columns of M are those of a rotation Q times scales that are all positive or all negative, each column up to an error delta relative to its scale (delta at most 2^-8), then the returned scales have the right signs and are off by at most delta + 5/2^24 relatively, and the returned orientation is within 12 delta + 67/2^24 of Q or of -Q. So for M computed as translate(mat4(), t) * mat4_cast(q) * scale(mat4(), s) with q of norm 1 up to 2^-20, the call returns exactly t, s to within 2^-16 relatively and q or -q to within 2^-13; and putting the returned parts together again reproduces M: the translation exactly, the other entries to within 53 delta + 320/2^24 of the scale of their column.", "quantifier": "every binary32 matrix near a rotation times uniformly signed scales between 2^-49 and 2^62, every finite translation, every previous content of the orientation argument", "why_tests_cant": "The bound must hold for every rotation, every combination of scales and every branch of the matrix-to-quaternion conversion; the worst case depends on which of four diagonal terms is largest and on all roundings of a chain of about sixty operations.", "anchors": ["include/zcm/matrix_transform.hpp: decompose_orthogonal", "src/matrix_transform.cpp: decompose_orthogonal", "src/quaternion.cpp: mat4_cast"]}
{"id": "C114", "title": "Floored remainders in IEEE arithmetic", "statement": "For binary32 numbers, mod(x, y) with |x| at most 2^24 |y| is x - n y up to (|x| + 4|y|)/2^24 + 2^-148, where n is the floor of x/y, or the next integer if x is within |x|/2^24 of that multiple of y; so for positive y the result lies in [0, y] up to (2|x| + 5y)/2^24 + 2^-148 and is congruent to x modulo y up to the same error. A number already in [0, y) is returned unchanged, and integers of magnitude up to 2^23 give the exact floored remainder. The tolerance is needed: mod(27, 0.3f) is negative and mod(-1e-10f, 1) is 1.", "quantifier": "every pair of finite binary32 numbers with |x| up to 2^126, |y| up to 2^125 and |x| at most 2^24 |y| (the first two parts); every pair with 0 <= x < y (unchanged); every pair of integer-valued numbers of magnitude up to 2^23, the divisor not 0", "why_tests_cant": "The quotient is rounded before it is floored, so whether the right multiple is subtracted depends on the distance of x/y from an integer in the 24th bit; no sample of pairs covers these boundary cases.", "anchors": ["include/zcm/common.hpp: mod", "src/common.cpp: mod, floor"]}
{"id": "C115", "title": "Perpendicular vectors in IEEE arithmetic", "statement": "For every finite binary32 vector v, orthogonal(v) is exactly perpendicular to v, not longer than v and at least |v|/sqrt(2) long, and the computed dot(orthogonal(v), v) is 0 unless a product overflows. orthogonal_branchless(v) is perpendicular up to rounding (the exact inner product is at most 2^-23 |v|^2 + 2^-147 |v|), and for v of length 1 up to 2^-20 it is at least 1/3 long, so that it can be normalised safely.", "quantifier": "every finite binary32 vector (components up to 2^100 for the branchless version; length 1 up to 2^-20 for its length)", "why_tests_cant": "The branchless version multiplies by a fractional part that jumps at |x| = 1/2, exactly where the result is shortest; the bound has to hold on both sides of the jump and for every rounding.", "anchors": ["include/zcm/geometric.hpp: orthogonal, orthogonal_branchless", "src/geometric.cpp: orthogonal, orthogonal_branchless", "src/common.cpp: fract"]}
{"id": "C116", "title": "sRGB conversions in IEEE arithmetic", "statement": "With a powf whose relative error is at most 2^-22: for components from 0 to 1.01 convertSRGBToLinear(c) is the standard's decoding curve up to 20*2^-24 relative (plus 2^-150 for underflow), and convertLinearToSRGB(c, 1/2.4f) is the standard's encoding curve of the component cut off to [0, 1], up to 2^-20. Decoding and encoding again gives a component of [0, 1] back to within 2^-18, encoding and decoding to within 2^-17, also across the seam between the two formulas. So colour codes of up to 16 bits survive decoding, encoding and rounding. The overload without exponent is within 1/1000 of the standard's curve from 0.0031308 up and within 0.041 on the rest of [0, 1].", "quantifier": "every finite binary32 component in the stated range, every float exponent within 2^-26 of 1/2.4, every code k of every N up to 65535, every powf with the stated accuracy", "why_tests_cant": "The curve has a power with an irrational result, two formulas with a seam that does not meet exactly, and a fit by square roots; the round trip has to hold for every float and the distance of the fit on an interval.", "anchors": ["include/zcm/color_space.hpp: convertLinearToSRGB, convertSRGBToLinear", "src/color_space.cpp: convertLinearToSRGB, convertSRGBToLinear"]}
{"id": "C117", "title": "World coordinates back to local coordinates in IEEE arithmetic", "statement": "For a transform (last row 0 0 0 1, three axes perpendicular up to 1/100 with lengths from 2^-16 to 2^20, translation up to 2^20), every point P has exactly one triple of local coordinates x, and inverse(m) * vec4(P, 1) gives them: coordinate i up to 104*2^-24 * (|P| + |translation|) / |axis i|, and 1 up to 104*2^-24. For directions, inverse(m) * vec4(P, 0), the translation plays no part. Local to world to local and world to local to world return the point within 227*2^-24 resp. 442*2^-24 of the sizes involved. The error of a coordinate depends on its own axis only, so strongly non-uniform scale does no harm. inverseTranspose(mat3) * n has, with the image of any direction x, the scalar product n . x up to 312*2^-24 of the lengths: normals stay perpendicular to their surface and on the same side.", "quantifier": "every float matrix that is such a transform, every finite float point with |P| up to 2^40, every real triple of local coordinates, every float normal of length 2^-20 to 2^20", "why_tests_cant": "The inverse goes through 24-term cofactors and a division; that nothing essential cancels follows from the axes being nearly perpendicular, which has to be used for every such matrix at once.", "anchors": ["include/zcm/matrix.hpp: inverse, inverseTranspose", "src/matrix.cpp: inverse, inverseTranspose", "src/mat4.cpp: operator*", "src/mat3.cpp: operator*"]}
{"id": "C118", "title": "Perspective projections can be undone in IEEE arithmetic", "statement": "For a perspective matrix M of any of the four conventions, with an opening angle, aspect ratio and planes that are not extreme (2 zNear <= zFar <= 65536 zNear), every entry of inverse(M) is within relative 15*2^-24 of the entry of the exact inverse of the ideal projection matrix. Multiplying inverse(M) by normalised device coordinates and dividing by the fourth component gives the one point between the planes with these coordinates, each coordinate up to relative 128*2^-24 * d/zNear, d being the distance from the camera. The same bound holds for a float point that is projected by M, divided, and sent back through inverse(M): projecting and unprojecting returns the point.", "quantifier": "every fovy, aspect, zNear, zFar as described, every float point between the two planes with |x|, |y| up to 2^40, every float triple of device coordinates that is the projection of such a point with |x|, |y| up to 2^60, debug and release builds, every C library whose tanf has relative error at most 2^-22", "why_tests_cant": "The loss of accuracy with distance is a property of all pairs of planes and all depths; which part is due to the depth coordinate and which to the inversion cannot be separated by sampling.", "anchors": ["src/matrix_transform.cpp: perspectiveRH_ZO, perspectiveRH_NO, perspectiveLH_ZO, perspectiveLH_NO", "src/matrix.cpp: inverse(mat4)", "src/mat4.cpp: operator*(mat4, vec4)"]}
{"id": "C119", "title": "Reciprocal square roots and component sums and products in IEEE arithmetic", "statement": "For every positive finite float x, subnormal numbers included, inversesqrt(x) is finite and within relative 2.001*2^-24 of 1/sqrt(x); it never increases when x grows; +infinity gives 0, a zero gives the infinity of its sign, NaN and every negative number give NaN. inversesqrt(x)*sqrt(x) is within 4.01*2^-24 of 1 and sqrt(x)*sqrt(x) within relative 3.01*2^-24 of x. compAdd of n finite components makes at most n-1 roundings relative to the sum of the magnitudes and never decreases when no component decreases. compMul makes at most n-1 roundings relative to the product as long as no partial product overflows or underflows.", "quantifier": "every binary32 argument, every vec2, vec3, vec4 and quat", "why_tests_cant": "The bound and the ordering hold for each of 2^31 arguments and for all pairs of them; for sums of four components the number of inputs is 2^128.", "anchors": ["src/exponential.cpp: inversesqrt, sqrt", "src/component_wise.cpp: compAdd, compMul"]}
{"id": "C120", "title": "A point seen through lookAt and perspective lands where geometry says in IEEE arithmetic", "statement": "Let o be the exact vector from the eye to a float point p in front of the camera, d its component along the direction of view, and size = |p| + |eye|. Whether the product perspective*lookAt is formed first and applied to (p, 1) or the two matrices are applied one after the other, the fourth component is d up to 49*2^-24*size; the first two components divided by it are <side,o>/(aspect*tan(fovy/2)*d) and <up,o>/(tan(fovy/2)*d), up to 150*2^-24/sigma * size/d * (focal length + |value|), sigma being the sine of the angle between the direction of view and up; and the third divided by it is the exact depth at distance d, between 0 and 1 (ZO) or -1 and 1 (NO), up to 128*2^-24 * size/d times the sum of the magnitudes of its two terms. In particular the point looked at lands in the middle of the screen, and both orders of multiplication agree up to twice these bounds.", "quantifier": "every eye, center, up, point, fovy, aspect, zNear, zFar: finite floats, nothing absurdly large or small, up at least 2^-16 away from the direction of view, d at least 2^-30 and at least size/65536; all four conventions (right- and left-handed, ZO and NO); debug and release builds; every C library whose tanf has relative error at most 2^-22", "why_tests_cant": "The input is a camera with thirteen floats and a point with three; the error depends on the position of the camera relative to the origin, the inclination of up and the distance, and no sample covers all combinations.", "anchors": ["src/matrix_transform.cpp: lookAtRH, lookAtLH", "src/matrix_transform.cpp: perspectiveRH_ZO, perspectiveRH_NO, perspectiveLH_ZO, perspectiveLH_NO", "src/mat4.cpp: operator*(mat4, mat4), operator*(mat4, vec4)"]}
{"id": "C121", "title": "Projections and the order of points in IEEE arithmetic", "statement": "An orthographic projection with left < right, bottom < top, zNear < zFar never reverses an order: for points p, q with p.x <= q.x the computed first component for p is <= that for q, likewise for y, and for z in the direction of the convention. Under a perspective projection two points at the same z are never swapped on the screen in either direction (after the division), and their computed depths are equal numbers, whatever x and y. Of two points at distances d < d' with d' - d >= 8*2^-24*(2 d d'/zNear + d + d'), the nearer one gets a strictly smaller depth. Seen through lookAt, the same holds when zNear*(d' - d) >= 129*2^-24*(S (d + zNear) d'/d + S' (d' + zNear) d/d'), S and S' being |p| + |eye| and |q| + |eye|.", "quantifier": "all pairs of float points, boxes, lenses and cameras with finite numbers that are not absurdly large or small; all conventions (right- and left-handed, ZO and NO); debug and release builds; every C library whose tanf has relative error at most 2^-22", "why_tests_cant": "An order of all pairs of points is a statement about 2^192 inputs for each matrix; depth tests fail exactly for rare pairs that are nearly at the same distance, which sampling does not hit.", "anchors": ["src/matrix_transform.cpp: ortho, orthoLH_ZO, orthoLH_NO, orthoRH_ZO, orthoRH_NO, perspectiveRH_ZO, perspectiveRH_NO, perspectiveLH_ZO, perspectiveLH_NO, lookAtRH, lookAtLH", "src/mat4.cpp: operator*(mat4, mat4), operator*(mat4, vec4)"]}
{"id": "C122", "title": "Angles, Cauchy-Schwarz and the triangle inequality in float arithmetic", "statement": "For vec2, vec3 and vec4 whose exact lengths lie between 2^-50 and 2^63, in binary32: dot(normalize(a), normalize(b)) is the cosine of the angle between a and b up to 17/2^24. acos(clamp(dot(normalize(a), normalize(b)), -1, 1)) is never NaN and is the angle up to 2^-8, and up to 27/2^24 divided by the sine of the angle when that sine is at least 2^-6, for every C library whose acosf is accurate on [-1, 1]. Without the clamp it can be NaN: dot(normalize(v), normalize(v)) exceeds 1 for v = (1, 4). |dot(a, b)| is at most length(a)*length(b) up to the factor 1 + 13/2^24. The sign of dot(a, b) is right when the cosine is at least 5/2^24 away from 0. distance(a, c) is at most distance(a, b) + distance(b, c) up to the factor 1 + 11/2^24, and distance orders two points correctly when their exact distances differ by that factor. cross(a, b) has the length |a||b| sin(angle) and is perpendicular to a and b up to 4.002/2^24 of the product of the lengths.", "quantifier": "all pairs and triples of finite float vectors in the stated ranges, every accurate acosf", "why_tests_cant": "the bounds concern rounding errors over a domain of up to 2^256 pairs of vectors; the worst cases are near-parallel vectors, which sampled tests miss", "anchors": ["src/geometric.cpp: dot, cross, normalize, length, distance", "src/common.cpp: clamp", "src/angle_and_trigonometry.cpp: acos"]}
{"id": "C123", "title": "Triangle normals and planes in IEEE arithmetic", "statement": "In binary32, for a triangle with finite corners a, b, c whose two edges at a are between 2^-16 and 2^31 long and enclose an angle of sine s >= 2^-16: normalize(cross(b - a, c - a)) is finite and within 19/(2^24 s) of the exact unit normal, length(cross(b - a, c - a)) is twice the area up to 11/2^24 of the product of the edges, and dot(normal, p - a) is the signed distance of p from the plane of the triangle up to 24/(2^24 s) of the distance of p from a, so its sign tells the side of the plane unless p is closer to the plane than that. For every bit pattern of the corners, exchanging two corners negates every component of the computed normal exactly, up to the sign of a zero.", "quantifier": "all triangles of finite float corners in the stated ranges, all finite points p; all bit patterns for the exchange of corners", "why_tests_cant": "rounding errors of differences, products, a square root and a division accumulate; whether the computed normal can point to the wrong side for some thin triangle is a question about 2^288 inputs", "anchors": ["src/geometric.cpp: cross, normalize, dot, length", "src/vec3.cpp: operator-"]}
{"id": "C124", "title": "Dividing by a matrix solves linear systems in IEEE arithmetic", "statement": "For mat2, mat3 and mat4 in binary32, with finite entries of magnitude at most B (1 <= B <= 2^30) and fewer than 18 bits cancelling in the determinant: m / v is the solution x of m * x = v, v / m the solution of x * m = v, a / b the solution of x * b = a, and m * inverse(m) (which equals m / m) and inverse(m) * m are the identity, every component up to 2^-18 of the sum of the magnitudes of the terms of Cramer's rule times the factor by which the determinant cancels, plus an underflow term.", "quantifier": "all matrices and right-hand sides of finite floats with the stated bounds, all components, all exact solutions", "why_tests_cant": "the error depends on cancellation in determinant and minors; the claim bounds it for every matrix, not for the well-conditioned ones a test would choose", "anchors": ["src/mat2.cpp: operator/", "src/mat3.cpp: operator/", "src/mat4.cpp: operator/", "src/matrix.cpp: inverse"]}
{"id": "C125", "title": "Placing points with a transform in IEEE arithmetic", "statement": "For a position t, a quaternion q with | |q| - 1 | <= 2^-20, a scale s and a point p of finite floats of moderate size: translate(mat4(), t) * mat4_cast(q) * scale(mat4(), s) applied to vec4(p, w) (|w| <= 1, so w = 1 for points and w = 0 for directions) is the exact w * t + R(q)(s * p) in every component up to 2^-16 of |s.x p.x| + |s.y p.y| + |s.z p.z| plus 5/2^24 of |w t_r| plus a tiny absolute term. Its last component equals w. The direct computation t + q * (s * p) is the same point up to 2^-15 of that sum and 2/2^24 of |t_r|. Hence the two ways of placing a point agree up to the sum of the two errors.", "quantifier": "all finite positions, almost unit quaternions, scales and points in the stated ranges, all components", "why_tests_cant": "a product of three matrices and a vector rounds more than a hundred times; whether the errors stay proportional to the size of the rotated part, for every orientation and scale, is a question about 2^416 inputs", "anchors": ["src/matrix_transform.cpp: translate, scale", "src/quaternion.cpp: mat4_cast", "src/mat4.cpp: operator*(mat4, mat4), operator*(mat4, vec4)", "src/quat.cpp: operator*(quat, vec3)"]}
{"id": "C126", "title": "Clipping decisions on perspective coordinates in IEEE arithmetic", "statement": "For every perspective matrix of a proper lens and every point in front of the camera at distance d, the comparisons a rasteriser makes on the computed clip coordinates (-w <= x <= w, -w <= y <= w, and 0 <= z <= w or -w <= z <= w) come out as the exact geometry says whenever the point is inside or outside the side planes by a factor 1 + 9/2^24, the near plane by 7/2^24 of d + near, and the far plane by 7/2^24 of far (d + near) / near. A point behind the camera fails every one of the tests, for all parameters that yield a matrix at all.", "quantifier": "all lenses and points of finite floats in the stated ranges; all finite points behind the camera and all parameters; the four conventions; debug and release builds; every C library whose tanf has relative error at most 2^-22", "why_tests_cant": "a wrong clipping decision shows only for points very close to a plane of the frustum, which no sample of points hits for all lenses", "anchors": ["src/matrix_transform.cpp: perspectiveRH_ZO, perspectiveRH_NO, perspectiveLH_ZO, perspectiveLH_NO", "src/mat4.cpp: operator*(mat4, vec4)"]}
{"id": "C127", "title": "Debug and release builds agree", "statement": "Assertions only stop a program, they never change what it computes. For every program of statements on variables of one type (vec, ivec, bvec, mat, quat), with any indices and in any order: a release build never stops at an assertion, and unless the debug build stops at one, both builds give the same final objects and the same outputs, or both have undefined behaviour. The same holds for every function that asserts. The arguments for which a debug build stops are exactly: null pointers for make_* (a release build then has undefined behaviour), a t outside [0, 1] or NaN for lerp and nlerp, and the aspects NaN and 2^-23 for the perspective functions (a release build returns a value).", "quantifier": "all programs of any length, all variables, indices and values, both builds; all float arguments (NaN and infinities included)", "why_tests_cant": "a test suite is run in one build, on programs and arguments somebody chose; that no assertion hides or changes behaviour is a statement about all programs", "anchors": ["src/vec2.cpp: operator[], make_vec2", "src/mat4.cpp: operator[], make_mat4", "src/quat.cpp: operator[], make_quat", "src/quaternion.cpp: lerp, nlerp", "src/matrix_transform.cpp: perspectiveRH_ZO, perspectiveRH_NO, perspectiveLH_ZO, perspectiveLH_NO"]}
{"id": "C128", "title": "Turning and moving keeps dot products, cross products and distances in IEEE arithmetic", "statement": "For a quaternion q with | |q| - 1 | <= 2^-20 and vectors a, b of finite floats with lengths between 2^-50 and 2^59, in binary32: dot(q * a, q * b) is the exact dot product of a and b up to 3/2^16 of |a||b|. cross(q * a, q * b) is the exact cross product of a and b, exactly rotated by q, up to 3/2^16 of |a||b|. distance(t + q * a, t + q * b) is the exact distance of a and b up to 2/2^16 of |a| + |b| and 3/2^24 of |t|, for points that are not closer than twice that.", "quantifier": "all almost unit quaternions, all vectors and translations of finite floats in the stated ranges", "why_tests_cant": "that a rigid motion preserves shapes is a statement about all pairs of vectors and all orientations; rounding errors differ for each", "anchors": ["src/quat.cpp: operator*(quat, vec3)", "src/geometric.cpp: dot, cross, distance", "src/vec3.cpp: operator+"]}
{"id": "C129", "title": "Circles, polar coordinates, exponentials and logarithms in IEEE arithmetic", "statement": "If the C library's functions are accurate (sinf, cosf within 2^-23; atan2f, acosf within 2^-21; asinf within 2^-22; expf, logf within relative 2^-22), then in binary32: sin(x)*sin(x) + cos(x)*cos(x) is within 2^-21 of 1 for every finite x. For a vec2 p of length between 2^-50 and 2^63, length(p) * cos(atan(p.y, p.x)) and length(p) * sin(atan(p.y, p.x)) are the components of p up to 16/2^24 of the length. length(vec2(r*cos(t), r*sin(t))) is r up to 16/2^24. sin(asin(x)) and cos(acos(x)) are x up to 2^-20. sin(radians(x)) and cos(radians(x)) are the sine and cosine of x degrees up to 2^-22 plus 2^-23 of the angle. exp(log(x)) is x up to relative (|log x| + 1)/2^21 for x between 2^-90 and 2^90, and log(exp(x)) is x up to (|x| + 2)/2^22 for |x| <= 60.", "quantifier": "all finite floats and vectors in the stated ranges, all accurate C libraries", "why_tests_cant": "the relations hold only up to accumulated rounding errors, which differ for each of the 2^32 (or 2^64) arguments and for each C library", "anchors": ["src/angle_and_trigonometry.cpp: sin, cos, asin, acos, atan, radians", "src/exponential.cpp: exp, log", "src/geometric.cpp: length(vec2)"]}
{"id": "C130", "title": "Transposes, columns and linearity of matrix products in IEEE arithmetic", "statement": "In binary32, bit for bit and for all entries including NaN and infinities: transpose(A*B) is transpose(B)*transpose(A) for mat2, mat3 and mat4. v*M has as components the dot products of the columns of M with v, and for mat2 and mat3 it is transpose(M)*v. The columns of A*B are A applied to the columns of B for mat2 and mat3, and the columns of B times transpose(A) for mat4. For mat4 the column of A*B and A times the column of B can differ, because mat4*vec4 adds its four terms in pairs, but by at most 9/2^24 of the sum of the magnitudes of the terms. M*(a+b) and M*a + M*b, (M+N)*a and M*a + N*a, L*(M+N) and L*M + L*N, and the same with differences, are finite and agree up to 11/2^24 of the sum of the magnitudes of all terms, as long as that sum is at most 2^125 and the operands of the sum are at most 2^126.", "quantifier": "all matrices and vectors of binary32 numbers (for the approximate laws: finite and in the stated range)", "why_tests_cant": "whether two orders of evaluation round the same way depends on all sixteen entries; samples with small integers always agree", "anchors": ["src/mat2.cpp, src/mat3.cpp, src/mat4.cpp: operator*(mat, mat), operator*(mat, vec), operator*(vec, mat), operator+, operator-", "src/matrix.cpp: transpose", "src/geometric.cpp: dot"]}
{"id": "C131", "title": "Long sums, products and counters in IEEE arithmetic", "statement": "In binary32, for lists of any length: after p += v for every v of a list of vec2, vec3, vec4 (or x += a for a list of variables of type quat, mat2, mat3, mat4 other than x), each component is finite unless the magnitudes add up to about 2^127, and whenever it is finite it differs from the exact sum by at most (1 + 2^-24)^n - 1 times the sum of the magnitudes, n being the number of additions. Dividing by the number of vectors gives the mean with one rounding error more. After p *= s for every s of a list of up to 2^20 floats, each component is within relative (1 + 2^-24)^n - 1 of the exact product, as long as the exact partial products stay between 2^-100 and 2^100. After n times ++v or v++ starting at zero each component is exactly min(n, 16777216): a float counter stops.", "quantifier": "all lists of any length, all binary32 numbers (including overflow), all numbers of rounds", "why_tests_cant": "the error grows with the length of the loop, which is unbounded; a counter is wrong only after 16777216 rounds", "anchors": ["include/zcm/detail/impl_op_macro.hpp, src/vec2.cpp, src/vec3.cpp, src/vec4.cpp: operator+=, operator*=, operator/, operator++", "src/quat.cpp, src/mat2.cpp, src/mat3.cpp, src/mat4.cpp: operator+="]}
{"id": "C132", "title": "Bounding boxes of any number of points, and the nearest point of a box", "statement": "A loop lo = min(lo, p), hi = max(hi, p) over any number of vec2/3/4 points computes the bounding box: in IEEE arithmetic each component of lo (hi) is one of the points' components and is at most (at least) every one of them that is not a NaN; a NaN in a later point is skipped, a NaN in the first point stays. The order of the points does not matter (results compare equal), and clamp(p, lo, hi) returns every one of the points bit for bit. clamp(p, lo, hi) is the point of the box nearest to p, both in exact distance and in the values that distance and length2 compute with rounding. The same box property holds for ivec2/3/4, exactly.", "quantifier": "every first point and every list of points of any length (infinities and NaN included where stated), every permutation of them, every finite p, lo, hi and every finite q in the box, every component", "why_tests_cant": "The loop runs over any number of points and every float value, NaN and infinities included; the nearest-point claim compares against every other point of the box. A test checks a few points.", "anchors": ["src/common.cpp: min, max, clamp (float, vec2, vec3, vec4, ivec2, ivec3, ivec4)", "src/geometric.cpp: distance, length2"]}
{"id": "C133", "title": "Results that carry no rounding error at all", "statement": "In IEEE arithmetic: sqrt(x*x) is |x| bit for bit whenever 2^-63 <= |x| < 2^64, and these limits are real. So length of a vec2/3/4 or quat along a coordinate axis is exactly the magnitude of its component, and distance of two points that differ in one coordinate is exactly the magnitude of that difference. normalize of such a vector keeps the zeros bit for bit and gives 1 or the number just below 1 (exactly 1 for powers of two; 41 is an example of the other case), while normalize(quat) gives exactly 1 or -1. Subtracting numbers within a factor of two of each other is exact, and a difference is zero only if the numbers are equal. A midpoint (a+b)/2 lies between a and b in every component and has the same bits as (a+b)*0.5.", "quantifier": "every finite float x with 2^-63 <= |x| < 2^64, every axis, zeros of either sign, all finite pairs of vectors (with the sum not overflowing for midpoints)", "why_tests_cant": "Exactness has to hold for every one of the billions of floats in range; a test checks a handful, usually small integers for which rounding plays no role.", "anchors": ["src/geometric.cpp: length, distance, normalize, dot", "src/exponential.cpp: sqrt, inversesqrt", "src/vec2.cpp, src/vec3.cpp, src/vec4.cpp: operator-, operator+, operator/, operator*"]}
{"id": "C134", "title": "Transforming commutes with interpolating in IEEE arithmetic", "statement": "In IEEE arithmetic, transforming mix(a, b, t) gives the same point as mix of the transformed ends: for mat2/3/4 times a vector, a vector times a mat2/3/4 and dot with a fixed vector, every component of M*mix(a,b,t) and mix(M*a,M*b,t) is finite and they differ by at most 15 units of 2^-24 of the sum of the magnitudes of all terms (plus a tiny amount for underflow). For a quaternion as normalize returns it, q*mix(a,b,t) and mix(q*a,q*b,t) are finite and within 2^-14 (|a|+|b|) of each other.", "quantifier": "all finite matrices and vectors whose products stay below 2^123, all parameters t between 0 and 1, all quaternions with norm within 2^-20 of 1 and vectors of length between 2^-100 and 2^118", "why_tests_cant": "Both sides are different sequences of roundings; that they agree for every matrix, pair of points and parameter is a statement about all executions, and cancellation makes random tests with a fixed relative tolerance fail or pass by luck.", "anchors": ["src/common.cpp: mix", "src/mat2.cpp, src/mat3.cpp, src/mat4.cpp: operator*", "src/geometric.cpp: dot", "src/quat.cpp: operator*(quat, vec3)"]}
{"id": "C135", "title": "Turns about one axis add up in IEEE arithmetic", "statement": "In IEEE arithmetic, after any number n <= 2^15 of calls of rotate with the same axis (on an orientation quaternion or on a mat4) the result is that of one turn by the sum of the angles, up to an error linear in n: n/2^13 for quaternions and n/2^15 of the length of a row for matrices. So rotate(rotate(q,a,v),b,v) agrees with rotate(q,a+b,v), turning step by step agrees with turning once by the accumulated angle, the order of the turns does not matter, and after angles that add up to k full turns a matrix is back where it was and a quaternion is (-1)^k times what it was.", "quantifier": "all finite angles of any size, all axes of length between the limits of normalize, all near-unit quaternions, all matrices with rows of length between 2^-98 and 2^119, all lists of up to 2^15 calls; for every C library whose sinf and cosf are within 2^-23", "why_tests_cant": "The claim is about histories of calls of any length and every combination of angles; errors accumulate over the history, so a test on short sequences says nothing about long ones.", "anchors": ["src/quaternion.cpp: rotate, angleAxis", "src/matrix_transform.cpp: rotate"]}
{"id": "C136", "title": "Rays that meet many mirrors, and light going backwards", "statement": "In IEEE arithmetic a ray reflected by reflect in any sequence of n <= 2^15 mirrors stays finite, is within n/2^15 of its length of the exactly reflected ray, and keeps its length to the same accuracy; reflecting twice in the same mirror gives the ray back; two rays reflected in the same mirror enclose the angle they enclosed before. In exact arithmetic refraction is reversible: the ray refract gives, sent back through the surface with the inverse ratio of indices, leaves along the original ray, and a ray through a plane-parallel plate leaves in the direction it came from.", "quantifier": "all rays of length between 2^-98 and 2^59, all lists of up to 2^15 normals of length about 1; for refraction all unit rays and normals facing each other and all positive ratios without total reflection; vec2, vec3, vec4", "why_tests_cant": "The first part is about histories of calls of any length, over which errors accumulate; the second must hold for every direction, normal and ratio.", "anchors": ["src/geometric.cpp:reflect", "src/geometric.cpp:refract"]}
{"id": "C137", "title": "Curves and smoothing by repeated mix", "statement": "Programs that call mix again and again are accurate in IEEE arithmetic. A point of a Bezier curve of any degree n <= 2^15 computed by de Casteljau's scheme (mix of neighbouring control points, level by level) is finite, within n*2^-21 of the exact curve relative to the largest control value, leaves the range of the control values by no more than that, and is exactly the first control point at parameter 0. A value that follows a sequence of n targets by x = mix(x, target, t) is within n*2^-21 of what exact arithmetic gives. Following a target that stands still settles: after any number of steps, without limit, the distance is at most (1-t/2)^n of the starting distance plus a rest of 2^-23/t of the target's size that does not grow.", "quantifier": "all control points and targets up to 2^123, all parameters in [0,1] (at least 2^-20 for settling), all degrees and sequences up to 2^15, any number of steps for settling; float, vec2, vec3, vec4", "why_tests_cant": "The claims are about sequences of calls of any length and every combination of values; rounding errors accumulate over the sequence, and that they stay bounded for ever cannot be seen in finitely many runs.", "anchors": ["src/common.cpp:mix"]}
{"id": "C138", "title": "Tangent frames in IEEE arithmetic", "statement": "The frame a renderer builds from a normal n of length about 1 and a rough tangent direction t, by t' = normalize(t - n*dot(n,t)) and b = cross(n,t'), is accurate in IEEE arithmetic: t' and b are finite, within 83/2^24 and 105/2^24 (divided by the sine of the angle between n and t) of the exact perpendicular unit vectors, the tangent on the side of t, the frame right-handed; so the computed vectors have length 1 and are perpendicular up to errors of the same kind.", "quantifier": "all finite n with length within 2^-20 of 1, all finite t of length between 2^-30 and 2^60 with the sine of the angle to n at least 2^-12", "why_tests_cant": "The claim is about every pair of directions; cancellation in t - n*dot(n,t) depends on the angle between them, so samples cannot bound the error.", "anchors": ["src/geometric.cpp:dot", "src/geometric.cpp:cross", "src/geometric.cpp:normalize", "src/vec3.cpp:operator*", "src/vec3.cpp:operator-"]}
{"id": "C139", "title": "Polynomials by Horner's rule in IEEE arithmetic", "statement": "Evaluating a polynomial with scalar, vector, matrix or quaternion coefficients by the loop r = r*t + c is accurate in every component: whenever the result is finite its error is at most (1+2^-24)^(2n)-1 times the sum of the magnitudes of the terms (each coefficient enlarged by 2^-125 for underflow), for any number n of coefficients; with at most 2^15 finite coefficients and partial sums below 2^125 the result is finite and the error is at most n*2^-22 times that sum.", "quantifier": "all finite t, all lists of coefficients of any length (first part), all lists up to 2^15 with bounded partial sums (second part)", "why_tests_cant": "The claim is about every list of coefficients of every length; a test samples a few polynomials at a few points.", "anchors": ["src/vec2.cpp:operator*", "src/vec3.cpp:operator*", "src/vec4.cpp:operator*", "src/vec3.cpp:operator+", "src/mat2.cpp:operator*", "src/mat3.cpp:operator*", "src/mat4.cpp:operator+", "src/quat.cpp:operator*", "src/quat.cpp:operator+"]}
{"id": "C140", "title": "Undoing vector arithmetic in IEEE arithmetic", "statement": "Operations a caller undoes come back up to their own rounding errors, in every component: v / v is exactly 1 where v is finite and not zero; (v + w) - v gives w back with an exact subtraction, so up to the rounding error of the sum alone, where w is not larger than v; any history of v *= s and v /= s is off by at most (1+2^-24)^n - 1 of its exact value, so scaling by a list of numbers and dividing by them again in any order returns the vector up to one rounding error per step; adding a list of offsets and subtracting them again in any order returns the point up to (1+2^-24)^(2n) - 1 times the sum of the magnitudes.", "quantifier": "all finite vectors; all histories of up to 2^20 multiplications and divisions whose exact partial results stay between 2^-100 and 2^100; all lists of offsets of any length and all orders of removing them", "why_tests_cant": "Whether rounding errors build up depends on the whole history and order of the operations; tests sample a few short histories.", "anchors": ["src/vec2.cpp:operator/=", "src/vec3.cpp:operator*=", "src/vec3.cpp:operator/=", "src/vec3.cpp:operator-=", "src/vec4.cpp:operator+=", "include/zcm/detail/impl_op_macro.hpp:ZCM_IMPL_V3_COMPOUND_OP"]}
{"id": "C141", "title": "Where a ray meets a plane in IEEE arithmetic", "statement": "The point o + d*(dot(n, c-o)/dot(n, d)), where a ray from o in direction d meets the plane through c with normal n, is accurate in IEEE arithmetic: it is finite, within 1/2^24 of |o| plus 11/2^24 of |c-o| divided by the squared cosine of the angle of incidence of the exact point, lies on the plane up to that error, and the sign of the computed parameter tells whether the plane is in front of the ray unless the exact parameter is smaller than its error. Reversing the ray gives the same point bit for bit, reversing the normal gives it up to the sign of a zero.", "quantifier": "all finite n, c, o, d with |n| and |d| between 2^-10 and 2^10, |o| up to 2^30, |c-o| between 2^-30 and 2^30, cosine of incidence at least 2^-10 in magnitude", "why_tests_cant": "The claim is about every plane and ray; the error depends on the angle of incidence and cannot be bounded by sampling.", "anchors": ["src/geometric.cpp:dot", "src/vec3.cpp:operator*", "src/vec3.cpp:operator-", "src/vec3.cpp:operator+"]}
{"id": "C142", "title": "Weighted sums and blends in IEEE arithmetic", "statement": "The loop r = r + v*w over any number of vectors, matrices or quaternions with weights (skinning, filters, barycentric coordinates, p += v*dt) is accurate in every component: whenever the result is finite its error is at most (1+2^-24)^(n+1) - 1 times the sum of the magnitudes of the terms (each enlarged by 2^-125), and it is finite if that sum stays below 2^126. If the weights are not negative and add up to 1, a blend of up to 2^15 - 1 vectors is finite and leaves their bounding box by no more than (n+1)*2^-22 of the largest magnitude.", "quantifier": "all lists of terms of any length; for blends all lists of up to 2^15 - 1 finite vectors with magnitudes up to 2^120 and all non-negative weights with exact sum 1", "why_tests_cant": "The claim is about every list of terms of every length; a test samples a few short sums.", "anchors": ["src/vec2.cpp:operator*", "src/vec3.cpp:operator+", "src/vec4.cpp:operator+", "src/mat2.cpp:operator+", "src/mat3.cpp:operator*", "src/mat4.cpp:operator*", "src/quat.cpp:operator+", "src/quat.cpp:operator*"]}
{"id": "C143", "title": "The nearest point of a line and of a segment in IEEE arithmetic", "statement": "The foot a + (b-a)*(dot(p-a, b-a)/dot(b-a, b-a)) of the perpendicular from p on a line, and the nearest point a + (b-a)*clamp(dot(p-a, b-a)/dot(b-a, b-a), 0, 1) of a segment, are finite and accurate in IEEE arithmetic, to a small multiple of 1/2^24 of |a| + |p-a| + |b-a|. So the first is perpendicular up to that error and no point of the segment is nearer to p than the second by more than that error. A point clearly before the segment gives a itself (up to the sign of a zero), one clearly past it gives a + (b-a) bit for bit.", "quantifier": "all finite a, b, p with |b-a| between 2^-30 and 2^30, |p-a| and |a| up to 2^30", "why_tests_cant": "The claim is about every segment and point and compares with every point of the exact segment.", "anchors": ["src/geometric.cpp:dot", "src/common.cpp:clamp", "src/vec3.cpp:operator*", "src/vec3.cpp:operator-", "src/vec3.cpp:operator+"]}
{"id": "C144", "title": "Motion computed step by step in IEEE arithmetic", "statement": "The loop of a simulation, v += a*dt; p += v*dt with an acceleration and a time step for every step, stays close to the same loop in exact arithmetic, in every component of vec2, vec3 and vec4: after n <= 2^15 steps velocity and position are finite, the velocity is off by at most n*(3.1/2^24*V + 2^-148), the position by at most n*(3.1/2^24*P + 2^-148) + 1.01*n^2*D*(3.1/2^24*V + 2^-148), where P, V and D bound the exact positions, velocities and time steps. Without acceleration in a coordinate the velocity there stays the same number for ever (up to the sign of a zero).", "quantifier": "all initial positions and velocities, all lists of at most 2^15 accelerations and time steps, with |p| up to 2^100, |v| up to 2^60, |dt| up to 2^20 along the exact motion; the second part for lists of any length", "why_tests_cant": "The claim is about every history of accelerations and time steps; errors made early are carried along and amplified by all later steps.", "anchors": ["src/vec2.cpp:operator+=", "src/vec3.cpp:operator+=", "src/vec4.cpp:operator+=", "src/vec3.cpp:operator*"]}
{"id": "C145", "title": "A point seen through lookAt and ortho lands where geometry says in IEEE arithmetic", "statement": "For each of orthoRH_ZO, orthoRH_NO, orthoLH_ZO, orthoLH_NO with the lookAt of the same handedness, ortho * lookAt * point (either product first) is finite and accurate in IEEE arithmetic: x and y are the positions, from -1 to 1 between the sides of the box, of the exact distances of the point from the eye to the right and up, z is the position (0 to 1 or -1 to 1) of its exact distance in the direction of view between near and far, with an error of 112/2^24 (divided by the sine of the angle between view and up; 49/2^24 for the depth) of the size of the coordinates relative to the box plus 15.1/2^24 of the offset of the box. The fourth component is exactly 1.", "quantifier": "all ordinary cameras (GoodView), all boxes with sides up to 2^30 and at least 2^-28 apart, all points up to 2^60", "why_tests_cant": "The claim is about every camera, box and point; both orders of multiplication round differently.", "anchors": ["src/matrix_transform.cpp:orthoRH_ZO", "src/matrix_transform.cpp:orthoLH_NO", "src/matrix_transform.cpp:lookAtRH", "src/mat4.cpp:operator*"]}
{"id": "C146", "title": "Where a ray meets a sphere is found accurately in IEEE arithmetic", "statement": "With m = o - s and b = dot(m, d), the usual formulas for a ray from o in a direction d that normalize produced and the sphere around s with radius r are accurate in IEEE arithmetic: the discriminant b*b - (dot(m,m) - r*r) is finite and within 18.1/2^24 M^2 of the exact one (M bounds the radius and the distance of o from s), so its sign tells hits from misses except for rays within that error of touching; for rays further than twice that from touching, t = -b - sqrt(discriminant) is finite and accurate, its sign tells whether the sphere is ahead, the point o + d*t is within (|o| + 16 M + 19 M^2/sqrt(disc))/2^24 of the exact entry point, and it lies on the sphere up to that error and the error in the length of d.", "quantifier": "all finite spheres and rays with M between 2^-30 and 2^30, |o| up to 2^30, and direction of length 1 up to 2^-20", "why_tests_cant": "The claim is about every sphere and ray, with cancellation in the discriminant; tests sample a few.", "anchors": ["src/vec3.cpp:operator-", "src/geometric.cpp:dot", "src/exponential.cpp:sqrt", "src/vec3.cpp:operator*", "src/vec3.cpp:operator+"]}
{"id": "C147", "title": "Lines and boxes: a bounding box is never missed", "statement": "A caller who tests the line of the points o + t*d against the box from lo to hi with inv = 1.0f / d, t1 = (lo - o) * inv, t2 = (hi - o) * inv, near = compMax(min(t1, t2)), far = compMin(max(t1, t2)), hit = near <= far, relies on the following. (1) If a box is inside another one, the computed entry of the outer box is not later and its exit not earlier, and a hit of the inner box is a hit of the outer box: exactly, as compared in float arithmetic, with overflow and with zero components of the direction, as long as no coordinate asks for 0 * infinity (a line in the plane of a side it is parallel to). (2) So the box made with min and max around a list of boxes is hit whenever one of them is. (3) For a line and box of ordinary size the answer is right up to rounding: yes if the exact line is in the box for longer than twice the error 3.01/2^24*T, and if yes, every exact point between entry and exit is in the box up to |d_i| times that error.", "quantifier": "All finite vec2 and vec3 boxes and lines, all lists of boxes, of any length; for (3) all boxes and lines with |d_i| between 2^-20 and 2^20 whose sides are met at parameters up to T.", "why_tests_cant": "A bounding volume hierarchy is correct only if rounding never makes a parent miss what a child hits, for every box, line and list; tests sample a few.", "anchors": ["src/vec2.cpp:operator/", "src/vec3.cpp:operator/", "src/vec3.cpp:operator-", "src/vec3.cpp:operator*", "src/common.cpp:min", "src/common.cpp:max", "src/component_wise.cpp:compMin", "src/component_wise.cpp:compMax"]}
{"id": "C148", "title": "Which triangle: no gaps and no overlaps along shared edges", "statement": "A caller who tests a point p of the plane against the edge from a to b with determinant(mat2(a - p, b - p)), or a line through o with direction d against an edge in space with dot(cross(a - o, b - o), d), and takes a triangle if none of its three edges gives a negative number, relies on the following. Testing an edge in the opposite direction gives exactly the opposite number, rounding included. So there are no gaps: if the border edges of a region that is cut into triangles pass (for instance a polygon with any number of corners cut into a fan), one of the triangles passes; and no overlaps: what passes a triangle strictly does not pass the triangle on the other side of an edge. The numbers are accurate, so their signs are right unless the point or line is next to the edge. In exact arithmetic the triangles that pass are those which contain the point, or a point of the line.", "quantifier": "All finite points and lines and all regions of any number of triangles glued along edges, with vertices up to 2^50 (plane) or 2^40 (space) from p or o; the opposite-number law for all floats (in space: finite d).", "why_tests_cant": "A crack between two triangles shows only for the few points where rounding decides differently for the same edge; no test finds or excludes them.", "anchors": ["src/matrix.cpp:determinant", "src/geometric.cpp:cross", "src/geometric.cpp:dot", "src/vec2.cpp:operator-", "src/vec3.cpp:operator-"]}
{"id": "C149", "title": "Culling boxes with planes: nothing visible is culled", "statement": "A caller who tests a point x against a plane with dot(n, x) + d, and a box from lo to hi through its corner mix(lo, hi, greaterThan(n, vec3(0))) farthest in the direction of n, relies on the following. No float point of the box has a greater result than the far corner, and none a smaller one than the near corner (lo and hi exchanged), with all rounding included. So a box that is culled by one of any number of planes contains no point that passes all of them; a box whose near corners all pass contains no point that fails; and a box inside a culled box is culled as well. The decision is right against the exact geometry up to a small relative error.", "quantifier": "All boxes, normals and points of vec2, vec3, vec4 with finite numbers up to 2^60, offsets up to 2^120, and lists of planes of any length.", "why_tests_cant": "A wrongly culled box shows only if rounding makes the far corner smaller than some inner point; no sample of boxes and points excludes it.", "anchors": ["src/common.cpp:mix", "src/common.cpp:greaterThan", "src/geometric.cpp:dot"]}
{"id": "C150", "title": "Planes taken from the rows of a matrix cull exactly what the matrix clips", "statement": "A caller who takes the six planes row 3 plus and minus row i of a projection (times view) matrix with transpose, operator[], + and -, and culls boxes with them as in C149, relies on the following. In exact arithmetic a point passes the six tests exactly if its clip coordinates M * vec4(p, 1) are between -w and w. In float arithmetic, with all rounding included, a culled box contains no float point that passes the six tests, a box whose near corners pass contains none that fails, and a box inside a culled box is culled. Against the exact geometry: a culled box contains no point that is seen by more than a small relative error, and a box beyond one side by more than the error is culled.", "quantifier": "All matrices and boxes with finite numbers up to 2^58 and all points of the boxes; all real matrices and points for the exact statement.", "why_tests_cant": "Whether a visible object vanishes at the border of the screen depends on how the rounding of the planes and of the tests combine, for every matrix, box and point.", "anchors": ["src/matrix.cpp:transpose", "src/vec4.cpp:operator+", "src/vec4.cpp:operator-", "src/common.cpp:mix", "src/common.cpp:greaterThan", "src/geometric.cpp:dot"]}
{"id": "C151", "title": "Hash tables and ordered maps keyed by values of the library", "statement": "A hash table that uses std::hash and == of zcm keys, and an ordered map or sort that uses < of ivec keys, behave as maps: after any history of insertions, overwrites and erasures, with the table rehashed or the tree rebalanced at any moments, find returns the value last put under exactly this key and not erased since; every key is stored once; an ordered map visits the keys in increasing lexicographic order; sorting has exactly one result. Float keys must have no NaN and no negative zero: a key with a NaN is never found, and a key with a negative zero may be missed although it compares equal.", "quantifier": "all histories of updates, rehashings and rebalancings, all keys of every hashable vector, quaternion and matrix type, all table sizes", "why_tests_cant": "Histories and key sets are unbounded; whether a lookup meets a colliding or differently signed key depends on the whole history.", "anchors": ["include/zcm/hash.hpp:std::hash", "src/hash.cpp:hash", "src/ivec2.cpp:operator<", "src/vec3.cpp:operator=="]}
{"id": "C152", "title": "Finding the nearest of any number of points, and bounding spheres", "statement": "Searching any list of vec2/vec3/vec4 points for the one nearest to q by a loop that compares distance (or length2 of the difference, without square roots) returns the first point whose computed distance is smallest; the point found by squared distances is also nearest according to distance; its exact distance is at most 1 + 11*2^-24 times that of any other point. A bounding radius computed by max over distance(c, p) makes distance(c, p) <= r true for every point, does not depend on the order of the points, and is exact up to 6*2^-24 relative. Distances must be 0 or between 2^-49 and 2^62 for the exact statements; points at NaN distance do not count, and the first point must not be one.", "quantifier": "all lists of points of any length in any order, all queries and centres", "why_tests_cant": "The lists are unbounded and near ties depend on rounding of particular inputs.", "anchors": ["src/geometric.cpp:distance", "src/geometric.cpp:length2", "src/common.cpp:max"]}
{"id": "C153", "title": "Sorting points into the cells of a grid, and searching by cells", "statement": "The cell of a vec2/vec3/vec4 point p in a grid of cells of size s > 0 is floor(p / s). Cells are ordered like points in every component, also under rounding and overflow, so searching the cells between those of the corners lo and hi of a box finds exactly the points that testing every point finds. Below 2^24 cells from the origin the cell is exactly an integer n with n*s <= p < (n+1)*s, the lower bound up to the rounding of one division; for s a power of two it is exact. Two points that differ by at most s in a component (exactly, at most 2^23 cells from the origin) are in the same or in neighbouring cells: rounding never puts a cell between them. So the cells around the cell of q, from cell(q) - 1 to cell(q) + 1, have every point at exact distance at most s from q.", "quantifier": "all lists of finite points, all boxes, all cell sizes, all queries", "why_tests_cant": "Whether a rounded quotient reaches the next integer depends on the particular bits of point and cell size; the lists are unbounded.", "anchors": ["src/common.cpp:floor", "src/common.cpp:lessThanEqual", "src/common.cpp:all", "include/zcm/detail/impl_op_macro.hpp:ZCM_IMPL_V2_BINOP"]}
{"id": "C154", "title": "Coordinates from 0 to 1, pixels and quantised values", "statement": "Multiplying a normal number by a factor u with 0 <= u < 1 gives a strictly smaller number, rounding included. So floor(uv * size) of texture coordinates 0 <= uv < 1 is a pixel from 0 to size - 1 for every integer size up to 2^24, never size itself; pixels are ordered like coordinates; the centre (i + 0.5) / size of a pixel lies strictly between 0 and 1 and leads back to exactly pixel i for all sizes up to 2^21 (the corner i / size does not: 1 of 41). Wrapping with fract gives a pixel from 0 to size, and size itself exactly when fract(u) is 1, which does happen for tiny negative u. Quantising round(clamp(c, 0, 1) * n) gives an integer from 0 to n for everything but NaN, 0 for c <= 0, n for c >= 1 and the nearest level up to rounding in between; every level j survives j / n and back exactly for n up to 2^21.", "quantifier": "all texture coordinates, sizes, pixels, colours and levels; vec2/vec3/vec4, every component", "why_tests_cant": "Whether u * size rounds up to size, or a round trip loses a level, depends on the particular bits; there are 2^24 sizes and 2^30 coordinates.", "anchors": ["src/common.cpp:floor", "src/common.cpp:fract", "src/common.cpp:round", "src/common.cpp:clamp", "include/zcm/detail/impl_op_macro.hpp:ZCM_IMPL_V2_BINOP"]}
{"id": "C155", "title": "Halving a segment with (a + b) * 0.5f ends, and ends at neighbouring numbers", "statement": "Take the loop m = (a + b) * 0.5f; stop if m == a or m == b; otherwise replace b by m if m is in the region and a by m if it is not. For any region whatever and any two vec2, vec3 or vec4 whose components are finite and below 2^127 in magnitude, the loop stops after at most 367 rounds. If a starts outside and b inside, this stays so, and both ends stay between the first two points in every component. When the loop stops, no binary32 number lies strictly between the two ends in any component. At 2^127 the sum overflows and the promise ends.", "quantifier": "all regions (any function from points to bool), all pairs of points in half the range, all rounds", "why_tests_cant": "the number of rounds and where the loop gets stuck depend on how each sum and each product rounds, for 2^128 pairs of vec2 and every region", "anchors": ["src/vec2.cpp: operator+, operator*, operator==", "src/vec3.cpp: operator+, operator*, operator==", "src/vec4.cpp: operator+, operator*, operator=="]}
{"id": "C156", "title": "Laying colours over each other never leaves the range from 0 to 1", "statement": "For colours and opacities with components from 0 to 1, s*a + d*(1 - a) on vec3 and vec4 is again from 0 to 1, without any clamping, and so is the result of any number of layers; n layers are within n/2^23 of exact arithmetic. Opacity 0 gives the lower colour and opacity 1 the upper colour exactly; black over black is exactly black and white over white exactly white for every opacity; a brighter colour never gives a darker result. 1 - (1 - s)*(1 - d) also stays from 0 to 1, within 2^-23 of exact arithmetic, and white stays white. For colours multiplied by their opacity, s + d*(1 - s.w) keeps every component at most the opacity and the opacity at most 1 for any number of layers; an opaque background stays exactly opaque, an opaque layer hides everything below and an empty layer changes nothing.", "quantifier": "all colours, all opacities, all lists of layers; vec3 and vec4, every component", "why_tests_cant": "whether a + (1 - a) rounds above or below 1 depends on the bits of a, and layers may be laid in any number and order", "anchors": ["include/zcm/detail/impl_op_macro.hpp:ZCM_IMPL_V3_BINOP", "include/zcm/detail/impl_op_macro.hpp:ZCM_IMPL_V4_BINOP", "src/vec3.cpp:operator*", "src/vec4.cpp:operator*"]}
{"id": "C157", "title": "Moving to a target by steps of a given length arrives exactly, and in time", "statement": "Take the loop d = target - p; p = length(d) <= step ? target : p + d * (step / length(d)), on vec2, vec3 or vec4, with finite points, a step from 2^-40 to 2^20 and everything within 2^19 steps of the origin and of the target. Every round arrives at the target bit for bit or comes nearer by at least 7/8 of the step, and never moves by more than 9/8 of it. So the target is reached exactly after at most the distance divided by 7/8 of the step rounds, rounded up, and is never left again. If the step is too small for the size of the coordinates the loop can stay in one place for ever.", "quantifier": "all targets, starts and steps in the stated range, all numbers of rounds; vec2, vec3, vec4", "why_tests_cant": "whether each of the many rounds makes progress depends on how six roundings combine at every point on the way", "anchors": ["src/geometric.cpp:length", "include/zcm/detail/impl_op_macro.hpp:ZCM_IMPL_V3_BINOP"]}
{"id": "C158", "title": "Cutting a polygon with a plane leaves no cracks and stays on the right side", "statement": "A caller cuts a polygon with the plane dot(n, p) + d = 0 by going round its corners: a corner with dot(n, p) + d >= 0 is kept, and every edge that crosses the plane gets the new corner mix(a, b, ha / (ha - hb)), a being the end that is kept and ha, hb the values of dot(n, p) + d at the ends (vec2, vec3, vec4, in IEEE single precision). Then: a polygon with all corners kept is returned unchanged, one with no corner kept becomes empty; kept corners stay in their order; every other corner of the result is a new corner of an edge with one kept and one lost end; as many edges lead out of the kept side as lead into it, and the number of corners is the number kept plus twice that. Two polygons that share a crossing edge, in opposite directions, get the same new corner bit for bit. If the components of n are at most 1 and d and all coordinates at most M (2^-60 to 2^60), nothing overflows, every new corner is on the plane up to 28, 40 or 52 M / 2^24 for vec2, vec3 and vec4, every corner of the result is on the kept side up to the same bound, and the coordinates of a new corner are from those of a to those of b, not passing a at all and b by at most 4 M / 2^24. If the new corner were computed from the first end of the edge instead, shared edges could crack: a witness is given.", "quantifier": "all polygons (lists of corners of any length), all planes and all finite coordinates in the stated range; for the part about which corners are kept, all heights whatsoever", "why_tests_cant": "the result depends on every rounding of dot, mix and the division for each edge, and cracks show only where the last bit differs; the number of corners and edges has no bound", "anchors": ["src/geometric.cpp:dot", "src/common.cpp:mix"]}
{"id": "C159", "title": "Blocks of 2^k cells: >>, &, * and + split and rebuild every integer cell", "statement": "A caller cuts an integer grid into blocks of 2^k cells (k from 0 to 30): block c = p >> k, place l = p & (2^k - 1), and back c * 2^k + l, on ivec2 and ivec3. For every cell p, also with negative coordinates, both are defined, the coordinates of l are from 0 to below 2^k and p = 2^k c + l, and the way back never overflows and gives p. Every block and place whose cell fits an int come back as they were. Writing (c << k) | l instead gives p if no coordinate of p is negative and is undefined behaviour otherwise. Writing p / 2^k and p % 2^k instead is right exactly where the coordinate is not negative or is divisible; elsewhere the quotient is one too large and the remainder negative.", "quantifier": "all cells of ivec2 and ivec3 (every 32-bit value of every coordinate), all k from 0 to 30, all blocks and places", "why_tests_cant": "2^64 and more inputs; the failures are at sign changes and at the ends of the range, where one operator overflows and another does not", "anchors": ["include/zcm/detail/impl_op_macro.hpp:ZCM_IMPL_V2_SC_BINOP", "src/ivec2.cpp:operator>>", "src/ivec3.cpp:operator>>"]}
{"id": "C160", "title": "Marching along a ray never passes through the first ball and stops at one", "statement": "A caller traces a ray through a scene of balls by marching: the distance to the scene is the least, taken with min, of distance(p, c) - r over any number of balls, and each round either stops, when that distance at o + d * t is below a threshold, or adds it to t. For vec2 and vec3 positions, a direction of length 1 up to 2^-20, everything no farther out than M and a threshold of at least M / 2^16: the computed distance is the exact one to the nearest ball to within 3 M / 2^20; if the exact ray is inside one of the balls at time tau, no number of rounds takes t more than M / 2^17 past tau, although every round rounds; and the loop ends, after a number of rounds bounded by (tau + M / 2^17) divided by half the threshold, at a time where the exact ray is within the threshold, and 3 M / 2^20, of one of the balls.", "quantifier": "all scenes of any number of finite balls, all rays and thresholds in the stated range, every time at which the exact ray is in a ball, any number of rounds", "why_tests_cant": "The error of one round must not add up over the rounds, for every scene and every ray; tests trace a few rays through a few balls and would not notice a tunnelling that needs a particular ray.", "anchors": ["src/geometric.cpp:distance", "src/geometric.cpp:length", "src/common.cpp:min", "src/vec3.cpp:operator*", "src/vec3.cpp:operator+", "src/vec2.cpp:operator*"]}
{"id": "C161", "title": "One number for a cell of a grid: interleaving bits with |, &, << and >> is exact and one to one", "statement": "A caller makes Morton codes with the operators of ivec2 and ivec3: steps (p | p << k) & mask on all coordinates at once, then p.x | p.y << 1 (and | p.z << 2), and back with (p | p >> k) & mask. On ivec2, for every cell with coordinates from 0 to below 2^16, the code is defined (although it may use the sign bit), its bits are the bits of x and y in turn, and decoding gives the cell; every int, also a negative one, is the code of exactly such a cell; two cells lie in the same block of 2^k by 2^k cells exactly if their codes as unsigned numbers agree after dividing by 4^k. On ivec3 the same for coordinates below 2^10 and codes from 0 to below 2^30, if the second step clears the bits that would be shifted out; the steps as often printed for unsigned numbers are undefined behaviour for every cell with a coordinate of 256 or more.", "quantifier": "all 2^32 cells and all 2^32 codes of ivec2, all 2^30 cells and codes of ivec3, all block sizes", "why_tests_cant": "2^32 cells, each with a chain of about twenty operations; the failure of the printed version is undefined behaviour, which a test on a forgiving compiler does not show", "anchors": ["include/zcm/detail/impl_op_macro.hpp:ZCM_IMPL_V2_SC_BINOP", "src/ivec2.cpp:operator<<", "src/ivec2.cpp:operator|", "src/ivec2.cpp:operator&", "src/ivec3.cpp:operator<<", "src/ivec3.cpp:operator>>"]}
{"id": "C162", "title": "Drawing a polygon as a fan of triangles with ivec2 edge functions: no pixel twice, none left out", "statement": "A caller decides with ivec2 arithmetic whether a triangle draws a pixel: the edge function of every edge, d.x*q.y - d.y*q.x with d = b - a and q = p - a, must be positive, or zero for an edge that goes down or level to the right. With all coordinates from -23170 to 23170 everything is defined and the edge function is exactly twice the signed area; with 23171 it can overflow. Exactly one of the two directions of an edge has a given pixel on its inner side, so two triangles on the two sides of a shared edge never draw the same pixel. In a fan whose corners turn left as seen from the tip at most one triangle draws a given pixel. For a convex polygon with any number of corners, the fan draws every pixel that is on the inner side of all edges of the polygon exactly once, and no other pixel; pixels strictly inside are among them, pixels strictly outside are not.", "quantifier": "all pixels and corners with coordinates in the range, all numbers of corners, all convex polygons", "why_tests_cant": "polygons have any number of corners and the double or missing pixels appear only for corners and pixels in special position, on edges", "anchors": ["src/ivec2.cpp:operator-", "src/ivec2.cpp:operator*", "include/zcm/ivec2.hpp:ivec2"]}
{"id": "C163", "title": "Drawing a line of pixels with integers only: it arrives, without gaps, within half a pixel", "statement": "A caller draws the line between two pixels with ivec2 arithmetic, abs and == in the classical loop that carries an error term (Bresenham's). For all end points with coordinates from -2^28 to 2^28, in every direction, the loop ends, nothing overflows, and the pixels it plots begin with the first end point, end with the second, are one for each step along the longer side (the k-th pixel is k steps away), go from each to a neighbour, stay in the rectangle of the end points, and none is further from the exact line than half a pixel measured along the shorter side. With coordinates up to 2^29 the loop can overflow.", "quantifier": "all pairs of end points in the range, all eight directions, every turn of the loop", "why_tests_cant": "the number of turns is not bounded by a constant and the error term couples every turn with all turns before; ties and the two loops' comparisons matter only for special slopes", "anchors": ["src/ivec2.cpp:operator-", "src/ivec2.cpp:operator*", "src/ivec2.cpp:operator+", "src/ivec2.cpp:operator==", "src/common.cpp:abs"]}
{"id": "C164", "title": "Drawing a mesh of triangles: how often a pixel is drawn depends on the boundary only", "statement": "A caller draws a mesh of anticlockwise ivec2 triangles with the edge functions of C162, and computes winding numbers of closed paths with the same edge function and the comparisons of y. For all meshes with coordinates from -23170 to 23170 and every pixel, everything is defined and the number of triangles that draw the pixel is the winding number of the mesh's boundary (the edges left over when edges in opposite directions are cancelled) around the pixel. So two meshes with the same boundary draw every pixel equally often, however the area is cut into triangles, also with new corners inside. For a convex polygon the winding number is one for its pixels and zero for all others, and however it is cut into triangles each of its pixels is drawn exactly once and no other pixel is drawn.", "quantifier": "all meshes of any number of triangles, all boundaries, all pixels with coordinates in the range", "why_tests_cant": "it relates any two of infinitely many ways of cutting an area into triangles; double and missing pixels occur only at special positions on edges and corners", "anchors": ["src/ivec2.cpp:operator-", "src/ivec2.cpp:operator*", "include/zcm/ivec2.hpp:ivec2"]}
{"id": "C165", "title": "The area of a polygon from its edges: exact, and the same however it is cut, moved or started", "statement": "A caller sums a.x*b.y - a.y*b.x over the edges of a closed path of ivec2 corners, which gives twice the area. If all coordinates are from -r to r and the number of edges times 2*r*r is below 2^31, nothing overflows and the sum is exact. It does not depend on the first corner; going round the other way changes the sign; adding one ivec2 to all corners changes nothing; for a convex polygon with at least three corners it is positive. For a mesh of anticlockwise triangles, the sum of the triangles' areas is the sum over the edges of any path with the same boundary, and cannot overflow if that one does not. The corners of a square with coordinates of 23170 already overflow.", "quantifier": "all paths of any number of edges, all meshes, all coordinates within the bound", "why_tests_cant": "paths and meshes have any number of corners; a test sees one cutting, one start and one place", "anchors": ["src/ivec2.cpp:operator*", "src/ivec2.cpp:operator-", "src/ivec2.cpp:operator+"]}
{"id": "C166", "title": "The greatest common divisor of two coordinates and the whole-numbered points of a segment", "statement": "A caller runs Euclid's loop p = ivec2(p.y, p.x % p.y) and divides an ivec2 by abs of the result to get the shortest step in its direction. For all coordinates other than the smallest int, with any signs, the loop ends after at most 62 turns, nothing is undefined and the result is the greatest common divisor up to sign; unless both coordinates are zero the division leaves no remainder and the step's coordinates have no common divisor. For every two different points whose difference fits, the whole-numbered points of the segment between them are exactly a + q * k for k from 0 to the greatest common divisor, each for one k, and computing them never overflows. For (-2^31, -1) the loop is undefined.", "quantifier": "all pairs of coordinates, all segments, all points of them", "why_tests_cant": "the number of turns depends on the values in an irregular way (worst for neighbouring Fibonacci numbers), and the count of points is a statement about all points of all segments", "anchors": ["src/ivec2.cpp:operator/", "src/ivec2.cpp:operator*", "src/ivec2.cpp:operator+", "src/common.cpp:abs"]}
