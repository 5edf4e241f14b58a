{
 "C05": "The full claim fails for vec2, ivec2, bvec2 (and rows of mat2): their operator[] asserts val < 3, so index 2 is let through (C05_*_false, C05_*_index2, C05_mat2_row2). Proved for every other type, and for these types for every index except 2 (_partial).",
 "C06": "Proved for every number on the right-hand side and for a.l = b.m with different components (_partial). False for a.x = b.x (same component): the implicit copy assignment of the accessor copies the whole vector (C06_*_assignFrom_false, _same), likewise a.xy = b.xy (C06_swizzle_assign_false).",
 "C15": "Proved for every constructor and conversion except mat3(mat2), which reads column 2 of a two-column matrix and so never returns: assert failure in debug, undefined behaviour in release (C15_mat3_of_mat2_outcome, C15_mat3_of_mat2_false).",
 "C21": "Proved in exact arithmetic and for every finite float that is at least 0 or at most -1/2 (where fract is even exact). False for some floats in between: fract(-1e-20f) is 1.0f (C21_float_false). C21_float_all says exactly how far it holds for all finite floats: the result is in [0,1], is 1 exactly for -2^-25 <= x < 0, is 0 exactly for integers, and floor(x)+fract(x) is within 2^-25 of x.",
 "C22": "False: roundEven computes nearbyint(x*0.5)*2, the nearest EVEN integer, so roundEven(1) = 0 (C22_*_false; C22_float_actual says what it returns for every finite float). Proved for arguments within 1/2 of an even integer (_partial).",
 "C31": "length(float) returns its argument, so it is negative for negative arguments (C31_float_false); vec2/3/4 and quat are proved in full.",
 "C33": "distance2 of vec3 and vec4 calls length instead of length2 and returns the unsquared distance (C33_distance2_false, C33_distance2_actual); every other overload is proved.",
 "C39": "decode_octahedral unfolds the lower hemisphere wrongly: the round trip is proved for z >= 0 and refuted for every unit vector with z < 0; the range claim and agreement of encode_octahedral with the standard octahedral map are proved for every non-zero vector.",
 "C110": "Range and accuracy of encode_octahedral are proved for both hemispheres. decode_octahedral is wrong on the lower half of the square (C39_lower_false), so the decoder and the round trip are proved only for the upper half (C110_decode_partial) and for z >= 5*2^-24*(|x|+|y|+|z|) (C110_roundtrip_partial). Nearer to the equator the encoded position can round into the lower half, and the round trip is wrong even for z >= 0 (C110_equator_false).",
 "C46": "The mat2 overloads return the untransposed inverse/adjugate (C46_mat2_false, C46_mat2_partial); mat3 and mat4 are proved in full.",
 "C52": "Proved for every build and aspect except aspect = 2^-23 in a debug build, where the assertion abs(aspect - epsilon) > 0 stops the program (C52_assert_false); the same assertion lets aspect = 0 through.",
 "C66": "Every relation is proved in exact arithmetic except those of exp2, which calls expf: exp2(x) is e^x, so log2(exp2(x)) != x for every x != 0 (C66_exp2_false). C66_exp2_partial says what is left: exp2(0) = 1 and log(exp2(x)) = x.",
 "C69": "Alpha, the componentwise formulas and the monotonicity of the decoder are proved. The inverse claim is false with the same gamma: convertLinearToSRGB raises to Gamma, not 1/Gamma (C69_inverse_false); with the reciprocal gamma it holds to within 1e-30 when both directions take the same formula (C69_reciprocal_partial). With the decoder's gamma the encoder is not monotone (C69_encode_monotone_false). The overload without gamma is negative for dark colours (C69_approx_false) and monotone inside [0,1] from 1/256 up (C69_approx_partial).",
 "C70": "Proved for int, unsigned, bool, ivec and bvec. False for float-based types: 0.0 == -0.0 but their hashes differ (C70_*_false). Proved for values without zero components (C70_*_partial).",
 "C71": "Proved for int, unsigned, the vectors, quat, mat2 and mat3. False for mat4: hash(mat4) combines columns 0 and 3 only, so columns 1 and 2 are ignored (C71_mat4_false); proved for columns 0 and 3 (C71_mat4_partial). For the first component of a vector the change is shown when the second component is +0.0.",
 "C87": "The norm-wise bound is proved (C87_quat, C87_norm). The exactness of a product with quat() is false in binary32: C87_identity_false exhibits 1 + 2^-30 i, whose second component is lost by the factored formula of src/quat.cpp:208-220.",
 "C95": "Proved for mat3 and mat4. False for mat2 (C95_normal2_false), because inverseTranspose(mat2) returns the plain inverse; C95_normal2_partial proves the claim for transpose(inverse(m)) and for symmetric m.",
 "C112": "The round trip is proved for cos(yaw) >= 2^-12 with error 2^-16/cos(yaw) (C112_roundtrip_partial). It is false at gimbal lock: for quat(0.7, 0.1, 0.7, -0.1) the special case of pitch is missed because of rounding errors and the result differs from q and from -q by more than 1/2, with every accurate C library (C112_lock_false). The extraction and the absence of NaN are proved in full."
}