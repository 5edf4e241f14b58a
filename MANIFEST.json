{
 "claims": [
  {
   "property": "C01",
   "status": "proved",
   "theorems": [
    "Zcm.C01_vec2",
    "Zcm.C01_vec3",
    "Zcm.C01_vec4",
    "Zcm.C01_ivec2",
    "Zcm.C01_ivec3",
    "Zcm.C01_ivec4"
   ],
   "note": ""
  },
  {
   "property": "C02",
   "status": "proved",
   "theorems": [
    "Zcm.C02_vec2",
    "Zcm.C02_vec3",
    "Zcm.C02_vec4",
    "Zcm.C02_ivec2",
    "Zcm.C02_ivec3",
    "Zcm.C02_ivec4",
    "Zcm.C02_bvec2",
    "Zcm.C02_bvec3",
    "Zcm.C02_bvec4",
    "Zcm.C02_mat2",
    "Zcm.C02_mat3",
    "Zcm.C02_mat4",
    "Zcm.C02_quat",
    "Zcm.C02_quat_scalar"
   ],
   "note": ""
  },
  {
   "property": "C03",
   "status": "proved",
   "theorems": [
    "Zcm.C03_vec2",
    "Zcm.C03_vec3",
    "Zcm.C03_vec4",
    "Zcm.C03_ivec2_preInc",
    "Zcm.C03_ivec2_postInc",
    "Zcm.C03_ivec2_preDec",
    "Zcm.C03_ivec2_postDec",
    "Zcm.C03_ivec3_preInc",
    "Zcm.C03_ivec3_postInc",
    "Zcm.C03_ivec3_preDec",
    "Zcm.C03_ivec3_postDec",
    "Zcm.C03_ivec4_preInc",
    "Zcm.C03_ivec4_postInc",
    "Zcm.C03_ivec4_preDec",
    "Zcm.C03_ivec4_postDec"
   ],
   "note": ""
  },
  {
   "property": "C04",
   "status": "proved",
   "theorems": [
    "Zcm.C04_vec2",
    "Zcm.C04_vec3",
    "Zcm.C04_vec4",
    "Zcm.C04_ivec2",
    "Zcm.C04_ivec3",
    "Zcm.C04_ivec4",
    "Zcm.C04_bvec2",
    "Zcm.C04_bvec3",
    "Zcm.C04_bvec4"
   ],
   "note": ""
  },
  {
   "property": "C05",
   "status": "partial",
   "theorems": [
    "Zcm.C05_vec3",
    "Zcm.C05_vec4",
    "Zcm.C05_ivec3",
    "Zcm.C05_ivec4",
    "Zcm.C05_bvec3",
    "Zcm.C05_bvec4",
    "Zcm.C05_quat",
    "Zcm.C05_vec2_partial",
    "Zcm.C05_vec2_false",
    "Zcm.C05_vec2_index2",
    "Zcm.C05_ivec2_partial",
    "Zcm.C05_ivec2_false",
    "Zcm.C05_ivec2_index2",
    "Zcm.C05_bvec2_partial",
    "Zcm.C05_bvec2_false",
    "Zcm.C05_bvec2_index2",
    "Zcm.C05_mat2",
    "Zcm.C05_mat3",
    "Zcm.C05_mat4",
    "Zcm.C05_mat2_entry_partial",
    "Zcm.C05_mat3_entry",
    "Zcm.C05_mat4_entry",
    "Zcm.C05_mat2_row2"
   ],
   "note": "The full claim fails for vec2, ivec2, bvec2 (and rows of mat2): their operator[] asserts val < 3, so index 2 is let through (C05_*_false, C05_*_index2, C05_mat2_row2). Proved for every other type, and for these types for every index except 2 (_partial)."
  },
  {
   "property": "C06",
   "status": "partial",
   "theorems": [
    "Zcm.C06_vec2",
    "Zcm.C06_vec3",
    "Zcm.C06_vec4",
    "Zcm.C06_ivec2",
    "Zcm.C06_ivec3",
    "Zcm.C06_ivec4",
    "Zcm.C06_vec2_names",
    "Zcm.C06_vec3_names",
    "Zcm.C06_vec4_names",
    "Zcm.C06_ivec2_names",
    "Zcm.C06_ivec3_names",
    "Zcm.C06_ivec4_names",
    "Zcm.C06_vec2_assignFrom_partial",
    "Zcm.C06_vec2_assignFrom_same",
    "Zcm.C06_vec2_assignFrom_false",
    "Zcm.C06_vec3_assignFrom_partial",
    "Zcm.C06_vec3_assignFrom_same",
    "Zcm.C06_vec3_assignFrom_false",
    "Zcm.C06_vec4_assignFrom_partial",
    "Zcm.C06_vec4_assignFrom_same",
    "Zcm.C06_vec4_assignFrom_false",
    "Zcm.C06_swizzle_assign_false"
   ],
   "note": "Proved for every number on the right-hand side and for a.l = b.m with different components (_partial). False for a.x = b.x (same component): the implicit copy assignment of the accessor copies the whole vector (C06_*_assignFrom_false, _same), likewise a.xy = b.xy (C06_swizzle_assign_false)."
  },
  {
   "property": "C07",
   "status": "proved",
   "theorems": [
    "Zcm.C07_vec2",
    "Zcm.C07_vec2_names",
    "Zcm.C07_vec2_nodup",
    "Zcm.C07_vec3",
    "Zcm.C07_vec3_names",
    "Zcm.C07_vec3_nodup",
    "Zcm.C07_vec4",
    "Zcm.C07_vec4_names",
    "Zcm.C07_vec4_nodup",
    "Zcm.C07_ivec2",
    "Zcm.C07_ivec2_names",
    "Zcm.C07_ivec2_nodup",
    "Zcm.C07_ivec3",
    "Zcm.C07_ivec3_names",
    "Zcm.C07_ivec3_nodup",
    "Zcm.C07_ivec4",
    "Zcm.C07_ivec4_names",
    "Zcm.C07_ivec4_nodup",
    "Zcm.C07_vec2_format_as",
    "Zcm.C07_vec3_format_as",
    "Zcm.C07_vec4_format_as",
    "Zcm.C07_ivec2_format_as",
    "Zcm.C07_ivec3_format_as",
    "Zcm.C07_ivec4_format_as"
   ],
   "note": ""
  },
  {
   "property": "C08",
   "status": "proved",
   "theorems": [
    "Zcm.C08_vec2_value_ptr",
    "Zcm.C08_vec3_value_ptr",
    "Zcm.C08_vec4_value_ptr",
    "Zcm.C08_bvec2_value_ptr",
    "Zcm.C08_bvec3_value_ptr",
    "Zcm.C08_bvec4_value_ptr",
    "Zcm.C08_quat_value_ptr",
    "Zcm.C08_vec2_make",
    "Zcm.C08_vec3_make",
    "Zcm.C08_vec4_make",
    "Zcm.C08_bvec2_make",
    "Zcm.C08_bvec3_make",
    "Zcm.C08_bvec4_make",
    "Zcm.C08_ivec2_make",
    "Zcm.C08_ivec3_make",
    "Zcm.C08_ivec4_make",
    "Zcm.C08_quat_make",
    "Zcm.C08_mat2_value_ptr",
    "Zcm.C08_mat2_make",
    "Zcm.C08_mat3_value_ptr",
    "Zcm.C08_mat3_make",
    "Zcm.C08_mat4_value_ptr",
    "Zcm.C08_mat4_make",
    "Zcm.C08_mat3_roundtrip"
   ],
   "note": ""
  },
  {
   "property": "C09",
   "status": "proved",
   "theorems": [
    "Zcm.C09_vec2",
    "Zcm.C09_vec3",
    "Zcm.C09_vec4",
    "Zcm.C09_quat",
    "Zcm.C09_mat2",
    "Zcm.C09_mat3",
    "Zcm.C09_mat4",
    "Zcm.C09_ivec2",
    "Zcm.C09_ivec3",
    "Zcm.C09_ivec4",
    "Zcm.C09_bvec2",
    "Zcm.C09_bvec3",
    "Zcm.C09_bvec4",
    "Zcm.C09_lawful",
    "Zcm.C09_float",
    "Zcm.C09_vec2_float",
    "Zcm.C09_vec3_float",
    "Zcm.C09_vec4_float",
    "Zcm.C09_quat_float",
    "Zcm.C09_mat2_float",
    "Zcm.C09_mat3_float",
    "Zcm.C09_mat4_float"
   ],
   "note": ""
  },
  {
   "property": "C10",
   "status": "proved",
   "theorems": [
    "Zcm.C10_ivec2",
    "Zcm.C10_ivec2_order",
    "Zcm.C10_ivec3",
    "Zcm.C10_ivec3_order",
    "Zcm.C10_ivec4",
    "Zcm.C10_ivec4_order"
   ],
   "note": ""
  },
  {
   "property": "C11",
   "status": "proved",
   "theorems": [
    "Zcm.C11_ivec2_mod",
    "Zcm.C11_ivec3_mod",
    "Zcm.C11_abs",
    "Zcm.C11_preInc",
    "Zcm.C11_postInc",
    "Zcm.C11_preDec",
    "Zcm.C11_postDec",
    "Zcm.C11_compAdd",
    "Zcm.C11_compMul",
    "Zcm.C01_ivec2",
    "Zcm.C01_ivec3",
    "Zcm.C01_ivec4"
   ],
   "note": ""
  },
  {
   "property": "C12",
   "status": "proved",
   "theorems": [
    "Zcm.C12_ivec2_bitwise",
    "Zcm.C12_ivec2_shift",
    "Zcm.C12_ivec3_bitwise",
    "Zcm.C12_ivec3_shift"
   ],
   "note": ""
  },
  {
   "property": "C13",
   "status": "proved",
   "theorems": [
    "Zcm.C13_bvec2",
    "Zcm.C13_bvec2_laws",
    "Zcm.C13_bvec2_all_any",
    "Zcm.C13_bvec3",
    "Zcm.C13_bvec3_laws",
    "Zcm.C13_bvec3_all_any",
    "Zcm.C13_bvec4",
    "Zcm.C13_bvec4_laws",
    "Zcm.C13_bvec4_all_any"
   ],
   "note": ""
  },
  {
   "property": "C14",
   "status": "proved",
   "theorems": [
    "Zcm.C14_float",
    "Zcm.C14_vec2",
    "Zcm.C14_vec2_laws",
    "Zcm.C14_vec3",
    "Zcm.C14_vec3_laws",
    "Zcm.C14_vec4",
    "Zcm.C14_vec4_laws",
    "Zcm.C14_quat",
    "Zcm.C14_bvec2",
    "Zcm.C14_bvec3",
    "Zcm.C14_bvec4",
    "Zcm.C14_vec2_nan",
    "Zcm.C14_vec3_nan",
    "Zcm.C14_vec4_nan"
   ],
   "note": ""
  },
  {
   "property": "C15",
   "status": "partial",
   "theorems": [
    "Zcm.C15_mat2",
    "Zcm.C15_mat3",
    "Zcm.C15_mat4",
    "Zcm.C15_convert",
    "Zcm.C15_mat3_of_mat2_outcome",
    "Zcm.C15_mat3_of_mat2_false"
   ],
   "note": "Proved for every constructor and conversion except mat3(mat2), which reads column 2 of a two-column matrix and so never returns: assert failure in debug, undefined behaviour in release (C15_mat3_of_mat2_outcome, C15_mat3_of_mat2_false)."
  },
  {
   "property": "C16",
   "status": "proved",
   "theorems": [
    "Zcm.C16_mat2",
    "Zcm.C16_mat3",
    "Zcm.C16_mat4"
   ],
   "note": ""
  },
  {
   "property": "C17",
   "status": "proved",
   "theorems": [
    "Zcm.C17_float_selects",
    "Zcm.C17_float_bounds",
    "Zcm.C17_float_laws",
    "Zcm.C17_float_nan",
    "Zcm.C17_int"
   ],
   "note": ""
  },
  {
   "property": "C18",
   "status": "proved",
   "theorems": [
    "Zcm.C18_float",
    "Zcm.C18_float_mono",
    "Zcm.C18_float_special",
    "Zcm.C18_int"
   ],
   "note": ""
  },
  {
   "property": "C19",
   "status": "proved",
   "theorems": [
    "Zcm.C19_float_abs",
    "Zcm.C19_float_sign",
    "Zcm.C19_float_sign_nan",
    "Zcm.C19_float_signNotZero",
    "Zcm.C19_int_abs",
    "Zcm.C19_int_sign"
   ],
   "note": ""
  },
  {
   "property": "C20",
   "status": "proved",
   "theorems": [
    "Zcm.C20_real",
    "Zcm.C20_float",
    "Zcm.C20_float_special",
    "Zcm.C20_vec2",
    "Zcm.C20_vec3",
    "Zcm.C20_vec4"
   ],
   "note": ""
  },
  {
   "property": "C21",
   "status": "partial",
   "theorems": [
    "Zcm.C21_real",
    "Zcm.C21_float_partial",
    "Zcm.C21_float_all",
    "Zcm.C21_float_false"
   ],
   "note": "Proved in exact arithmetic and for every finite float that is at least 0 or at most -1/2 (where fract is even exact). False for some floats in between: fract(-1e-20f) is 1.0f (C21_float_false). C21_float_all says exactly how far it holds for all finite floats: the result is in [0,1], is 1 exactly for -2^-25 <= x < 0, is 0 exactly for integers, and floor(x)+fract(x) is within 2^-25 of x."
  },
  {
   "property": "C22",
   "status": "partial",
   "theorems": [
    "Zcm.C22_real_false",
    "Zcm.C22_float_false",
    "Zcm.C22_real_partial",
    "Zcm.C22_float_partial",
    "Zcm.C22_float_actual"
   ],
   "note": "False: roundEven computes nearbyint(x*0.5)*2, the nearest EVEN integer, so roundEven(1) = 0 (C22_*_false; C22_float_actual says what it returns for every finite float). Proved for arguments within 1/2 of an even integer (_partial)."
  },
  {
   "property": "C23",
   "status": "proved",
   "theorems": [
    "Zcm.C23_mod"
   ],
   "note": ""
  },
  {
   "property": "C24",
   "status": "proved",
   "theorems": [
    "Zcm.C24_mix",
    "Zcm.C24_float_zero",
    "Zcm.C24_float_endpoints",
    "Zcm.C24_vec2",
    "Zcm.C24_vec3",
    "Zcm.C24_vec4"
   ],
   "note": ""
  },
  {
   "property": "C25",
   "status": "proved",
   "theorems": [
    "Zcm.C25_scalar",
    "Zcm.C25_vec2",
    "Zcm.C25_vec3",
    "Zcm.C25_vec4"
   ],
   "note": ""
  },
  {
   "property": "C26",
   "status": "proved",
   "theorems": [
    "Zcm.C26_step_float",
    "Zcm.C26_step_real",
    "Zcm.C26_smoothstep",
    "Zcm.C26_vec2",
    "Zcm.C26_vec3",
    "Zcm.C26_vec4"
   ],
   "note": ""
  },
  {
   "property": "C27",
   "status": "proved",
   "theorems": [
    "Zcm.C27_float",
    "Zcm.C27_vec2",
    "Zcm.C27_vec3",
    "Zcm.C27_vec4",
    "Zcm.C27_quat"
   ],
   "note": ""
  },
  {
   "property": "C28",
   "status": "proved",
   "theorems": [
    "Zcm.C28_vec2_common",
    "Zcm.C28_vec2_exponential",
    "Zcm.C28_vec2_trigonometry",
    "Zcm.C28_ivec2",
    "Zcm.C28_vec3_common",
    "Zcm.C28_vec3_exponential",
    "Zcm.C28_vec3_trigonometry",
    "Zcm.C28_ivec3",
    "Zcm.C28_vec4_common",
    "Zcm.C28_vec4_exponential",
    "Zcm.C28_vec4_trigonometry",
    "Zcm.C28_ivec4",
    "Zcm.C28_quat"
   ],
   "note": ""
  },
  {
   "property": "C29",
   "status": "proved",
   "theorems": [
    "Zcm.C29_float",
    "Zcm.C29_vec2",
    "Zcm.C29_vec2_ieee",
    "Zcm.C29_vec3",
    "Zcm.C29_vec3_ieee",
    "Zcm.C29_vec4",
    "Zcm.C29_vec4_ieee",
    "Zcm.C29_quat",
    "Zcm.C29_quat_ieee"
   ],
   "note": ""
  },
  {
   "property": "C30",
   "status": "proved",
   "theorems": [
    "Zcm.C30_cross_eq",
    "Zcm.C30_cross",
    "Zcm.C30_area"
   ],
   "note": ""
  },
  {
   "property": "C31",
   "status": "partial",
   "theorems": [
    "Zcm.C31_vec2",
    "Zcm.C31_vec3",
    "Zcm.C31_vec4",
    "Zcm.C31_quat",
    "Zcm.C31_float_partial",
    "Zcm.C31_float_false"
   ],
   "note": "length(float) returns its argument, so it is negative for negative arguments (C31_float_false); vec2/3/4 and quat are proved in full."
  },
  {
   "property": "C32",
   "status": "proved",
   "theorems": [
    "Zcm.C32_float",
    "Zcm.C32_vec2",
    "Zcm.C32_vec3",
    "Zcm.C32_vec4"
   ],
   "note": ""
  },
  {
   "property": "C33",
   "status": "partial",
   "theorems": [
    "Zcm.C33_length2_float",
    "Zcm.C33_length2_vec2",
    "Zcm.C33_length2_vec3",
    "Zcm.C33_length2_vec4",
    "Zcm.C33_length2_quat",
    "Zcm.C33_distance2_partial",
    "Zcm.C33_distance2_false",
    "Zcm.C33_distance2_actual"
   ],
   "note": "distance2 of vec3 and vec4 calls length instead of length2 and returns the unsquared distance (C33_distance2_false, C33_distance2_actual); every other overload is proved."
  },
  {
   "property": "C34",
   "status": "proved",
   "theorems": [
    "Zcm.C34_vec2",
    "Zcm.C34_vec3",
    "Zcm.C34_vec4",
    "Zcm.C34_quat"
   ],
   "note": ""
  },
  {
   "property": "C35",
   "status": "proved",
   "theorems": [
    "Zcm.C35_float",
    "Zcm.C35_vec2",
    "Zcm.C35_vec3",
    "Zcm.C35_vec4",
    "Zcm.C35_any"
   ],
   "note": ""
  },
  {
   "property": "C36",
   "status": "proved",
   "theorems": [
    "Zcm.C36_float",
    "Zcm.C36_vec2",
    "Zcm.C36_vec3",
    "Zcm.C36_vec4"
   ],
   "note": ""
  },
  {
   "property": "C37",
   "status": "proved",
   "theorems": [
    "Zcm.C37_float",
    "Zcm.C37_vec2",
    "Zcm.C37_vec3",
    "Zcm.C37_vec4"
   ],
   "note": ""
  },
  {
   "property": "C38",
   "status": "proved",
   "theorems": [
    "Zcm.C38_orthogonal",
    "Zcm.C38_orthogonal_branchless",
    "Zcm.C38_branchless_needs_unit"
   ],
   "note": ""
  },
  {
   "property": "C39",
   "status": "partial",
   "theorems": [
    "Zcm.C39_encode_range",
    "Zcm.C39_roundtrip_partial",
    "Zcm.C39_encode_standard",
    "Zcm.C39_lower_false"
   ],
   "note": "decode_octahedral unfolds the lower hemisphere wrongly: the round trip is proved for z >= 0 and refuted for every unit vector with z < 0; the range claim and agreement of encode_octahedral with the standard octahedral map are proved for every non-zero vector."
  },
  {
   "property": "C40",
   "status": "proved",
   "theorems": [
    "Zcm.C40_mat2",
    "Zcm.C40_mat2_entry",
    "Zcm.C40_mat2_laws",
    "Zcm.C40_mat3",
    "Zcm.C40_mat3_entry",
    "Zcm.C40_mat3_laws",
    "Zcm.C40_mat4",
    "Zcm.C40_mat4_entry",
    "Zcm.C40_mat4_laws"
   ],
   "note": ""
  },
  {
   "property": "C41",
   "status": "proved",
   "theorems": [
    "Zcm.C41_mat2",
    "Zcm.C41_mat2_laws",
    "Zcm.C41_mat3",
    "Zcm.C41_mat3_laws",
    "Zcm.C41_mat4",
    "Zcm.C41_mat4_laws"
   ],
   "note": ""
  },
  {
   "property": "C42",
   "status": "proved",
   "theorems": [
    "Zcm.C42_mat2",
    "Zcm.C42_mat2_laws",
    "Zcm.C42_mat3",
    "Zcm.C42_mat3_laws",
    "Zcm.C42_mat4",
    "Zcm.C42_mat4_laws"
   ],
   "note": ""
  },
  {
   "property": "C43",
   "status": "proved",
   "theorems": [
    "Zcm.C43_mat2",
    "Zcm.C43_mat2_laws",
    "Zcm.C43_mat3",
    "Zcm.C43_mat3_laws",
    "Zcm.C43_mat4",
    "Zcm.C43_mat4_laws"
   ],
   "note": ""
  },
  {
   "property": "C44",
   "status": "proved",
   "theorems": [
    "Zcm.C44_mat2",
    "Zcm.C44_mat3",
    "Zcm.C44_mat4"
   ],
   "note": ""
  },
  {
   "property": "C45",
   "status": "proved",
   "theorems": [
    "Zcm.C45_mat2",
    "Zcm.C45_mat3",
    "Zcm.C45_mat4"
   ],
   "note": ""
  },
  {
   "property": "C46",
   "status": "partial",
   "theorems": [
    "Zcm.C46_mat2_partial",
    "Zcm.C46_mat2_false",
    "Zcm.C46_mat3",
    "Zcm.C46_mat4"
   ],
   "note": "The mat2 overloads return the untransposed inverse/adjugate (C46_mat2_false, C46_mat2_partial); mat3 and mat4 are proved in full."
  },
  {
   "property": "C47",
   "status": "proved",
   "theorems": [
    "Zcm.C47_mat2",
    "Zcm.C47_mat2_assign",
    "Zcm.C47_mat3",
    "Zcm.C47_mat3_assign",
    "Zcm.C47_mat4",
    "Zcm.C47_mat4_assign"
   ],
   "note": ""
  },
  {
   "property": "C48",
   "status": "proved",
   "theorems": [
    "Zcm.C48_translate",
    "Zcm.C48_scale"
   ],
   "note": ""
  },
  {
   "property": "C49",
   "status": "proved",
   "theorems": [
    "Zcm.C49_rotate",
    "Zcm.C49_rodrigues",
    "Zcm.C49_angle",
    "Zcm.C49_group"
   ],
   "note": ""
  },
  {
   "property": "C50",
   "status": "proved",
   "theorems": [
    "Zcm.C50_RH",
    "Zcm.C50_LH"
   ],
   "note": ""
  },
  {
   "property": "C51",
   "status": "proved",
   "theorems": [
    "Zcm.C51_ortho",
    "Zcm.C51_LH_ZO",
    "Zcm.C51_LH_ZO_clip",
    "Zcm.C51_LH_NO",
    "Zcm.C51_LH_NO_clip",
    "Zcm.C51_RH_ZO",
    "Zcm.C51_RH_ZO_clip",
    "Zcm.C51_RH_NO",
    "Zcm.C51_RH_NO_clip"
   ],
   "note": ""
  },
  {
   "property": "C52",
   "status": "partial",
   "theorems": [
    "Zcm.C52_RH_ZO_partial",
    "Zcm.C52_RH_NO_partial",
    "Zcm.C52_LH_ZO_partial",
    "Zcm.C52_LH_NO_partial",
    "Zcm.C52_assert_false"
   ],
   "note": "Proved for every build and aspect except aspect = 2^-23 in a debug build, where the assertion abs(aspect - epsilon) > 0 stops the program (C52_assert_false); the same assertion lets aspect = 0 through."
  },
  {
   "property": "C53",
   "status": "proved",
   "theorems": [
    "Zcm.C53_recompose",
    "Zcm.C53_parts"
   ],
   "note": ""
  },
  {
   "property": "C54",
   "status": "proved",
   "theorems": [
    "Zcm.C54_hamilton",
    "Zcm.C54_ring",
    "Zcm.C54_units",
    "Zcm.C54_mulAssign"
   ],
   "note": ""
  },
  {
   "property": "C55",
   "status": "proved",
   "theorems": [
    "Zcm.C55_length",
    "Zcm.C55_conjugate",
    "Zcm.C55_inverse",
    "Zcm.C55_unit"
   ],
   "note": ""
  },
  {
   "property": "C56",
   "status": "proved",
   "theorems": [
    "Zcm.C56_sandwich",
    "Zcm.C56_isometry",
    "Zcm.C56_compose"
   ],
   "note": ""
  },
  {
   "property": "C57",
   "status": "proved",
   "theorems": [
    "Zcm.C57_rotation",
    "Zcm.C57_hom",
    "Zcm.C57_mat4"
   ],
   "note": ""
  },
  {
   "property": "C58",
   "status": "proved",
   "theorems": [
    "Zcm.C58_of_rotation",
    "Zcm.C58_roundtrip",
    "Zcm.C58_mat4"
   ],
   "note": ""
  },
  {
   "property": "C59",
   "status": "proved",
   "theorems": [
    "Zcm.C59_rodrigues",
    "Zcm.C59_angle",
    "Zcm.C59_recover",
    "Zcm.C59_convert",
    "Zcm.C59_group",
    "Zcm.C59_matrix"
   ],
   "note": ""
  },
  {
   "property": "C60",
   "status": "proved",
   "theorems": [
    "Zcm.C60_general",
    "Zcm.C60_opposite",
    "Zcm.C60_uv"
   ],
   "note": ""
  },
  {
   "property": "C61",
   "status": "proved",
   "theorems": [
    "Zcm.C61_product",
    "Zcm.C61_extract",
    "Zcm.C61_reconstruct"
   ],
   "note": ""
  },
  {
   "property": "C62",
   "status": "proved",
   "theorems": [
    "Zcm.C62_lerp",
    "Zcm.C62_ends",
    "Zcm.C62_assert",
    "Zcm.C62_nlerp",
    "Zcm.C62_nlerp_unit"
   ],
   "note": ""
  },
  {
   "property": "C63",
   "status": "proved",
   "theorems": [
    "Zcm.C63_ends",
    "Zcm.C63_constant_speed",
    "Zcm.C63_fallback",
    "Zcm.C63_sign"
   ],
   "note": ""
  },
  {
   "property": "C64",
   "status": "proved",
   "theorems": [
    "Zcm.C64_LH",
    "Zcm.C64_RH"
   ],
   "note": ""
  },
  {
   "property": "C65",
   "status": "proved",
   "theorems": [
    "Zcm.C65_rotate",
    "Zcm.C65_axis"
   ],
   "note": ""
  },
  {
   "property": "C66",
   "status": "partial",
   "theorems": [
    "Zcm.C66_exp_log",
    "Zcm.C66_log2",
    "Zcm.C66_sqrt",
    "Zcm.C66_cbrt",
    "Zcm.C66_inversesqrt",
    "Zcm.C66_pow",
    "Zcm.C66_sum",
    "Zcm.C66_exp2_false",
    "Zcm.C66_exp2_partial",
    "Zcm.C66_vec2",
    "Zcm.C66_vec3",
    "Zcm.C66_vec4",
    "Zcm.C66_quat",
    "Zcm.C66_vec2_pow",
    "Zcm.C66_vec3_pow",
    "Zcm.C66_vec4_pow",
    "Zcm.C66_quat_pow"
   ],
   "note": "Every relation is proved in exact arithmetic except those of exp2, which calls expf: exp2(x) is e^x, so log2(exp2(x)) != x for every x != 0 (C66_exp2_false). C66_exp2_partial says what is left: exp2(0) = 1 and log(exp2(x)) = x."
  },
  {
   "property": "C67",
   "status": "proved",
   "theorems": [
    "Zcm.C67_exact",
    "Zcm.C67_float",
    "Zcm.C67_roundtrip"
   ],
   "note": ""
  },
  {
   "property": "C68",
   "status": "proved",
   "theorems": [
    "Zcm.C68_asin_acos",
    "Zcm.C68_angle",
    "Zcm.C68_atan",
    "Zcm.C68_atan2",
    "Zcm.C68_pythagoras",
    "Zcm.C68_addition",
    "Zcm.C68_hyperbolic",
    "Zcm.C68_hyperbolic_inverse",
    "Zcm.C68_vec2",
    "Zcm.C68_vec2_atan2",
    "Zcm.C68_vec3",
    "Zcm.C68_vec3_atan2",
    "Zcm.C68_vec4",
    "Zcm.C68_vec4_atan2"
   ],
   "note": ""
  },
  {
   "property": "C69",
   "status": "partial",
   "theorems": [
    "Zcm.C69_alpha_linear_gamma",
    "Zcm.C69_alpha_linear",
    "Zcm.C69_alpha_srgb_gamma",
    "Zcm.C69_alpha_srgb",
    "Zcm.C69_default",
    "Zcm.C69_decode",
    "Zcm.C69_encode",
    "Zcm.C69_encode_high",
    "Zcm.C69_decode_monotone",
    "Zcm.C69_encode_monotone",
    "Zcm.C69_encode_monotone_false",
    "Zcm.C69_inverse_false",
    "Zcm.C69_reciprocal_partial",
    "Zcm.C69_approx",
    "Zcm.C69_approx_false",
    "Zcm.C69_approx_partial"
   ],
   "note": "Alpha, the componentwise formulas and the monotonicity of the decoder are proved. The inverse claim is false with the same gamma: convertLinearToSRGB raises to Gamma, not 1/Gamma (C69_inverse_false); with the reciprocal gamma it holds to within 1e-30 when both directions take the same formula (C69_reciprocal_partial). With the decoder's gamma the encoder is not monotone (C69_encode_monotone_false). The overload without gamma is negative for dark colours (C69_approx_false) and monotone inside [0,1] from 1/256 up (C69_approx_partial)."
  },
  {
   "property": "C70",
   "status": "partial",
   "theorems": [
    "Zcm.C70_int",
    "Zcm.C70_bool",
    "Zcm.C70_ivec2",
    "Zcm.C70_bvec2",
    "Zcm.C70_ivec3",
    "Zcm.C70_bvec3",
    "Zcm.C70_ivec4",
    "Zcm.C70_bvec4",
    "Zcm.C70_float_false",
    "Zcm.C70_float_partial",
    "Zcm.C70_vec2_false",
    "Zcm.C70_vec2_partial",
    "Zcm.C70_vec3_false",
    "Zcm.C70_vec3_partial",
    "Zcm.C70_vec4_false",
    "Zcm.C70_vec4_partial",
    "Zcm.C70_quat_false",
    "Zcm.C70_quat_partial",
    "Zcm.C70_mat2_false",
    "Zcm.C70_mat2_partial",
    "Zcm.C70_mat3_false",
    "Zcm.C70_mat3_partial",
    "Zcm.C70_mat4_false",
    "Zcm.C70_mat4_partial"
   ],
   "note": "Proved for int, unsigned, bool, ivec and bvec. False for float-based types: 0.0 == -0.0 but their hashes differ (C70_*_false). Proved for values without zero components (C70_*_partial)."
  },
  {
   "property": "C71",
   "status": "partial",
   "theorems": [
    "Zcm.C71_int",
    "Zcm.C71_ivec2",
    "Zcm.C71_bvec2",
    "Zcm.C71_ivec3",
    "Zcm.C71_bvec3",
    "Zcm.C71_ivec4",
    "Zcm.C71_bvec4",
    "Zcm.C71_vec2",
    "Zcm.C71_vec3",
    "Zcm.C71_vec4",
    "Zcm.C71_quat",
    "Zcm.C71_mat2",
    "Zcm.C71_mat3",
    "Zcm.C71_mat4_partial",
    "Zcm.C71_mat4_false"
   ],
   "note": "Proved for int, unsigned, the vectors, quat, mat2 and mat3. False for mat4: hash(mat4) combines columns 0 and 3 only, so columns 1 and 2 are ignored (C71_mat4_false); proved for columns 0 and 3 (C71_mat4_partial). For the first component of a vector the change is shown when the second component is +0.0."
  },
  {
   "property": "C72",
   "status": "proved",
   "theorems": [
    "Zcm.C72_vec2_sum",
    "Zcm.C72_vec2_order",
    "Zcm.C72_vec2_min",
    "Zcm.C72_vec2_min_float",
    "Zcm.C72_ivec2_min",
    "Zcm.C72_vec2_max",
    "Zcm.C72_vec2_max_float",
    "Zcm.C72_ivec2_max",
    "Zcm.C72_ivec2_add",
    "Zcm.C72_ivec2_mul",
    "Zcm.C72_vec3_sum",
    "Zcm.C72_vec3_order",
    "Zcm.C72_vec3_min",
    "Zcm.C72_vec3_min_float",
    "Zcm.C72_ivec3_min",
    "Zcm.C72_vec3_max",
    "Zcm.C72_vec3_max_float",
    "Zcm.C72_ivec3_max",
    "Zcm.C72_ivec3_add",
    "Zcm.C72_ivec3_mul",
    "Zcm.C72_vec4_sum",
    "Zcm.C72_vec4_order",
    "Zcm.C72_vec4_min",
    "Zcm.C72_vec4_min_float",
    "Zcm.C72_ivec4_min",
    "Zcm.C72_vec4_max",
    "Zcm.C72_vec4_max_float",
    "Zcm.C72_ivec4_max",
    "Zcm.C72_ivec4_add",
    "Zcm.C72_ivec4_mul"
   ],
   "note": ""
  },
  {
   "property": "C73",
   "status": "proved",
   "theorems": [
    "Zcm.C73_pi",
    "Zcm.C73_two_pi",
    "Zcm.C73_root_pi",
    "Zcm.C73_half_pi",
    "Zcm.C73_three_over_two_pi",
    "Zcm.C73_quarter_pi",
    "Zcm.C73_one_over_pi",
    "Zcm.C73_one_over_two_pi",
    "Zcm.C73_two_over_pi",
    "Zcm.C73_four_over_pi",
    "Zcm.C73_two_over_root_pi",
    "Zcm.C73_one_over_root_two",
    "Zcm.C73_root_half_pi",
    "Zcm.C73_root_two_pi",
    "Zcm.C73_root_ln_four",
    "Zcm.C73_e",
    "Zcm.C73_euler",
    "Zcm.C73_root_two",
    "Zcm.C73_root_three",
    "Zcm.C73_root_five",
    "Zcm.C73_ln_two",
    "Zcm.C73_ln_ten",
    "Zcm.C73_third",
    "Zcm.C73_two_thirds",
    "Zcm.C73_golden_ratio",
    "Zcm.C73_ln_ln_two",
    "Zcm.C73_zero_one",
    "Zcm.C73_epsilon"
   ],
   "note": ""
  },
  {
   "property": "C74",
   "status": "proved",
   "theorems": [
    "Zcm.C74_vec2",
    "Zcm.C74_vec3",
    "Zcm.C74_vec4",
    "Zcm.C74_ivec2",
    "Zcm.C74_ivec3",
    "Zcm.C74_ivec4"
   ],
   "note": ""
  },
  {
   "property": "C75",
   "status": "proved",
   "theorems": [
    "Zcm.C75_float",
    "Zcm.C75_vec2",
    "Zcm.C75_vec3",
    "Zcm.C75_vec4",
    "Zcm.C75_quat"
   ],
   "note": ""
  },
  {
   "property": "C76",
   "status": "proved",
   "theorems": [
    "Zcm.C76_fract",
    "Zcm.C76_fract_vec",
    "Zcm.C76_clamp",
    "Zcm.C76_clamp_vec",
    "Zcm.C76_length",
    "Zcm.C76_smoothstep",
    "Zcm.C76_smoothstep_vec",
    "Zcm.C76_smoothstep_fin",
    "Zcm.C76_mix"
   ],
   "note": ""
  },
  {
   "property": "C77",
   "status": "proved",
   "theorems": [
    "Zcm.C77_mat2",
    "Zcm.C77_transpose2",
    "Zcm.C77_mat3",
    "Zcm.C77_transpose3",
    "Zcm.C77_mat4",
    "Zcm.C77_transpose4",
    "Zcm.C77_casts"
   ],
   "note": ""
  },
  {
   "property": "C78",
   "status": "proved",
   "theorems": [
    "Zcm.C78_ivec2",
    "Zcm.C78_ivec3",
    "Zcm.C78_ivec4"
   ],
   "note": ""
  },
  {
   "property": "C79",
   "status": "proved",
   "theorems": [
    "Zcm.C79_constructors",
    "Zcm.C79_default",
    "Zcm.C79_operators",
    "Zcm.C79_scalar_comm"
   ],
   "note": ""
  },
  {
   "property": "C80",
   "status": "proved",
   "theorems": [
    "Zcm.C80_sqrt",
    "Zcm.C80_vec2",
    "Zcm.C80_vec3",
    "Zcm.C80_vec4",
    "Zcm.C80_mat2",
    "Zcm.C80_mat3",
    "Zcm.C80_mat4",
    "Zcm.C80_quat",
    "Zcm.C80_fma",
    "Zcm.C80_fma_vec",
    "Zcm.C80_unique"
   ],
   "note": ""
  },
  {
   "property": "C81",
   "status": "proved",
   "theorems": [
    "Zcm.C81_dot_vec2",
    "Zcm.C81_dot_vec3",
    "Zcm.C81_dot_vec4",
    "Zcm.C81_dot_quat",
    "Zcm.C81_cross",
    "Zcm.C81_mat2_vec",
    "Zcm.C81_vec_mat2",
    "Zcm.C81_mat2_mul",
    "Zcm.C81_mat3_vec",
    "Zcm.C81_vec_mat3",
    "Zcm.C81_mat3_mul",
    "Zcm.C81_mat4_vec",
    "Zcm.C81_vec_mat4",
    "Zcm.C81_mat4_mul"
   ],
   "note": ""
  },
  {
   "property": "C82",
   "status": "proved",
   "theorems": [
    "Zcm.C82_length_vec2",
    "Zcm.C82_length_vec3",
    "Zcm.C82_length_vec4",
    "Zcm.C82_length_quat",
    "Zcm.C82_distance_vec2",
    "Zcm.C82_distance_vec3",
    "Zcm.C82_distance_vec4"
   ],
   "note": ""
  },
  {
   "property": "C83",
   "status": "proved",
   "theorems": [
    "Zcm.C83_vec2",
    "Zcm.C83_vec3",
    "Zcm.C83_vec4",
    "Zcm.C83_quat"
   ],
   "note": ""
  },
  {
   "property": "C84",
   "status": "proved",
   "theorems": [
    "Zcm.C84_vec2",
    "Zcm.C84_distance_vec2",
    "Zcm.C84_vec3",
    "Zcm.C84_distance_vec3",
    "Zcm.C84_vec4",
    "Zcm.C84_distance_vec4",
    "Zcm.C84_cross",
    "Zcm.C84_cross_self",
    "Zcm.C84_mat2",
    "Zcm.C84_mat3",
    "Zcm.C84_mat4"
   ],
   "note": ""
  },
  {
   "property": "C85",
   "status": "proved",
   "theorems": [
    "Zcm.C85_float",
    "Zcm.C85_mix",
    "Zcm.C85_roundings",
    "Zcm.C85_vec2_ops",
    "Zcm.C85_vec2_length",
    "Zcm.C85_vec3_ops",
    "Zcm.C85_vec3_length",
    "Zcm.C85_vec4_ops",
    "Zcm.C85_vec4_length"
   ],
   "note": ""
  },
  {
   "property": "C86",
   "status": "proved",
   "theorems": [
    "Zcm.C86_vec2",
    "Zcm.C86_vec3",
    "Zcm.C86_vec4",
    "Zcm.C86_cross",
    "Zcm.C86_dot_vec2",
    "Zcm.C86_mat2_vec",
    "Zcm.C86_vec_mat2",
    "Zcm.C86_mat2_mul",
    "Zcm.C86_dot_vec3",
    "Zcm.C86_mat3_vec",
    "Zcm.C86_vec_mat3",
    "Zcm.C86_mat3_mul",
    "Zcm.C86_dot_vec4",
    "Zcm.C86_mat4_vec",
    "Zcm.C86_vec_mat4",
    "Zcm.C86_mat4_mul",
    "Zcm.C86_determinant_mat2",
    "Zcm.C86_adjugate_mat2",
    "Zcm.C86_inverse_mat2",
    "Zcm.C86_inverse_mul_mat2",
    "Zcm.C86_determinant_mat3",
    "Zcm.C86_adjugate_mat3",
    "Zcm.C86_inverse_mat3",
    "Zcm.C86_inverse_mul_mat3",
    "Zcm.C86_determinant_mat4",
    "Zcm.C86_adjugate_mat4",
    "Zcm.C86_inverse_mat4",
    "Zcm.C86_inverse_mul_mat4"
   ],
   "note": ""
  },
  {
   "property": "C87",
   "status": "partial",
   "theorems": [
    "Zcm.C87_quat",
    "Zcm.C87_norm",
    "Zcm.C87_identity_false"
   ],
   "note": "The norm-wise bound is proved (C87_quat, C87_norm). The exactness of a product with quat() is false in binary32: C87_identity_false exhibits 1 + 2^-30 i, whose second component is lost by the factored formula of src/quat.cpp:208-220."
  },
  {
   "property": "C88",
   "status": "proved",
   "theorems": [
    "Zcm.C88_quat",
    "Zcm.C88_growth",
    "Zcm.C88_normalized"
   ],
   "note": ""
  },
  {
   "property": "C89",
   "status": "proved",
   "theorems": [
    "Zcm.C89_quat",
    "Zcm.C89_reference"
   ],
   "note": ""
  },
  {
   "property": "C90",
   "status": "proved",
   "theorems": [
    "Zcm.C90_rotate",
    "Zcm.C90_length",
    "Zcm.C90_history"
   ],
   "note": ""
  },
  {
   "property": "C91",
   "status": "proved",
   "theorems": [
    "Zcm.C91_mat3",
    "Zcm.C91_orthonormal",
    "Zcm.C91_mat4"
   ],
   "note": ""
  },
  {
   "property": "C92",
   "status": "proved",
   "theorems": [
    "Zcm.C92_mat2",
    "Zcm.C92_mat3",
    "Zcm.C92_mat4",
    "Zcm.C92_quat",
    "Zcm.C92_bvec2",
    "Zcm.C92_bvec3",
    "Zcm.C92_bvec4"
   ],
   "note": ""
  },
  {
   "property": "C93",
   "status": "proved",
   "theorems": [
    "Zcm.C93_translate_point",
    "Zcm.C93_translate_direction",
    "Zcm.C93_translate_twice",
    "Zcm.C93_scale_point",
    "Zcm.C93_scale_then_translate"
   ],
   "note": ""
  },
  {
   "property": "C94",
   "status": "proved",
   "theorems": [
    "Zcm.C94_inverse_quat",
    "Zcm.C94_inverse_elementary",
    "Zcm.C94_lookAt_RH",
    "Zcm.C94_lookAt_LH",
    "Zcm.C94_euler",
    "Zcm.C94_rotate",
    "Zcm.C94_slerp_angleAxis",
    "Zcm.C94_slerp_frame",
    "Zcm.C94_uv"
   ],
   "note": ""
  },
  {
   "property": "C95",
   "status": "partial",
   "theorems": [
    "Zcm.C95_normal3",
    "Zcm.C95_cross",
    "Zcm.C95_plane",
    "Zcm.C95_normal2_false",
    "Zcm.C95_normal2_partial"
   ],
   "note": "Proved for mat3 and mat4. False for mat2 (C95_normal2_false), because inverseTranspose(mat2) returns the plain inverse; C95_normal2_partial proves the claim for transpose(inverse(m)) and for symmetric m."
  },
  {
   "property": "C96",
   "status": "proved",
   "theorems": [
    "Zcm.C96_dot",
    "Zcm.C96_cross",
    "Zcm.C96_mulV",
    "Zcm.C96_mul",
    "Zcm.C96_vmul",
    "Zcm.C96_length",
    "Zcm.C96_normalize",
    "Zcm.C96_distance",
    "Zcm.C96_mix"
   ],
   "note": ""
  },
  {
   "property": "C97",
   "status": "proved",
   "theorems": [
    "Zcm.C97_mat2_operators",
    "Zcm.C97_mat3_operators",
    "Zcm.C97_mat4_operators",
    "Zcm.C97_matrixCompMult",
    "Zcm.C97_transpose",
    "Zcm.C97_determinant",
    "Zcm.C97_inverse",
    "Zcm.C97_adjugate",
    "Zcm.C97_inverseTranspose",
    "Zcm.C97_adjugateTranspose",
    "Zcm.C97_transforms",
    "Zcm.C97_lookAt",
    "Zcm.C97_ortho",
    "Zcm.C97_perspective",
    "Zcm.C97_casts",
    "Zcm.C97_quatLookAt",
    "Zcm.C97_decompose",
    "Zcm.C97_no_init"
   ],
   "note": ""
  },
  {
   "property": "C98",
   "status": "proved",
   "theorems": [
    "Zcm.C98_determinant_mat2",
    "Zcm.C98_determinant_mat3",
    "Zcm.C98_determinant_mat4",
    "Zcm.C98_sign_mat2",
    "Zcm.C98_sign_mat3",
    "Zcm.C98_sign_mat4",
    "Zcm.C98_adjugate_mat2",
    "Zcm.C98_adjugate_mat3",
    "Zcm.C98_adjugate_mat4",
    "Zcm.C98_inverse_mat2",
    "Zcm.C98_inverse_mat3",
    "Zcm.C98_inverse_mat4",
    "Zcm.C98_adjugateTranspose_mat3",
    "Zcm.C98_adjugateTranspose_mat4",
    "Zcm.C98_inverseTranspose_mat3",
    "Zcm.C98_inverseTranspose_mat4"
   ],
   "note": ""
  },
  {
   "property": "C99",
   "status": "proved",
   "theorems": [
    "Zcm.C99_vec2_operators",
    "Zcm.C99_vec3_operators",
    "Zcm.C99_vec4_operators",
    "Zcm.C99_quat_operators",
    "Zcm.C99_vec2_dot",
    "Zcm.C99_vec2_length",
    "Zcm.C99_vec3_dot",
    "Zcm.C99_vec3_length",
    "Zcm.C99_vec4_dot",
    "Zcm.C99_vec4_length",
    "Zcm.C99_quat_dot",
    "Zcm.C99_quat_length",
    "Zcm.C99_vec2_reflect",
    "Zcm.C99_vec2_faceforward",
    "Zcm.C99_vec3_reflect",
    "Zcm.C99_vec3_faceforward",
    "Zcm.C99_vec4_reflect",
    "Zcm.C99_vec4_faceforward",
    "Zcm.C99_cross",
    "Zcm.C99_scalar",
    "Zcm.C99_swallowed",
    "Zcm.C99_comparison",
    "Zcm.C99_vec2_eq",
    "Zcm.C99_vec3_eq",
    "Zcm.C99_vec4_eq",
    "Zcm.C99_quat_eq",
    "Zcm.C99_mat2_vec",
    "Zcm.C99_mat2_mul",
    "Zcm.C99_mat2_inverse",
    "Zcm.C99_mat3_vec",
    "Zcm.C99_mat3_mul",
    "Zcm.C99_mat3_inverse",
    "Zcm.C99_mat4_vec",
    "Zcm.C99_mat4_mul",
    "Zcm.C99_mat4_inverse",
    "Zcm.C99_quat_mul",
    "Zcm.C99_lerp",
    "Zcm.C99_casts",
    "Zcm.C99_decompose",
    "Zcm.C99_singular_mat2",
    "Zcm.C99_singular_mat3",
    "Zcm.C99_singular_mat4",
    "Zcm.C99_vec2_normalize",
    "Zcm.C99_vec2_length_iff",
    "Zcm.C99_vec3_normalize",
    "Zcm.C99_vec3_length_iff",
    "Zcm.C99_vec4_normalize",
    "Zcm.C99_vec4_length_iff"
   ],
   "note": ""
  },
  {
   "property": "C100",
   "status": "proved",
   "theorems": [
    "Zcm.C100_rotate",
    "Zcm.C100_rotate_last",
    "Zcm.C100_angleAxis",
    "Zcm.C100_angleAxis_unit",
    "Zcm.C100_vector",
    "Zcm.C100_quat_rotate",
    "Zcm.C100_mat3_cast",
    "Zcm.C100_euler",
    "Zcm.C100_identity",
    "Zcm.C100_orthonormal",
    "Zcm.C100_agree",
    "Zcm.C100_history",
    "Zcm.C100_matrix_history"
   ],
   "note": ""
  },
  {
   "property": "C101",
   "status": "proved",
   "theorems": [
    "Zcm.C101_ortho_matrix",
    "Zcm.C101_ortho",
    "Zcm.C101_orthoLH_ZO_matrix",
    "Zcm.C101_orthoLH_ZO",
    "Zcm.C101_orthoRH_ZO_matrix",
    "Zcm.C101_orthoRH_ZO",
    "Zcm.C101_orthoLH_NO_matrix",
    "Zcm.C101_orthoLH_NO",
    "Zcm.C101_orthoRH_NO_matrix",
    "Zcm.C101_orthoRH_NO",
    "Zcm.C101_perspectiveLH_ZO",
    "Zcm.C101_perspectiveRH_ZO",
    "Zcm.C101_perspectiveLH_NO",
    "Zcm.C101_perspectiveRH_NO",
    "Zcm.C101_ortho_symmetric",
    "Zcm.C101_orthoLH_ZO_symmetric",
    "Zcm.C101_orthoRH_ZO_symmetric",
    "Zcm.C101_orthoLH_NO_symmetric",
    "Zcm.C101_orthoRH_NO_symmetric"
   ],
   "note": ""
  },
  {
   "property": "C102",
   "status": "proved",
   "theorems": [
    "Zcm.C102_lookAtRH_matrix",
    "Zcm.C102_lookAtRH",
    "Zcm.C102_lookAtRH_axis",
    "Zcm.C102_lookAtLH_matrix",
    "Zcm.C102_lookAtLH",
    "Zcm.C102_lookAtLH_axis"
   ],
   "note": ""
  },
  {
   "property": "C103",
   "status": "proved",
   "theorems": [
    "Zcm.C103_mix",
    "Zcm.C103_mix_between",
    "Zcm.C103_mix_one",
    "Zcm.C103_vec2_mix",
    "Zcm.C103_vec3_mix",
    "Zcm.C103_vec4_mix",
    "Zcm.C103_smoothstep",
    "Zcm.C103_smoothstep_order",
    "Zcm.C103_vec2_smoothstep",
    "Zcm.C103_vec3_smoothstep",
    "Zcm.C103_vec4_smoothstep"
   ],
   "note": ""
  },
  {
   "property": "C104",
   "status": "proved",
   "theorems": [
    "Zcm.C104_arc",
    "Zcm.C104_lerp",
    "Zcm.C104_nlerp",
    "Zcm.C104_nlerp_hemisphere",
    "Zcm.C104_slerp"
   ],
   "note": ""
  },
  {
   "property": "C105",
   "status": "proved",
   "theorems": [
    "Zcm.C105_snell",
    "Zcm.C105_reflect_vec2",
    "Zcm.C105_refract_vec2",
    "Zcm.C105_refract_total_vec2",
    "Zcm.C105_faceforward_vec2",
    "Zcm.C105_reflect_vec3",
    "Zcm.C105_refract_vec3",
    "Zcm.C105_refract_total_vec3",
    "Zcm.C105_faceforward_vec3",
    "Zcm.C105_reflect_vec4",
    "Zcm.C105_refract_vec4",
    "Zcm.C105_refract_total_vec4",
    "Zcm.C105_faceforward_vec4"
   ],
   "note": ""
  },
  {
   "property": "C106",
   "status": "proved",
   "theorems": [
    "Zcm.C106_quat_cast",
    "Zcm.C106_quat_cast_mat4",
    "Zcm.C106_roundtrip",
    "Zcm.C106_back",
    "Zcm.C106_quatLookAtLH",
    "Zcm.C106_quatLookAtRH"
   ],
   "note": ""
  },
  {
   "property": "C107",
   "status": "proved",
   "theorems": [
    "Zcm.C107_conjugate",
    "Zcm.C107_inverse",
    "Zcm.C107_cancel",
    "Zcm.C107_back",
    "Zcm.C107_undo"
   ],
   "note": ""
  },
  {
   "property": "C108",
   "status": "proved",
   "theorems": [
    "Zcm.C108_direct",
    "Zcm.C108_unit",
    "Zcm.C108_opposite",
    "Zcm.C108_turns",
    "Zcm.C108_rotate"
   ],
   "note": ""
  },
  {
   "property": "C109",
   "status": "proved",
   "theorems": [
    "Zcm.C109_mat2",
    "Zcm.C109_mat2_vec",
    "Zcm.C109_mat2_order",
    "Zcm.C109_mat3",
    "Zcm.C109_mat3_vec",
    "Zcm.C109_mat3_order",
    "Zcm.C109_mat4",
    "Zcm.C109_mat4_vec",
    "Zcm.C109_mat4_order",
    "Zcm.C109_rotations"
   ],
   "note": ""
  },
  {
   "property": "C110",
   "status": "partial",
   "theorems": [
    "Zcm.C110_encode_range",
    "Zcm.C110_encode",
    "Zcm.C110_decode_partial",
    "Zcm.C110_roundtrip_partial",
    "Zcm.C110_equator_false"
   ],
   "note": "Range and accuracy of encode_octahedral are proved for both hemispheres. decode_octahedral is wrong on the lower half of the square (C39_lower_false), so the decoder and the round trip are proved only for the upper half (C110_decode_partial) and for z >= 5*2^-24*(|x|+|y|+|z|) (C110_roundtrip_partial). Nearer to the equator the encoded position can round into the lower half, and the round trip is wrong even for z >= 0 (C110_equator_false)."
  },
  {
   "property": "C111",
   "status": "proved",
   "theorems": [
    "Zcm.C111_vec2",
    "Zcm.C111_vec3",
    "Zcm.C111_vec4",
    "Zcm.C111_quat",
    "Zcm.C111_axis_finite",
    "Zcm.C111_angle",
    "Zcm.C111_angle_nan",
    "Zcm.C111_axis_angle",
    "Zcm.C111_roundtrip",
    "Zcm.C111_normalized"
   ],
   "note": ""
  },
  {
   "property": "C112",
   "status": "partial",
   "theorems": [
    "Zcm.C112_yaw",
    "Zcm.C112_chord",
    "Zcm.C112_finite",
    "Zcm.C112_roundtrip_partial",
    "Zcm.C112_extract",
    "Zcm.C112_lock_false"
   ],
   "note": "The round trip is proved for cos(yaw) >= 2^-12 with error 2^-16/cos(yaw) (C112_roundtrip_partial). It is false at gimbal lock: for quat(0.7, 0.1, 0.7, -0.1) the special case of pitch is missed because of rounding errors and the result differs from q and from -q by more than 1/2, with every accurate C library (C112_lock_false). The extraction and the absence of NaN are proved in full."
  },
  {
   "property": "C113",
   "status": "proved",
   "theorems": [
    "Zcm.C113_translation",
    "Zcm.C113_decompose",
    "Zcm.C113_parts",
    "Zcm.C113_recompose"
   ],
   "note": ""
  },
  {
   "property": "C114",
   "status": "proved",
   "theorems": [
    "Zcm.C114_mod",
    "Zcm.C114_range",
    "Zcm.C114_small",
    "Zcm.C114_int",
    "Zcm.C114_ends"
   ],
   "note": ""
  },
  {
   "property": "C115",
   "status": "proved",
   "theorems": [
    "Zcm.C115_orthogonal",
    "Zcm.C115_dot",
    "Zcm.C115_branchless",
    "Zcm.C115_branchless_long"
   ],
   "note": ""
  },
  {
   "property": "C116",
   "status": "proved",
   "theorems": [
    "Zcm.C116_decode",
    "Zcm.C116_encode",
    "Zcm.C116_roundtrip",
    "Zcm.C116_roundtrip_linear",
    "Zcm.C116_codes",
    "Zcm.C116_approx"
   ],
   "note": ""
  },
  {
   "property": "C117",
   "status": "proved",
   "theorems": [
    "Zcm.C117_unique",
    "Zcm.C117_point",
    "Zcm.C117_direction",
    "Zcm.C117_roundtrip",
    "Zcm.C117_roundtrip_world",
    "Zcm.C117_normal"
   ],
   "note": ""
  },
  {
   "property": "C118",
   "status": "proved",
   "theorems": [
    "Zcm.C118_perspectiveLH_ZO",
    "Zcm.C118_perspectiveRH_ZO",
    "Zcm.C118_perspectiveLH_NO",
    "Zcm.C118_perspectiveRH_NO"
   ],
   "note": ""
  },
  {
   "property": "C119",
   "status": "proved",
   "theorems": [
    "Zcm.C119_inversesqrt",
    "Zcm.C119_order",
    "Zcm.C119_special",
    "Zcm.C119_product",
    "Zcm.C119_square",
    "Zcm.C119_vec2",
    "Zcm.C119_vec3",
    "Zcm.C119_vec4",
    "Zcm.C119_quat",
    "Zcm.C119_compAdd_vec2",
    "Zcm.C119_compAdd_vec2_order",
    "Zcm.C119_compMul_vec2",
    "Zcm.C119_compAdd_vec3",
    "Zcm.C119_compAdd_vec3_order",
    "Zcm.C119_compMul_vec3",
    "Zcm.C119_compAdd_vec4",
    "Zcm.C119_compAdd_vec4_order",
    "Zcm.C119_compMul_vec4"
   ],
   "note": ""
  },
  {
   "property": "C120",
   "status": "proved",
   "theorems": [
    "Zcm.C120_RH_ZO",
    "Zcm.C120_RH_NO",
    "Zcm.C120_LH_ZO",
    "Zcm.C120_LH_NO",
    "Zcm.C120_RH_ZO_center",
    "Zcm.C120_RH_NO_center",
    "Zcm.C120_LH_ZO_center",
    "Zcm.C120_LH_NO_center",
    "Zcm.C120_orders"
   ],
   "note": ""
  },
  {
   "property": "C121",
   "status": "proved",
   "theorems": [
    "Zcm.C121_ortho",
    "Zcm.C121_orthoLH_ZO",
    "Zcm.C121_orthoRH_ZO",
    "Zcm.C121_orthoLH_NO",
    "Zcm.C121_orthoRH_NO",
    "Zcm.C121_perspectiveLH_ZO",
    "Zcm.C121_perspectiveLH_NO",
    "Zcm.C121_perspectiveRH_ZO",
    "Zcm.C121_perspectiveRH_NO",
    "Zcm.C121_cameraLH_ZO",
    "Zcm.C121_cameraLH_NO",
    "Zcm.C121_cameraRH_ZO",
    "Zcm.C121_cameraRH_NO"
   ],
   "note": ""
  },
  {
   "property": "C122",
   "status": "proved",
   "theorems": [
    "Zcm.C122_cos_vec2",
    "Zcm.C122_angle_vec2",
    "Zcm.C122_cauchy_vec2",
    "Zcm.C122_facing_vec2",
    "Zcm.C122_triangle_vec2",
    "Zcm.C122_nearer_vec2",
    "Zcm.C122_cos_vec3",
    "Zcm.C122_angle_vec3",
    "Zcm.C122_cauchy_vec3",
    "Zcm.C122_facing_vec3",
    "Zcm.C122_triangle_vec3",
    "Zcm.C122_nearer_vec3",
    "Zcm.C122_cos_vec4",
    "Zcm.C122_angle_vec4",
    "Zcm.C122_cauchy_vec4",
    "Zcm.C122_facing_vec4",
    "Zcm.C122_triangle_vec4",
    "Zcm.C122_nearer_vec4",
    "Zcm.C122_cross_length",
    "Zcm.C122_cross_perp",
    "Zcm.C122_acos_nan"
   ],
   "note": ""
  },
  {
   "property": "C123",
   "status": "proved",
   "theorems": [
    "Zcm.C123_normal",
    "Zcm.C123_winding",
    "Zcm.C123_area",
    "Zcm.C123_height",
    "Zcm.C123_side"
   ],
   "note": ""
  },
  {
   "property": "C124",
   "status": "proved",
   "theorems": [
    "Zcm.C124_mat2_vec",
    "Zcm.C124_vec_mat2",
    "Zcm.C124_mat2",
    "Zcm.C124_mat2_right",
    "Zcm.C124_mat2_left",
    "Zcm.C124_mat3_vec",
    "Zcm.C124_vec_mat3",
    "Zcm.C124_mat3",
    "Zcm.C124_mat3_right",
    "Zcm.C124_mat3_left",
    "Zcm.C124_mat4_vec",
    "Zcm.C124_vec_mat4",
    "Zcm.C124_mat4",
    "Zcm.C124_mat4_right",
    "Zcm.C124_mat4_left"
   ],
   "note": ""
  },
  {
   "property": "C125",
   "status": "proved",
   "theorems": [
    "Zcm.C125_matrix",
    "Zcm.C125_last",
    "Zcm.C125_direct",
    "Zcm.C125_agree"
   ],
   "note": ""
  },
  {
   "property": "C126",
   "status": "proved",
   "theorems": [
    "Zcm.C126_perspectiveLH_ZO",
    "Zcm.C126_perspectiveLH_ZO_behind",
    "Zcm.C126_perspectiveLH_NO",
    "Zcm.C126_perspectiveLH_NO_behind",
    "Zcm.C126_perspectiveRH_ZO",
    "Zcm.C126_perspectiveRH_ZO_behind",
    "Zcm.C126_perspectiveRH_NO",
    "Zcm.C126_perspectiveRH_NO_behind"
   ],
   "note": ""
  },
  {
   "property": "C127",
   "status": "proved",
   "theorems": [
    "Zcm.C127_vec2",
    "Zcm.C127_ivec2",
    "Zcm.C127_bvec2",
    "Zcm.C127_mat2",
    "Zcm.C127_vec3",
    "Zcm.C127_ivec3",
    "Zcm.C127_bvec3",
    "Zcm.C127_mat3",
    "Zcm.C127_vec4",
    "Zcm.C127_ivec4",
    "Zcm.C127_bvec4",
    "Zcm.C127_mat4",
    "Zcm.C127_quat",
    "Zcm.C127_make_vec2",
    "Zcm.C127_make_vec3",
    "Zcm.C127_make_vec4",
    "Zcm.C127_make_ivec2",
    "Zcm.C127_make_ivec3",
    "Zcm.C127_make_ivec4",
    "Zcm.C127_make_bvec2",
    "Zcm.C127_make_bvec3",
    "Zcm.C127_make_bvec4",
    "Zcm.C127_make_mat2",
    "Zcm.C127_make_mat3",
    "Zcm.C127_make_mat4",
    "Zcm.C127_make_quat",
    "Zcm.C127_perspectiveRH_ZO",
    "Zcm.C127_perspectiveRH_NO",
    "Zcm.C127_perspectiveLH_ZO",
    "Zcm.C127_perspectiveLH_NO",
    "Zcm.C127_lerp",
    "Zcm.C127_nlerp"
   ],
   "note": ""
  },
  {
   "property": "C128",
   "status": "proved",
   "theorems": [
    "Zcm.C128_dot",
    "Zcm.C128_cross",
    "Zcm.C128_distance"
   ],
   "note": ""
  },
  {
   "property": "C129",
   "status": "proved",
   "theorems": [
    "Zcm.C129_pythagoras",
    "Zcm.C129_polar",
    "Zcm.C129_radius",
    "Zcm.C129_asin_acos",
    "Zcm.C129_degrees",
    "Zcm.C129_exp_log",
    "Zcm.C129_log_exp"
   ],
   "note": ""
  },
  {
   "property": "C130",
   "status": "proved",
   "theorems": [
    "Zcm.C130_transpose_mat2",
    "Zcm.C130_row_mat2",
    "Zcm.C130_columns_mat2",
    "Zcm.C130_mul_add_vec2",
    "Zcm.C130_add_mul_vec2",
    "Zcm.C130_mul_add_mat2",
    "Zcm.C130_mul_sub_vec2",
    "Zcm.C130_sub_mul_vec2",
    "Zcm.C130_mul_sub_mat2",
    "Zcm.C130_transpose_mat3",
    "Zcm.C130_row_mat3",
    "Zcm.C130_columns_mat3",
    "Zcm.C130_mul_add_vec3",
    "Zcm.C130_add_mul_vec3",
    "Zcm.C130_mul_add_mat3",
    "Zcm.C130_mul_sub_vec3",
    "Zcm.C130_sub_mul_vec3",
    "Zcm.C130_mul_sub_mat3",
    "Zcm.C130_transpose_mat4",
    "Zcm.C130_row_mat4",
    "Zcm.C130_columns_mat4",
    "Zcm.C130_columns_differ_mat4",
    "Zcm.C130_columns_close_mat4",
    "Zcm.C130_mul_add_vec4",
    "Zcm.C130_add_mul_vec4",
    "Zcm.C130_mul_add_mat4",
    "Zcm.C130_mul_sub_vec4",
    "Zcm.C130_sub_mul_vec4",
    "Zcm.C130_mul_sub_mat4"
   ],
   "note": ""
  },
  {
   "property": "C131",
   "status": "proved",
   "theorems": [
    "Zcm.C131_sum_vec2",
    "Zcm.C131_mean_vec2",
    "Zcm.C131_product_vec2",
    "Zcm.C131_counter_vec2",
    "Zcm.C131_sum_vec3",
    "Zcm.C131_mean_vec3",
    "Zcm.C131_product_vec3",
    "Zcm.C131_counter_vec3",
    "Zcm.C131_sum_vec4",
    "Zcm.C131_mean_vec4",
    "Zcm.C131_product_vec4",
    "Zcm.C131_counter_vec4",
    "Zcm.C131_sum_quat",
    "Zcm.C131_sum_mat2",
    "Zcm.C131_sum_mat3",
    "Zcm.C131_sum_mat4"
   ],
   "note": ""
  },
  {
   "property": "C132",
   "status": "proved",
   "theorems": [
    "Zcm.C132_vec2_box",
    "Zcm.C132_vec2_box_nan",
    "Zcm.C132_vec2_box_order",
    "Zcm.C132_vec2_box_member",
    "Zcm.C132_vec2_nearest",
    "Zcm.C132_ivec2_box",
    "Zcm.C132_vec3_box",
    "Zcm.C132_vec3_box_nan",
    "Zcm.C132_vec3_box_order",
    "Zcm.C132_vec3_box_member",
    "Zcm.C132_vec3_nearest",
    "Zcm.C132_ivec3_box",
    "Zcm.C132_vec4_box",
    "Zcm.C132_vec4_box_nan",
    "Zcm.C132_vec4_box_order",
    "Zcm.C132_vec4_box_member",
    "Zcm.C132_vec4_nearest",
    "Zcm.C132_ivec4_box"
   ],
   "note": ""
  },
  {
   "property": "C133",
   "status": "proved",
   "theorems": [
    "Zcm.C133_sqrt",
    "Zcm.C133_sqrt_limits",
    "Zcm.C133_difference",
    "Zcm.C133_vec2_length",
    "Zcm.C133_vec2_distance",
    "Zcm.C133_vec2_normalize",
    "Zcm.C133_vec2_difference",
    "Zcm.C133_vec2_midpoint",
    "Zcm.C133_vec3_length",
    "Zcm.C133_vec3_distance",
    "Zcm.C133_vec3_normalize",
    "Zcm.C133_vec3_difference",
    "Zcm.C133_vec3_midpoint",
    "Zcm.C133_vec4_length",
    "Zcm.C133_vec4_distance",
    "Zcm.C133_vec4_normalize",
    "Zcm.C133_vec4_difference",
    "Zcm.C133_vec4_midpoint",
    "Zcm.C133_quat_length",
    "Zcm.C133_quat_normalize",
    "Zcm.C133_normalize_below_one"
   ],
   "note": ""
  },
  {
   "property": "C134",
   "status": "proved",
   "theorems": [
    "Zcm.C134_mat2_vec",
    "Zcm.C134_vec_mat2",
    "Zcm.C134_dot_vec2",
    "Zcm.C134_mat3_vec",
    "Zcm.C134_vec_mat3",
    "Zcm.C134_dot_vec3",
    "Zcm.C134_mat4_vec",
    "Zcm.C134_vec_mat4",
    "Zcm.C134_dot_vec4",
    "Zcm.C134_quat_vec3"
   ],
   "note": ""
  },
  {
   "property": "C135",
   "status": "proved",
   "theorems": [
    "Zcm.C135_quat",
    "Zcm.C135_quat_once",
    "Zcm.C135_quat_add",
    "Zcm.C135_quat_order",
    "Zcm.C135_quat_full",
    "Zcm.C135_matrix",
    "Zcm.C135_matrix_once",
    "Zcm.C135_matrix_add",
    "Zcm.C135_matrix_full"
   ],
   "note": ""
  },
  {
   "property": "C136",
   "status": "proved",
   "theorems": [
    "Zcm.C136_mirrors_vec2",
    "Zcm.C136_twice_vec2",
    "Zcm.C136_inner_vec2",
    "Zcm.C136_mirrors_vec3",
    "Zcm.C136_twice_vec3",
    "Zcm.C136_inner_vec3",
    "Zcm.C136_mirrors_vec4",
    "Zcm.C136_twice_vec4",
    "Zcm.C136_inner_vec4",
    "Zcm.C136_reversible_vec2",
    "Zcm.C136_plate_vec2",
    "Zcm.C136_reversible_vec3",
    "Zcm.C136_plate_vec3",
    "Zcm.C136_reversible_vec4",
    "Zcm.C136_plate_vec4"
   ],
   "note": ""
  },
  {
   "property": "C137",
   "status": "proved",
   "theorems": [
    "Zcm.C137_bezier",
    "Zcm.C137_bezier_vec2",
    "Zcm.C137_bezier_vec3",
    "Zcm.C137_bezier_vec4",
    "Zcm.C137_follow",
    "Zcm.C137_settle",
    "Zcm.C137_follow_vec2",
    "Zcm.C137_settle_vec2",
    "Zcm.C137_follow_vec3",
    "Zcm.C137_settle_vec3",
    "Zcm.C137_follow_vec4",
    "Zcm.C137_settle_vec4"
   ],
   "note": ""
  },
  {
   "property": "C138",
   "status": "proved",
   "theorems": [
    "Zcm.C138_exact",
    "Zcm.C138_tangent",
    "Zcm.C138_bitangent",
    "Zcm.C138_orthonormal"
   ],
   "note": ""
  },
  {
   "property": "C139",
   "status": "proved",
   "theorems": [
    "Zcm.C139_float",
    "Zcm.C139_vec2",
    "Zcm.C139_vec3",
    "Zcm.C139_vec4",
    "Zcm.C139_mat2",
    "Zcm.C139_mat3",
    "Zcm.C139_mat4",
    "Zcm.C139_quat"
   ],
   "note": ""
  },
  {
   "property": "C140",
   "status": "proved",
   "theorems": [
    "Zcm.C140_readback",
    "Zcm.C140_scalings",
    "Zcm.C140_added_back",
    "Zcm.C140_vec2_self",
    "Zcm.C140_vec2_readback",
    "Zcm.C140_vec2_scalings",
    "Zcm.C140_vec2_scaled_back",
    "Zcm.C140_vec2_moved_back",
    "Zcm.C140_vec3_self",
    "Zcm.C140_vec3_readback",
    "Zcm.C140_vec3_scalings",
    "Zcm.C140_vec3_scaled_back",
    "Zcm.C140_vec3_moved_back",
    "Zcm.C140_vec4_self",
    "Zcm.C140_vec4_readback",
    "Zcm.C140_vec4_scalings",
    "Zcm.C140_vec4_scaled_back",
    "Zcm.C140_vec4_moved_back"
   ],
   "note": ""
  },
  {
   "property": "C141",
   "status": "proved",
   "theorems": [
    "Zcm.C141_time",
    "Zcm.C141_hit",
    "Zcm.C141_exact",
    "Zcm.C141_on_plane",
    "Zcm.C141_front",
    "Zcm.C141_symmetry"
   ],
   "note": ""
  },
  {
   "property": "C142",
   "status": "proved",
   "theorems": [
    "Zcm.C142_float",
    "Zcm.C142_blend",
    "Zcm.C142_vec2",
    "Zcm.C142_vec3",
    "Zcm.C142_vec4",
    "Zcm.C142_blend_vec2",
    "Zcm.C142_blend_vec3",
    "Zcm.C142_blend_vec4",
    "Zcm.C142_mat2",
    "Zcm.C142_mat3",
    "Zcm.C142_mat4",
    "Zcm.C142_quat"
   ],
   "note": ""
  },
  {
   "property": "C143",
   "status": "proved",
   "theorems": [
    "Zcm.C143_exact_line",
    "Zcm.C143_exact_segment",
    "Zcm.C143_parameter",
    "Zcm.C143_line",
    "Zcm.C143_segment",
    "Zcm.C143_perpendicular",
    "Zcm.C143_nearest",
    "Zcm.C143_before",
    "Zcm.C143_after"
   ],
   "note": ""
  },
  {
   "property": "C144",
   "status": "proved",
   "theorems": [
    "Zcm.C144_vec2",
    "Zcm.C144_vec3",
    "Zcm.C144_vec4",
    "Zcm.C144_coast_vec3",
    "Zcm.C144_coast_vec2",
    "Zcm.C144_exact_constant"
   ],
   "note": ""
  },
  {
   "property": "C145",
   "status": "proved",
   "theorems": [
    "Zcm.C145_RH_ZO",
    "Zcm.C145_RH_NO",
    "Zcm.C145_LH_ZO",
    "Zcm.C145_LH_NO"
   ],
   "note": ""
  },
  {
   "property": "C146",
   "status": "proved",
   "theorems": [
    "Zcm.C146_exact_miss",
    "Zcm.C146_exact_hit",
    "Zcm.C146_discriminant",
    "Zcm.C146_decision",
    "Zcm.C146_distance",
    "Zcm.C146_ahead",
    "Zcm.C146_point",
    "Zcm.C146_on_sphere"
   ],
   "note": ""
  },
  {
   "property": "C147",
   "status": "proved",
   "theorems": [
    "Zcm.C147_vec2_nested",
    "Zcm.C147_vec2_hierarchy",
    "Zcm.C147_vec2_decision",
    "Zcm.C147_vec3_nested",
    "Zcm.C147_vec3_hierarchy",
    "Zcm.C147_vec3_decision"
   ],
   "note": ""
  },
  {
   "property": "C148",
   "status": "proved",
   "theorems": [
    "Zcm.C148_vec2_edge",
    "Zcm.C148_vec2_accurate",
    "Zcm.C148_vec2_cover",
    "Zcm.C148_vec2_fan",
    "Zcm.C148_vec2_unique",
    "Zcm.C148_vec2_exact",
    "Zcm.C148_vec3_edge",
    "Zcm.C148_vec3_accurate",
    "Zcm.C148_vec3_cover",
    "Zcm.C148_vec3_fan",
    "Zcm.C148_vec3_unique",
    "Zcm.C148_vec3_exact"
   ],
   "note": ""
  },
  {
   "property": "C149",
   "status": "proved",
   "theorems": [
    "Zcm.C149_vec2_corner",
    "Zcm.C149_vec2_cull",
    "Zcm.C149_vec2_nested",
    "Zcm.C149_vec2_decision",
    "Zcm.C149_vec3_corner",
    "Zcm.C149_vec3_cull",
    "Zcm.C149_vec3_nested",
    "Zcm.C149_vec3_decision",
    "Zcm.C149_vec4_corner",
    "Zcm.C149_vec4_cull",
    "Zcm.C149_vec4_nested",
    "Zcm.C149_vec4_decision"
   ],
   "note": ""
  },
  {
   "property": "C150",
   "status": "proved",
   "theorems": [
    "Zcm.C150_exact",
    "Zcm.C150_box",
    "Zcm.C150_decision"
   ],
   "note": ""
  },
  {
   "property": "C151",
   "status": "proved",
   "theorems": [
    "Zcm.C151_ivec2_hash",
    "Zcm.C151_bvec2_hash",
    "Zcm.C151_ivec2_ordered",
    "Zcm.C151_ivec2_sort",
    "Zcm.C151_ivec3_hash",
    "Zcm.C151_bvec3_hash",
    "Zcm.C151_ivec3_ordered",
    "Zcm.C151_ivec3_sort",
    "Zcm.C151_ivec4_hash",
    "Zcm.C151_bvec4_hash",
    "Zcm.C151_ivec4_ordered",
    "Zcm.C151_ivec4_sort",
    "Zcm.C151_vec2_hash",
    "Zcm.C151_vec2_excluded",
    "Zcm.C151_vec3_hash",
    "Zcm.C151_vec3_excluded",
    "Zcm.C151_vec4_hash",
    "Zcm.C151_vec4_excluded",
    "Zcm.C151_quat_hash",
    "Zcm.C151_quat_excluded",
    "Zcm.C151_mat2_hash",
    "Zcm.C151_mat2_excluded",
    "Zcm.C151_mat3_hash",
    "Zcm.C151_mat3_excluded",
    "Zcm.C151_mat4_hash",
    "Zcm.C151_mat4_excluded"
   ],
   "note": ""
  },
  {
   "property": "C152",
   "status": "proved",
   "theorems": [
    "Zcm.C152_vec2_nearest",
    "Zcm.C152_vec2_nearest_squared",
    "Zcm.C152_vec2_nearest_exact",
    "Zcm.C152_vec2_sphere",
    "Zcm.C152_vec2_sphere_exact",
    "Zcm.C152_vec3_nearest",
    "Zcm.C152_vec3_nearest_squared",
    "Zcm.C152_vec3_nearest_exact",
    "Zcm.C152_vec3_sphere",
    "Zcm.C152_vec3_sphere_exact",
    "Zcm.C152_vec4_nearest",
    "Zcm.C152_vec4_nearest_squared",
    "Zcm.C152_vec4_nearest_exact",
    "Zcm.C152_vec4_sphere",
    "Zcm.C152_vec4_sphere_exact"
   ],
   "note": ""
  },
  {
   "property": "C153",
   "status": "proved",
   "theorems": [
    "Zcm.C153_vec2_ordered",
    "Zcm.C153_vec2_search",
    "Zcm.C153_vec2_cell",
    "Zcm.C153_vec2_power",
    "Zcm.C153_vec2_neighbours",
    "Zcm.C153_vec2_around",
    "Zcm.C153_vec3_ordered",
    "Zcm.C153_vec3_search",
    "Zcm.C153_vec3_cell",
    "Zcm.C153_vec3_power",
    "Zcm.C153_vec3_neighbours",
    "Zcm.C153_vec3_around",
    "Zcm.C153_vec4_ordered",
    "Zcm.C153_vec4_search",
    "Zcm.C153_vec4_cell",
    "Zcm.C153_vec4_power",
    "Zcm.C153_vec4_neighbours",
    "Zcm.C153_vec4_around"
   ],
   "note": ""
  },
  {
   "property": "C154",
   "status": "proved",
   "theorems": [
    "Zcm.C154_float_shrink",
    "Zcm.C154_corner",
    "Zcm.C154_wrap_outside",
    "Zcm.C154_vec2_pixel",
    "Zcm.C154_vec2_ordered",
    "Zcm.C154_vec2_center",
    "Zcm.C154_vec2_wrap",
    "Zcm.C154_vec2_quantise",
    "Zcm.C154_vec2_levels",
    "Zcm.C154_vec3_pixel",
    "Zcm.C154_vec3_ordered",
    "Zcm.C154_vec3_center",
    "Zcm.C154_vec3_wrap",
    "Zcm.C154_vec3_quantise",
    "Zcm.C154_vec3_levels",
    "Zcm.C154_vec4_pixel",
    "Zcm.C154_vec4_ordered",
    "Zcm.C154_vec4_center",
    "Zcm.C154_vec4_wrap",
    "Zcm.C154_vec4_quantise",
    "Zcm.C154_vec4_levels"
   ],
   "note": ""
  },
  {
   "property": "C155",
   "status": "proved",
   "theorems": [
    "Zcm.C155_vec2_ends",
    "Zcm.C155_vec2_kept",
    "Zcm.C155_vec2_adjacent",
    "Zcm.C155_vec3_ends",
    "Zcm.C155_vec3_kept",
    "Zcm.C155_vec3_adjacent",
    "Zcm.C155_vec4_ends",
    "Zcm.C155_vec4_kept",
    "Zcm.C155_vec4_adjacent",
    "Zcm.C155_limit"
   ],
   "note": ""
  },
  {
   "property": "C156",
   "status": "proved",
   "theorems": [
    "Zcm.C156_vec3_layers",
    "Zcm.C156_vec3_ends",
    "Zcm.C156_vec3_pure",
    "Zcm.C156_vec3_monotone",
    "Zcm.C156_vec3_screen",
    "Zcm.C156_vec4_layers",
    "Zcm.C156_vec4_ends",
    "Zcm.C156_vec4_pure",
    "Zcm.C156_vec4_monotone",
    "Zcm.C156_vec4_screen",
    "Zcm.C156_over_layers",
    "Zcm.C156_over_opaque",
    "Zcm.C156_over_ends"
   ],
   "note": ""
  },
  {
   "property": "C157",
   "status": "proved",
   "theorems": [
    "Zcm.C157_vec2_round",
    "Zcm.C157_vec2_arrives",
    "Zcm.C157_vec2_way",
    "Zcm.C157_vec3_round",
    "Zcm.C157_vec3_arrives",
    "Zcm.C157_vec3_way",
    "Zcm.C157_vec4_round",
    "Zcm.C157_vec4_arrives",
    "Zcm.C157_vec4_way",
    "Zcm.C157_stuck"
   ],
   "note": ""
  },
  {
   "property": "C158",
   "status": "proved",
   "theorems": [
    "Zcm.C158_polygon",
    "Zcm.C158_vec2",
    "Zcm.C158_vec2_shared",
    "Zcm.C158_vec3",
    "Zcm.C158_vec3_shared",
    "Zcm.C158_vec4",
    "Zcm.C158_vec4_shared",
    "Zcm.C158_crack"
   ],
   "note": ""
  },
  {
   "property": "C159",
   "status": "proved",
   "theorems": [
    "Zcm.C159_ivec2",
    "Zcm.C159_ivec2_back",
    "Zcm.C159_ivec2_div",
    "Zcm.C159_ivec3",
    "Zcm.C159_ivec3_back",
    "Zcm.C159_ivec3_div"
   ],
   "note": ""
  },
  {
   "property": "C160",
   "status": "proved",
   "theorems": [
    "Zcm.C160_vec2_scene",
    "Zcm.C160_vec2_never_past",
    "Zcm.C160_vec2_stops",
    "Zcm.C160_vec3_scene",
    "Zcm.C160_vec3_never_past",
    "Zcm.C160_vec3_stops"
   ],
   "note": ""
  },
  {
   "property": "C161",
   "status": "proved",
   "theorems": [
    "Zcm.C161_ivec2",
    "Zcm.C161_ivec2_back",
    "Zcm.C161_ivec2_blocks",
    "Zcm.C161_ivec3",
    "Zcm.C161_ivec3_back",
    "Zcm.C161_ivec3_printed"
   ],
   "note": ""
  },
  {
   "property": "C162",
   "status": "proved",
   "theorems": [
    "Zcm.C162_ivec2_exact",
    "Zcm.C162_ivec2_overflow",
    "Zcm.C162_ivec2_shared_edge",
    "Zcm.C162_ivec2_two_triangles",
    "Zcm.C162_ivec2_at_most_once",
    "Zcm.C162_ivec2_polygon",
    "Zcm.C162_ivec2_inside"
   ],
   "note": ""
  },
  {
   "property": "C163",
   "status": "proved",
   "theorems": [
    "Zcm.C163_ivec2",
    "Zcm.C163_ivec2_overflow"
   ],
   "note": ""
  },
  {
   "property": "C164",
   "status": "proved",
   "theorems": [
    "Zcm.C164_ivec2_winding",
    "Zcm.C164_ivec2_same_boundary",
    "Zcm.C164_ivec2_convex",
    "Zcm.C164_ivec2_any_triangles"
   ],
   "note": ""
  },
  {
   "property": "C165",
   "status": "proved",
   "theorems": [
    "Zcm.C165_ivec2_exact",
    "Zcm.C165_ivec2_mesh",
    "Zcm.C165_ivec2_first_corner",
    "Zcm.C165_ivec2_other_way",
    "Zcm.C165_ivec2_moved",
    "Zcm.C165_ivec2_positive",
    "Zcm.C165_ivec2_overflow"
   ],
   "note": ""
  },
  {
   "property": "C166",
   "status": "proved",
   "theorems": [
    "Zcm.C166_ivec2_gcd",
    "Zcm.C166_ivec2_shortest",
    "Zcm.C166_ivec2_points",
    "Zcm.C166_ivec2_undefined"
   ],
   "note": ""
  }
 ]
}