import Verif.Props.C01
import Verif.Props.C02
import Verif.Props.C03
import Verif.Props.C04
import Verif.Props.C05
import Verif.Props.C06
import Verif.Props.C07
import Verif.Props.C08
import Verif.Props.C09
import Verif.Props.C09F32
import Verif.Props.C10
import Verif.Props.C100
import Verif.Props.C101
import Verif.Props.C102
import Verif.Props.C103
import Verif.Props.C104
import Verif.Props.C105
import Verif.Props.C106
import Verif.Props.C107
import Verif.Props.C108
import Verif.Props.C109
import Verif.Props.C11
import Verif.Props.C110
import Verif.Props.C111
import Verif.Props.C112
import Verif.Props.C113
import Verif.Props.C114
import Verif.Props.C115
import Verif.Props.C116
import Verif.Props.C117
import Verif.Props.C118
import Verif.Props.C119
import Verif.Props.C12
import Verif.Props.C120
import Verif.Props.C121
import Verif.Props.C122
import Verif.Props.C123
import Verif.Props.C124
import Verif.Props.C125
import Verif.Props.C126
import Verif.Props.C127
import Verif.Props.C128
import Verif.Props.C129
import Verif.Props.C13
import Verif.Props.C130
import Verif.Props.C131
import Verif.Props.C132
import Verif.Props.C133
import Verif.Props.C134
import Verif.Props.C135
import Verif.Props.C136
import Verif.Props.C137
import Verif.Props.C138
import Verif.Props.C139
import Verif.Props.C14
import Verif.Props.C140
import Verif.Props.C141
import Verif.Props.C142
import Verif.Props.C143
import Verif.Props.C144
import Verif.Props.C145
import Verif.Props.C146
import Verif.Props.C147
import Verif.Props.C148
import Verif.Props.C149
import Verif.Props.C14F32
import Verif.Props.C15
import Verif.Props.C150
import Verif.Props.C151
import Verif.Props.C152
import Verif.Props.C153
import Verif.Props.C154
import Verif.Props.C155
import Verif.Props.C156
import Verif.Props.C157
import Verif.Props.C158
import Verif.Props.C159
import Verif.Props.C16
import Verif.Props.C160
import Verif.Props.C161
import Verif.Props.C162
import Verif.Props.C163
import Verif.Props.C164
import Verif.Props.C165
import Verif.Props.C166
import Verif.Props.C17
import Verif.Props.C18
import Verif.Props.C19
import Verif.Props.C20
import Verif.Props.C21
import Verif.Props.C22
import Verif.Props.C23
import Verif.Props.C24
import Verif.Props.C25
import Verif.Props.C26
import Verif.Props.C27
import Verif.Props.C28
import Verif.Props.C29
import Verif.Props.C30
import Verif.Props.C31
import Verif.Props.C32
import Verif.Props.C33
import Verif.Props.C34
import Verif.Props.C35
import Verif.Props.C36
import Verif.Props.C37
import Verif.Props.C38
import Verif.Props.C39
import Verif.Props.C40
import Verif.Props.C41
import Verif.Props.C42
import Verif.Props.C43
import Verif.Props.C44
import Verif.Props.C45
import Verif.Props.C46
import Verif.Props.C47
import Verif.Props.C48
import Verif.Props.C49
import Verif.Props.C50
import Verif.Props.C51
import Verif.Props.C52
import Verif.Props.C53
import Verif.Props.C54
import Verif.Props.C55
import Verif.Props.C56
import Verif.Props.C57
import Verif.Props.C58
import Verif.Props.C59
import Verif.Props.C60
import Verif.Props.C61
import Verif.Props.C62
import Verif.Props.C63
import Verif.Props.C64
import Verif.Props.C65
import Verif.Props.C66
import Verif.Props.C67
import Verif.Props.C68
import Verif.Props.C69
import Verif.Props.C70
import Verif.Props.C71
import Verif.Props.C72
import Verif.Props.C73
import Verif.Props.C74
import Verif.Props.C75
import Verif.Props.C76
import Verif.Props.C77
import Verif.Props.C78
import Verif.Props.C79
import Verif.Props.C80
import Verif.Props.C81
import Verif.Props.C82
import Verif.Props.C83
import Verif.Props.C84
import Verif.Props.C85
import Verif.Props.C86
import Verif.Props.C87
import Verif.Props.C88
import Verif.Props.C89
import Verif.Props.C90
import Verif.Props.C91
import Verif.Props.C92
import Verif.Props.C93
import Verif.Props.C94
import Verif.Props.C95
import Verif.Props.C96
import Verif.Props.C97
import Verif.Props.C98
import Verif.Props.C99

/-! Axioms used by every property theorem (generated by tools/gen_manifest.py). -/

#print axioms Zcm.C01_vec2
#print axioms Zcm.C01_vec3
#print axioms Zcm.C01_vec4
#print axioms Zcm.C02_vec2
#print axioms Zcm.C02_vec3
#print axioms Zcm.C02_vec4
#print axioms Zcm.C02_ivec2
#print axioms Zcm.C02_ivec3
#print axioms Zcm.C02_ivec4
#print axioms Zcm.C02_bvec2
#print axioms Zcm.C02_bvec3
#print axioms Zcm.C02_bvec4
#print axioms Zcm.C02_mat2
#print axioms Zcm.C02_mat3
#print axioms Zcm.C02_mat4
#print axioms Zcm.C02_quat
#print axioms Zcm.C02_quat_scalar
#print axioms Zcm.C03_vec2
#print axioms Zcm.C03_vec3
#print axioms Zcm.C03_vec4
#print axioms Zcm.C03_ivec2_preInc
#print axioms Zcm.C03_ivec2_postInc
#print axioms Zcm.C03_ivec2_preDec
#print axioms Zcm.C03_ivec2_postDec
#print axioms Zcm.C03_ivec3_preInc
#print axioms Zcm.C03_ivec3_postInc
#print axioms Zcm.C03_ivec3_preDec
#print axioms Zcm.C03_ivec3_postDec
#print axioms Zcm.C03_ivec4_preInc
#print axioms Zcm.C03_ivec4_postInc
#print axioms Zcm.C03_ivec4_preDec
#print axioms Zcm.C03_ivec4_postDec
#print axioms Zcm.C04_vec2
#print axioms Zcm.C04_vec3
#print axioms Zcm.C04_vec4
#print axioms Zcm.C04_ivec2
#print axioms Zcm.C04_ivec3
#print axioms Zcm.C04_ivec4
#print axioms Zcm.C04_bvec2
#print axioms Zcm.C04_bvec3
#print axioms Zcm.C04_bvec4
#print axioms Zcm.C05_vec3
#print axioms Zcm.C05_vec4
#print axioms Zcm.C05_ivec3
#print axioms Zcm.C05_ivec4
#print axioms Zcm.C05_bvec3
#print axioms Zcm.C05_bvec4
#print axioms Zcm.C05_quat
#print axioms Zcm.C05_vec2_partial
#print axioms Zcm.C05_vec2_false
#print axioms Zcm.C05_vec2_index2
#print axioms Zcm.C05_ivec2_partial
#print axioms Zcm.C05_ivec2_false
#print axioms Zcm.C05_ivec2_index2
#print axioms Zcm.C05_bvec2_partial
#print axioms Zcm.C05_bvec2_false
#print axioms Zcm.C05_bvec2_index2
#print axioms Zcm.C05_mat2
#print axioms Zcm.C05_mat3
#print axioms Zcm.C05_mat4
#print axioms Zcm.C05_mat2_entry_partial
#print axioms Zcm.C05_mat3_entry
#print axioms Zcm.C05_mat4_entry
#print axioms Zcm.C05_mat2_row2
#print axioms Zcm.C06_vec2
#print axioms Zcm.C06_vec3
#print axioms Zcm.C06_vec4
#print axioms Zcm.C06_ivec2
#print axioms Zcm.C06_ivec3
#print axioms Zcm.C06_ivec4
#print axioms Zcm.C06_vec2_names
#print axioms Zcm.C06_vec3_names
#print axioms Zcm.C06_vec4_names
#print axioms Zcm.C06_ivec2_names
#print axioms Zcm.C06_ivec3_names
#print axioms Zcm.C06_ivec4_names
#print axioms Zcm.C06_vec2_assignFrom_partial
#print axioms Zcm.C06_vec2_assignFrom_same
#print axioms Zcm.C06_vec2_assignFrom_false
#print axioms Zcm.C06_vec3_assignFrom_partial
#print axioms Zcm.C06_vec3_assignFrom_same
#print axioms Zcm.C06_vec3_assignFrom_false
#print axioms Zcm.C06_vec4_assignFrom_partial
#print axioms Zcm.C06_vec4_assignFrom_same
#print axioms Zcm.C06_vec4_assignFrom_false
#print axioms Zcm.C06_swizzle_assign_false
#print axioms Zcm.C07_vec2
#print axioms Zcm.C07_vec2_names
#print axioms Zcm.C07_vec2_nodup
#print axioms Zcm.C07_vec3
#print axioms Zcm.C07_vec3_names
#print axioms Zcm.C07_vec3_nodup
#print axioms Zcm.C07_vec4
#print axioms Zcm.C07_vec4_names
#print axioms Zcm.C07_vec4_nodup
#print axioms Zcm.C07_ivec2
#print axioms Zcm.C07_ivec2_names
#print axioms Zcm.C07_ivec2_nodup
#print axioms Zcm.C07_ivec3
#print axioms Zcm.C07_ivec3_names
#print axioms Zcm.C07_ivec3_nodup
#print axioms Zcm.C07_ivec4
#print axioms Zcm.C07_ivec4_names
#print axioms Zcm.C07_ivec4_nodup
#print axioms Zcm.C07_vec2_format_as
#print axioms Zcm.C07_vec3_format_as
#print axioms Zcm.C07_vec4_format_as
#print axioms Zcm.C07_ivec2_format_as
#print axioms Zcm.C07_ivec3_format_as
#print axioms Zcm.C07_ivec4_format_as
#print axioms Zcm.C08_vec2_value_ptr
#print axioms Zcm.C08_vec3_value_ptr
#print axioms Zcm.C08_vec4_value_ptr
#print axioms Zcm.C08_bvec2_value_ptr
#print axioms Zcm.C08_bvec3_value_ptr
#print axioms Zcm.C08_bvec4_value_ptr
#print axioms Zcm.C08_quat_value_ptr
#print axioms Zcm.C08_vec2_make
#print axioms Zcm.C08_vec3_make
#print axioms Zcm.C08_vec4_make
#print axioms Zcm.C08_bvec2_make
#print axioms Zcm.C08_bvec3_make
#print axioms Zcm.C08_bvec4_make
#print axioms Zcm.C08_ivec2_make
#print axioms Zcm.C08_ivec3_make
#print axioms Zcm.C08_ivec4_make
#print axioms Zcm.C08_quat_make
#print axioms Zcm.C08_mat2_value_ptr
#print axioms Zcm.C08_mat2_make
#print axioms Zcm.C08_mat3_value_ptr
#print axioms Zcm.C08_mat3_make
#print axioms Zcm.C08_mat4_value_ptr
#print axioms Zcm.C08_mat4_make
#print axioms Zcm.C08_mat3_roundtrip
#print axioms Zcm.C09_vec2
#print axioms Zcm.C09_vec3
#print axioms Zcm.C09_vec4
#print axioms Zcm.C09_quat
#print axioms Zcm.C09_mat2
#print axioms Zcm.C09_mat3
#print axioms Zcm.C09_mat4
#print axioms Zcm.C09_ivec2
#print axioms Zcm.C09_ivec3
#print axioms Zcm.C09_ivec4
#print axioms Zcm.C09_bvec2
#print axioms Zcm.C09_bvec3
#print axioms Zcm.C09_bvec4
#print axioms Zcm.C09_lawful
#print axioms Zcm.C09_float
#print axioms Zcm.C14_float
#print axioms Zcm.C09_vec2_float
#print axioms Zcm.C09_vec3_float
#print axioms Zcm.C09_vec4_float
#print axioms Zcm.C09_quat_float
#print axioms Zcm.C09_mat2_float
#print axioms Zcm.C09_mat3_float
#print axioms Zcm.C09_mat4_float
#print axioms Zcm.C10_ivec2
#print axioms Zcm.C10_ivec2_order
#print axioms Zcm.C10_ivec3
#print axioms Zcm.C10_ivec3_order
#print axioms Zcm.C10_ivec4
#print axioms Zcm.C10_ivec4_order
#print axioms Zcm.C100_rotate
#print axioms Zcm.C100_rotate_last
#print axioms Zcm.C100_angleAxis
#print axioms Zcm.C100_angleAxis_unit
#print axioms Zcm.C100_vector
#print axioms Zcm.C100_quat_rotate
#print axioms Zcm.C100_mat3_cast
#print axioms Zcm.C100_euler
#print axioms Zcm.C100_identity
#print axioms Zcm.C100_orthonormal
#print axioms Zcm.C100_agree
#print axioms Zcm.C100_history
#print axioms Zcm.C100_matrix_history
#print axioms Zcm.C101_ortho_matrix
#print axioms Zcm.C101_ortho
#print axioms Zcm.C101_orthoLH_ZO_matrix
#print axioms Zcm.C101_orthoLH_ZO
#print axioms Zcm.C101_orthoRH_ZO_matrix
#print axioms Zcm.C101_orthoRH_ZO
#print axioms Zcm.C101_orthoLH_NO_matrix
#print axioms Zcm.C101_orthoLH_NO
#print axioms Zcm.C101_orthoRH_NO_matrix
#print axioms Zcm.C101_orthoRH_NO
#print axioms Zcm.C101_perspectiveLH_ZO
#print axioms Zcm.C101_perspectiveRH_ZO
#print axioms Zcm.C101_perspectiveLH_NO
#print axioms Zcm.C101_perspectiveRH_NO
#print axioms Zcm.C101_ortho_symmetric
#print axioms Zcm.C101_orthoLH_ZO_symmetric
#print axioms Zcm.C101_orthoRH_ZO_symmetric
#print axioms Zcm.C101_orthoLH_NO_symmetric
#print axioms Zcm.C101_orthoRH_NO_symmetric
#print axioms Zcm.C102_lookAtRH_matrix
#print axioms Zcm.C102_lookAtRH
#print axioms Zcm.C102_lookAtRH_axis
#print axioms Zcm.C102_lookAtLH_matrix
#print axioms Zcm.C102_lookAtLH
#print axioms Zcm.C102_lookAtLH_axis
#print axioms Zcm.C103_mix
#print axioms Zcm.C103_mix_between
#print axioms Zcm.C103_mix_one
#print axioms Zcm.C103_vec2_mix
#print axioms Zcm.C103_vec3_mix
#print axioms Zcm.C103_vec4_mix
#print axioms Zcm.C103_smoothstep
#print axioms Zcm.C103_smoothstep_order
#print axioms Zcm.C103_vec2_smoothstep
#print axioms Zcm.C103_vec3_smoothstep
#print axioms Zcm.C103_vec4_smoothstep
#print axioms Zcm.C104_arc
#print axioms Zcm.C104_lerp
#print axioms Zcm.C104_nlerp
#print axioms Zcm.C104_nlerp_hemisphere
#print axioms Zcm.C104_slerp
#print axioms Zcm.C105_snell
#print axioms Zcm.C105_reflect_vec2
#print axioms Zcm.C105_refract_vec2
#print axioms Zcm.C105_refract_total_vec2
#print axioms Zcm.C105_faceforward_vec2
#print axioms Zcm.C105_reflect_vec3
#print axioms Zcm.C105_refract_vec3
#print axioms Zcm.C105_refract_total_vec3
#print axioms Zcm.C105_faceforward_vec3
#print axioms Zcm.C105_reflect_vec4
#print axioms Zcm.C105_refract_vec4
#print axioms Zcm.C105_refract_total_vec4
#print axioms Zcm.C105_faceforward_vec4
#print axioms Zcm.C106_quat_cast
#print axioms Zcm.C106_quat_cast_mat4
#print axioms Zcm.C106_roundtrip
#print axioms Zcm.C106_back
#print axioms Zcm.C106_quatLookAtLH
#print axioms Zcm.C106_quatLookAtRH
#print axioms Zcm.C107_conjugate
#print axioms Zcm.C107_inverse
#print axioms Zcm.C107_cancel
#print axioms Zcm.C107_back
#print axioms Zcm.C107_undo
#print axioms Zcm.C108_direct
#print axioms Zcm.C108_unit
#print axioms Zcm.C108_opposite
#print axioms Zcm.C108_turns
#print axioms Zcm.C108_rotate
#print axioms Zcm.C109_mat2
#print axioms Zcm.C109_mat2_vec
#print axioms Zcm.C109_mat2_order
#print axioms Zcm.C109_mat3
#print axioms Zcm.C109_mat3_vec
#print axioms Zcm.C109_mat3_order
#print axioms Zcm.C109_mat4
#print axioms Zcm.C109_mat4_vec
#print axioms Zcm.C109_mat4_order
#print axioms Zcm.C109_rotations
#print axioms Zcm.C01_ivec2
#print axioms Zcm.C01_ivec3
#print axioms Zcm.C01_ivec4
#print axioms Zcm.C11_ivec2_mod
#print axioms Zcm.C11_ivec3_mod
#print axioms Zcm.C11_abs
#print axioms Zcm.C11_preInc
#print axioms Zcm.C11_postInc
#print axioms Zcm.C11_preDec
#print axioms Zcm.C11_postDec
#print axioms Zcm.C11_compAdd
#print axioms Zcm.C11_compMul
#print axioms Zcm.C110_encode_range
#print axioms Zcm.C110_encode
#print axioms Zcm.C110_decode_partial
#print axioms Zcm.C110_roundtrip_partial
#print axioms Zcm.C110_equator_false
#print axioms Zcm.C111_vec2
#print axioms Zcm.C111_vec3
#print axioms Zcm.C111_vec4
#print axioms Zcm.C111_quat
#print axioms Zcm.C111_axis_finite
#print axioms Zcm.C111_angle
#print axioms Zcm.C111_angle_nan
#print axioms Zcm.C111_axis_angle
#print axioms Zcm.C111_roundtrip
#print axioms Zcm.C111_normalized
#print axioms Zcm.C112_yaw
#print axioms Zcm.C112_chord
#print axioms Zcm.C112_finite
#print axioms Zcm.C112_roundtrip_partial
#print axioms Zcm.C112_extract
#print axioms Zcm.C112_lock_false
#print axioms Zcm.C113_translation
#print axioms Zcm.C113_decompose
#print axioms Zcm.C113_parts
#print axioms Zcm.C113_recompose
#print axioms Zcm.C114_mod
#print axioms Zcm.C114_range
#print axioms Zcm.C114_small
#print axioms Zcm.C114_int
#print axioms Zcm.C114_ends
#print axioms Zcm.C115_orthogonal
#print axioms Zcm.C115_dot
#print axioms Zcm.C115_branchless
#print axioms Zcm.C115_branchless_long
#print axioms Zcm.C116_decode
#print axioms Zcm.C116_encode
#print axioms Zcm.C116_roundtrip
#print axioms Zcm.C116_roundtrip_linear
#print axioms Zcm.C116_codes
#print axioms Zcm.C116_approx
#print axioms Zcm.C117_unique
#print axioms Zcm.C117_point
#print axioms Zcm.C117_direction
#print axioms Zcm.C117_roundtrip
#print axioms Zcm.C117_roundtrip_world
#print axioms Zcm.C117_normal
#print axioms Zcm.C118_perspectiveLH_ZO
#print axioms Zcm.C118_perspectiveRH_ZO
#print axioms Zcm.C118_perspectiveLH_NO
#print axioms Zcm.C118_perspectiveRH_NO
#print axioms Zcm.C119_inversesqrt
#print axioms Zcm.C119_order
#print axioms Zcm.C119_special
#print axioms Zcm.C119_product
#print axioms Zcm.C119_square
#print axioms Zcm.C119_vec2
#print axioms Zcm.C119_vec3
#print axioms Zcm.C119_vec4
#print axioms Zcm.C119_quat
#print axioms Zcm.C119_compAdd_vec2
#print axioms Zcm.C119_compAdd_vec2_order
#print axioms Zcm.C119_compMul_vec2
#print axioms Zcm.C119_compAdd_vec3
#print axioms Zcm.C119_compAdd_vec3_order
#print axioms Zcm.C119_compMul_vec3
#print axioms Zcm.C119_compAdd_vec4
#print axioms Zcm.C119_compAdd_vec4_order
#print axioms Zcm.C119_compMul_vec4
#print axioms Zcm.C12_ivec2_bitwise
#print axioms Zcm.C12_ivec2_shift
#print axioms Zcm.C12_ivec3_bitwise
#print axioms Zcm.C12_ivec3_shift
#print axioms Zcm.C120_RH_ZO
#print axioms Zcm.C120_RH_NO
#print axioms Zcm.C120_LH_ZO
#print axioms Zcm.C120_LH_NO
#print axioms Zcm.C120_RH_ZO_center
#print axioms Zcm.C120_RH_NO_center
#print axioms Zcm.C120_LH_ZO_center
#print axioms Zcm.C120_LH_NO_center
#print axioms Zcm.C120_orders
#print axioms Zcm.C121_ortho
#print axioms Zcm.C121_orthoLH_ZO
#print axioms Zcm.C121_orthoRH_ZO
#print axioms Zcm.C121_orthoLH_NO
#print axioms Zcm.C121_orthoRH_NO
#print axioms Zcm.C121_perspectiveLH_ZO
#print axioms Zcm.C121_perspectiveLH_NO
#print axioms Zcm.C121_perspectiveRH_ZO
#print axioms Zcm.C121_perspectiveRH_NO
#print axioms Zcm.C121_cameraLH_ZO
#print axioms Zcm.C121_cameraLH_NO
#print axioms Zcm.C121_cameraRH_ZO
#print axioms Zcm.C121_cameraRH_NO
#print axioms Zcm.C122_cos_vec2
#print axioms Zcm.C122_angle_vec2
#print axioms Zcm.C122_cauchy_vec2
#print axioms Zcm.C122_facing_vec2
#print axioms Zcm.C122_triangle_vec2
#print axioms Zcm.C122_nearer_vec2
#print axioms Zcm.C122_cos_vec3
#print axioms Zcm.C122_angle_vec3
#print axioms Zcm.C122_cauchy_vec3
#print axioms Zcm.C122_facing_vec3
#print axioms Zcm.C122_triangle_vec3
#print axioms Zcm.C122_nearer_vec3
#print axioms Zcm.C122_cos_vec4
#print axioms Zcm.C122_angle_vec4
#print axioms Zcm.C122_cauchy_vec4
#print axioms Zcm.C122_facing_vec4
#print axioms Zcm.C122_triangle_vec4
#print axioms Zcm.C122_nearer_vec4
#print axioms Zcm.C122_cross_length
#print axioms Zcm.C122_cross_perp
#print axioms Zcm.C122_acos_nan
#print axioms Zcm.C123_normal
#print axioms Zcm.C123_winding
#print axioms Zcm.C123_area
#print axioms Zcm.C123_height
#print axioms Zcm.C123_side
#print axioms Zcm.C124_mat2_vec
#print axioms Zcm.C124_vec_mat2
#print axioms Zcm.C124_mat2
#print axioms Zcm.C124_mat2_right
#print axioms Zcm.C124_mat2_left
#print axioms Zcm.C124_mat3_vec
#print axioms Zcm.C124_vec_mat3
#print axioms Zcm.C124_mat3
#print axioms Zcm.C124_mat3_right
#print axioms Zcm.C124_mat3_left
#print axioms Zcm.C124_mat4_vec
#print axioms Zcm.C124_vec_mat4
#print axioms Zcm.C124_mat4
#print axioms Zcm.C124_mat4_right
#print axioms Zcm.C124_mat4_left
#print axioms Zcm.C125_matrix
#print axioms Zcm.C125_last
#print axioms Zcm.C125_direct
#print axioms Zcm.C125_agree
#print axioms Zcm.C126_perspectiveLH_ZO
#print axioms Zcm.C126_perspectiveLH_ZO_behind
#print axioms Zcm.C126_perspectiveLH_NO
#print axioms Zcm.C126_perspectiveLH_NO_behind
#print axioms Zcm.C126_perspectiveRH_ZO
#print axioms Zcm.C126_perspectiveRH_ZO_behind
#print axioms Zcm.C126_perspectiveRH_NO
#print axioms Zcm.C126_perspectiveRH_NO_behind
#print axioms Zcm.C127_vec2
#print axioms Zcm.C127_ivec2
#print axioms Zcm.C127_bvec2
#print axioms Zcm.C127_mat2
#print axioms Zcm.C127_vec3
#print axioms Zcm.C127_ivec3
#print axioms Zcm.C127_bvec3
#print axioms Zcm.C127_mat3
#print axioms Zcm.C127_vec4
#print axioms Zcm.C127_ivec4
#print axioms Zcm.C127_bvec4
#print axioms Zcm.C127_mat4
#print axioms Zcm.C127_quat
#print axioms Zcm.C127_make_vec2
#print axioms Zcm.C127_make_vec3
#print axioms Zcm.C127_make_vec4
#print axioms Zcm.C127_make_ivec2
#print axioms Zcm.C127_make_ivec3
#print axioms Zcm.C127_make_ivec4
#print axioms Zcm.C127_make_bvec2
#print axioms Zcm.C127_make_bvec3
#print axioms Zcm.C127_make_bvec4
#print axioms Zcm.C127_make_mat2
#print axioms Zcm.C127_make_mat3
#print axioms Zcm.C127_make_mat4
#print axioms Zcm.C127_make_quat
#print axioms Zcm.C127_perspectiveRH_ZO
#print axioms Zcm.C127_perspectiveRH_NO
#print axioms Zcm.C127_perspectiveLH_ZO
#print axioms Zcm.C127_perspectiveLH_NO
#print axioms Zcm.C127_lerp
#print axioms Zcm.C127_nlerp
#print axioms Zcm.C128_dot
#print axioms Zcm.C128_cross
#print axioms Zcm.C128_distance
#print axioms Zcm.C129_pythagoras
#print axioms Zcm.C129_polar
#print axioms Zcm.C129_radius
#print axioms Zcm.C129_asin_acos
#print axioms Zcm.C129_degrees
#print axioms Zcm.C129_exp_log
#print axioms Zcm.C129_log_exp
#print axioms Zcm.C13_bvec2
#print axioms Zcm.C13_bvec2_laws
#print axioms Zcm.C13_bvec2_all_any
#print axioms Zcm.C13_bvec3
#print axioms Zcm.C13_bvec3_laws
#print axioms Zcm.C13_bvec3_all_any
#print axioms Zcm.C13_bvec4
#print axioms Zcm.C13_bvec4_laws
#print axioms Zcm.C13_bvec4_all_any
#print axioms Zcm.C130_transpose_mat2
#print axioms Zcm.C130_row_mat2
#print axioms Zcm.C130_columns_mat2
#print axioms Zcm.C130_mul_add_vec2
#print axioms Zcm.C130_add_mul_vec2
#print axioms Zcm.C130_mul_add_mat2
#print axioms Zcm.C130_mul_sub_vec2
#print axioms Zcm.C130_sub_mul_vec2
#print axioms Zcm.C130_mul_sub_mat2
#print axioms Zcm.C130_transpose_mat3
#print axioms Zcm.C130_row_mat3
#print axioms Zcm.C130_columns_mat3
#print axioms Zcm.C130_mul_add_vec3
#print axioms Zcm.C130_add_mul_vec3
#print axioms Zcm.C130_mul_add_mat3
#print axioms Zcm.C130_mul_sub_vec3
#print axioms Zcm.C130_sub_mul_vec3
#print axioms Zcm.C130_mul_sub_mat3
#print axioms Zcm.C130_transpose_mat4
#print axioms Zcm.C130_row_mat4
#print axioms Zcm.C130_columns_mat4
#print axioms Zcm.C130_columns_differ_mat4
#print axioms Zcm.C130_columns_close_mat4
#print axioms Zcm.C130_mul_add_vec4
#print axioms Zcm.C130_add_mul_vec4
#print axioms Zcm.C130_mul_add_mat4
#print axioms Zcm.C130_mul_sub_vec4
#print axioms Zcm.C130_sub_mul_vec4
#print axioms Zcm.C130_mul_sub_mat4
#print axioms Zcm.C131_sum_vec2
#print axioms Zcm.C131_mean_vec2
#print axioms Zcm.C131_product_vec2
#print axioms Zcm.C131_counter_vec2
#print axioms Zcm.C131_sum_vec3
#print axioms Zcm.C131_mean_vec3
#print axioms Zcm.C131_product_vec3
#print axioms Zcm.C131_counter_vec3
#print axioms Zcm.C131_sum_vec4
#print axioms Zcm.C131_mean_vec4
#print axioms Zcm.C131_product_vec4
#print axioms Zcm.C131_counter_vec4
#print axioms Zcm.C131_sum_quat
#print axioms Zcm.C131_sum_mat2
#print axioms Zcm.C131_sum_mat3
#print axioms Zcm.C131_sum_mat4
#print axioms Zcm.C132_vec2_box
#print axioms Zcm.C132_vec2_box_nan
#print axioms Zcm.C132_vec2_box_order
#print axioms Zcm.C132_vec2_box_member
#print axioms Zcm.C132_vec2_nearest
#print axioms Zcm.C132_ivec2_box
#print axioms Zcm.C132_vec3_box
#print axioms Zcm.C132_vec3_box_nan
#print axioms Zcm.C132_vec3_box_order
#print axioms Zcm.C132_vec3_box_member
#print axioms Zcm.C132_vec3_nearest
#print axioms Zcm.C132_ivec3_box
#print axioms Zcm.C132_vec4_box
#print axioms Zcm.C132_vec4_box_nan
#print axioms Zcm.C132_vec4_box_order
#print axioms Zcm.C132_vec4_box_member
#print axioms Zcm.C132_vec4_nearest
#print axioms Zcm.C132_ivec4_box
#print axioms Zcm.C133_sqrt
#print axioms Zcm.C133_sqrt_limits
#print axioms Zcm.C133_difference
#print axioms Zcm.C133_vec2_length
#print axioms Zcm.C133_vec2_distance
#print axioms Zcm.C133_vec2_normalize
#print axioms Zcm.C133_vec2_difference
#print axioms Zcm.C133_vec2_midpoint
#print axioms Zcm.C133_vec3_length
#print axioms Zcm.C133_vec3_distance
#print axioms Zcm.C133_vec3_normalize
#print axioms Zcm.C133_vec3_difference
#print axioms Zcm.C133_vec3_midpoint
#print axioms Zcm.C133_vec4_length
#print axioms Zcm.C133_vec4_distance
#print axioms Zcm.C133_vec4_normalize
#print axioms Zcm.C133_vec4_difference
#print axioms Zcm.C133_vec4_midpoint
#print axioms Zcm.C133_quat_length
#print axioms Zcm.C133_quat_normalize
#print axioms Zcm.C133_normalize_below_one
#print axioms Zcm.C134_mat2_vec
#print axioms Zcm.C134_vec_mat2
#print axioms Zcm.C134_dot_vec2
#print axioms Zcm.C134_mat3_vec
#print axioms Zcm.C134_vec_mat3
#print axioms Zcm.C134_dot_vec3
#print axioms Zcm.C134_mat4_vec
#print axioms Zcm.C134_vec_mat4
#print axioms Zcm.C134_dot_vec4
#print axioms Zcm.C134_quat_vec3
#print axioms Zcm.C135_quat
#print axioms Zcm.C135_quat_once
#print axioms Zcm.C135_quat_add
#print axioms Zcm.C135_quat_order
#print axioms Zcm.C135_quat_full
#print axioms Zcm.C135_matrix
#print axioms Zcm.C135_matrix_once
#print axioms Zcm.C135_matrix_add
#print axioms Zcm.C135_matrix_full
#print axioms Zcm.C136_mirrors_vec2
#print axioms Zcm.C136_twice_vec2
#print axioms Zcm.C136_inner_vec2
#print axioms Zcm.C136_mirrors_vec3
#print axioms Zcm.C136_twice_vec3
#print axioms Zcm.C136_inner_vec3
#print axioms Zcm.C136_mirrors_vec4
#print axioms Zcm.C136_twice_vec4
#print axioms Zcm.C136_inner_vec4
#print axioms Zcm.C136_reversible_vec2
#print axioms Zcm.C136_plate_vec2
#print axioms Zcm.C136_reversible_vec3
#print axioms Zcm.C136_plate_vec3
#print axioms Zcm.C136_reversible_vec4
#print axioms Zcm.C136_plate_vec4
#print axioms Zcm.C137_bezier
#print axioms Zcm.C137_bezier_vec2
#print axioms Zcm.C137_bezier_vec3
#print axioms Zcm.C137_bezier_vec4
#print axioms Zcm.C137_follow
#print axioms Zcm.C137_settle
#print axioms Zcm.C137_follow_vec2
#print axioms Zcm.C137_settle_vec2
#print axioms Zcm.C137_follow_vec3
#print axioms Zcm.C137_settle_vec3
#print axioms Zcm.C137_follow_vec4
#print axioms Zcm.C137_settle_vec4
#print axioms Zcm.C138_exact
#print axioms Zcm.C138_tangent
#print axioms Zcm.C138_bitangent
#print axioms Zcm.C138_orthonormal
#print axioms Zcm.C139_float
#print axioms Zcm.C139_vec2
#print axioms Zcm.C139_vec3
#print axioms Zcm.C139_vec4
#print axioms Zcm.C139_mat2
#print axioms Zcm.C139_mat3
#print axioms Zcm.C139_mat4
#print axioms Zcm.C139_quat
#print axioms Zcm.C14_vec2
#print axioms Zcm.C14_vec2_laws
#print axioms Zcm.C14_vec3
#print axioms Zcm.C14_vec3_laws
#print axioms Zcm.C14_vec4
#print axioms Zcm.C14_vec4_laws
#print axioms Zcm.C14_quat
#print axioms Zcm.C14_bvec2
#print axioms Zcm.C14_bvec3
#print axioms Zcm.C14_bvec4
#print axioms Zcm.C140_readback
#print axioms Zcm.C140_scalings
#print axioms Zcm.C140_added_back
#print axioms Zcm.C140_vec2_self
#print axioms Zcm.C140_vec2_readback
#print axioms Zcm.C140_vec2_scalings
#print axioms Zcm.C140_vec2_scaled_back
#print axioms Zcm.C140_vec2_moved_back
#print axioms Zcm.C140_vec3_self
#print axioms Zcm.C140_vec3_readback
#print axioms Zcm.C140_vec3_scalings
#print axioms Zcm.C140_vec3_scaled_back
#print axioms Zcm.C140_vec3_moved_back
#print axioms Zcm.C140_vec4_self
#print axioms Zcm.C140_vec4_readback
#print axioms Zcm.C140_vec4_scalings
#print axioms Zcm.C140_vec4_scaled_back
#print axioms Zcm.C140_vec4_moved_back
#print axioms Zcm.C141_time
#print axioms Zcm.C141_hit
#print axioms Zcm.C141_exact
#print axioms Zcm.C141_on_plane
#print axioms Zcm.C141_front
#print axioms Zcm.C141_symmetry
#print axioms Zcm.C142_float
#print axioms Zcm.C142_blend
#print axioms Zcm.C142_vec2
#print axioms Zcm.C142_vec3
#print axioms Zcm.C142_vec4
#print axioms Zcm.C142_blend_vec2
#print axioms Zcm.C142_blend_vec3
#print axioms Zcm.C142_blend_vec4
#print axioms Zcm.C142_mat2
#print axioms Zcm.C142_mat3
#print axioms Zcm.C142_mat4
#print axioms Zcm.C142_quat
#print axioms Zcm.C143_exact_line
#print axioms Zcm.C143_exact_segment
#print axioms Zcm.C143_parameter
#print axioms Zcm.C143_line
#print axioms Zcm.C143_segment
#print axioms Zcm.C143_perpendicular
#print axioms Zcm.C143_nearest
#print axioms Zcm.C143_before
#print axioms Zcm.C143_after
#print axioms Zcm.C144_vec2
#print axioms Zcm.C144_vec3
#print axioms Zcm.C144_vec4
#print axioms Zcm.C144_coast_vec3
#print axioms Zcm.C144_coast_vec2
#print axioms Zcm.C144_exact_constant
#print axioms Zcm.C145_RH_ZO
#print axioms Zcm.C145_RH_NO
#print axioms Zcm.C145_LH_ZO
#print axioms Zcm.C145_LH_NO
#print axioms Zcm.C146_exact_miss
#print axioms Zcm.C146_exact_hit
#print axioms Zcm.C146_discriminant
#print axioms Zcm.C146_decision
#print axioms Zcm.C146_distance
#print axioms Zcm.C146_ahead
#print axioms Zcm.C146_point
#print axioms Zcm.C146_on_sphere
#print axioms Zcm.C147_vec2_nested
#print axioms Zcm.C147_vec2_hierarchy
#print axioms Zcm.C147_vec2_decision
#print axioms Zcm.C147_vec3_nested
#print axioms Zcm.C147_vec3_hierarchy
#print axioms Zcm.C147_vec3_decision
#print axioms Zcm.C148_vec2_edge
#print axioms Zcm.C148_vec2_accurate
#print axioms Zcm.C148_vec2_cover
#print axioms Zcm.C148_vec2_fan
#print axioms Zcm.C148_vec2_unique
#print axioms Zcm.C148_vec2_exact
#print axioms Zcm.C148_vec3_edge
#print axioms Zcm.C148_vec3_accurate
#print axioms Zcm.C148_vec3_cover
#print axioms Zcm.C148_vec3_fan
#print axioms Zcm.C148_vec3_unique
#print axioms Zcm.C148_vec3_exact
#print axioms Zcm.C149_vec2_corner
#print axioms Zcm.C149_vec2_cull
#print axioms Zcm.C149_vec2_nested
#print axioms Zcm.C149_vec2_decision
#print axioms Zcm.C149_vec3_corner
#print axioms Zcm.C149_vec3_cull
#print axioms Zcm.C149_vec3_nested
#print axioms Zcm.C149_vec3_decision
#print axioms Zcm.C149_vec4_corner
#print axioms Zcm.C149_vec4_cull
#print axioms Zcm.C149_vec4_nested
#print axioms Zcm.C149_vec4_decision
#print axioms Zcm.C14_vec2_nan
#print axioms Zcm.C14_vec3_nan
#print axioms Zcm.C14_vec4_nan
#print axioms Zcm.C15_mat2
#print axioms Zcm.C15_mat3
#print axioms Zcm.C15_mat4
#print axioms Zcm.C15_convert
#print axioms Zcm.C15_mat3_of_mat2_outcome
#print axioms Zcm.C15_mat3_of_mat2_false
#print axioms Zcm.C150_exact
#print axioms Zcm.C150_box
#print axioms Zcm.C150_decision
#print axioms Zcm.C151_ivec2_hash
#print axioms Zcm.C151_bvec2_hash
#print axioms Zcm.C151_ivec2_ordered
#print axioms Zcm.C151_ivec2_sort
#print axioms Zcm.C151_ivec3_hash
#print axioms Zcm.C151_bvec3_hash
#print axioms Zcm.C151_ivec3_ordered
#print axioms Zcm.C151_ivec3_sort
#print axioms Zcm.C151_ivec4_hash
#print axioms Zcm.C151_bvec4_hash
#print axioms Zcm.C151_ivec4_ordered
#print axioms Zcm.C151_ivec4_sort
#print axioms Zcm.C151_vec2_hash
#print axioms Zcm.C151_vec2_excluded
#print axioms Zcm.C151_vec3_hash
#print axioms Zcm.C151_vec3_excluded
#print axioms Zcm.C151_vec4_hash
#print axioms Zcm.C151_vec4_excluded
#print axioms Zcm.C151_quat_hash
#print axioms Zcm.C151_quat_excluded
#print axioms Zcm.C151_mat2_hash
#print axioms Zcm.C151_mat2_excluded
#print axioms Zcm.C151_mat3_hash
#print axioms Zcm.C151_mat3_excluded
#print axioms Zcm.C151_mat4_hash
#print axioms Zcm.C151_mat4_excluded
#print axioms Zcm.C152_vec2_nearest
#print axioms Zcm.C152_vec2_nearest_squared
#print axioms Zcm.C152_vec2_nearest_exact
#print axioms Zcm.C152_vec2_sphere
#print axioms Zcm.C152_vec2_sphere_exact
#print axioms Zcm.C152_vec3_nearest
#print axioms Zcm.C152_vec3_nearest_squared
#print axioms Zcm.C152_vec3_nearest_exact
#print axioms Zcm.C152_vec3_sphere
#print axioms Zcm.C152_vec3_sphere_exact
#print axioms Zcm.C152_vec4_nearest
#print axioms Zcm.C152_vec4_nearest_squared
#print axioms Zcm.C152_vec4_nearest_exact
#print axioms Zcm.C152_vec4_sphere
#print axioms Zcm.C152_vec4_sphere_exact
#print axioms Zcm.C153_vec2_ordered
#print axioms Zcm.C153_vec2_search
#print axioms Zcm.C153_vec2_cell
#print axioms Zcm.C153_vec2_power
#print axioms Zcm.C153_vec2_neighbours
#print axioms Zcm.C153_vec2_around
#print axioms Zcm.C153_vec3_ordered
#print axioms Zcm.C153_vec3_search
#print axioms Zcm.C153_vec3_cell
#print axioms Zcm.C153_vec3_power
#print axioms Zcm.C153_vec3_neighbours
#print axioms Zcm.C153_vec3_around
#print axioms Zcm.C153_vec4_ordered
#print axioms Zcm.C153_vec4_search
#print axioms Zcm.C153_vec4_cell
#print axioms Zcm.C153_vec4_power
#print axioms Zcm.C153_vec4_neighbours
#print axioms Zcm.C153_vec4_around
#print axioms Zcm.C154_float_shrink
#print axioms Zcm.C154_corner
#print axioms Zcm.C154_wrap_outside
#print axioms Zcm.C154_vec2_pixel
#print axioms Zcm.C154_vec2_ordered
#print axioms Zcm.C154_vec2_center
#print axioms Zcm.C154_vec2_wrap
#print axioms Zcm.C154_vec2_quantise
#print axioms Zcm.C154_vec2_levels
#print axioms Zcm.C154_vec3_pixel
#print axioms Zcm.C154_vec3_ordered
#print axioms Zcm.C154_vec3_center
#print axioms Zcm.C154_vec3_wrap
#print axioms Zcm.C154_vec3_quantise
#print axioms Zcm.C154_vec3_levels
#print axioms Zcm.C154_vec4_pixel
#print axioms Zcm.C154_vec4_ordered
#print axioms Zcm.C154_vec4_center
#print axioms Zcm.C154_vec4_wrap
#print axioms Zcm.C154_vec4_quantise
#print axioms Zcm.C154_vec4_levels
#print axioms Zcm.C155_vec2_ends
#print axioms Zcm.C155_vec2_kept
#print axioms Zcm.C155_vec2_adjacent
#print axioms Zcm.C155_vec3_ends
#print axioms Zcm.C155_vec3_kept
#print axioms Zcm.C155_vec3_adjacent
#print axioms Zcm.C155_vec4_ends
#print axioms Zcm.C155_vec4_kept
#print axioms Zcm.C155_vec4_adjacent
#print axioms Zcm.C155_limit
#print axioms Zcm.C156_vec3_layers
#print axioms Zcm.C156_vec3_ends
#print axioms Zcm.C156_vec3_pure
#print axioms Zcm.C156_vec3_monotone
#print axioms Zcm.C156_vec3_screen
#print axioms Zcm.C156_vec4_layers
#print axioms Zcm.C156_vec4_ends
#print axioms Zcm.C156_vec4_pure
#print axioms Zcm.C156_vec4_monotone
#print axioms Zcm.C156_vec4_screen
#print axioms Zcm.C156_over_layers
#print axioms Zcm.C156_over_opaque
#print axioms Zcm.C156_over_ends
#print axioms Zcm.C157_vec2_round
#print axioms Zcm.C157_vec2_arrives
#print axioms Zcm.C157_vec2_way
#print axioms Zcm.C157_vec3_round
#print axioms Zcm.C157_vec3_arrives
#print axioms Zcm.C157_vec3_way
#print axioms Zcm.C157_vec4_round
#print axioms Zcm.C157_vec4_arrives
#print axioms Zcm.C157_vec4_way
#print axioms Zcm.C157_stuck
#print axioms Zcm.C158_polygon
#print axioms Zcm.C158_vec2
#print axioms Zcm.C158_vec2_shared
#print axioms Zcm.C158_vec3
#print axioms Zcm.C158_vec3_shared
#print axioms Zcm.C158_vec4
#print axioms Zcm.C158_vec4_shared
#print axioms Zcm.C158_crack
#print axioms Zcm.C159_ivec2
#print axioms Zcm.C159_ivec2_back
#print axioms Zcm.C159_ivec2_div
#print axioms Zcm.C159_ivec3
#print axioms Zcm.C159_ivec3_back
#print axioms Zcm.C159_ivec3_div
#print axioms Zcm.C16_mat2
#print axioms Zcm.C16_mat3
#print axioms Zcm.C16_mat4
#print axioms Zcm.C160_vec2_scene
#print axioms Zcm.C160_vec2_never_past
#print axioms Zcm.C160_vec2_stops
#print axioms Zcm.C160_vec3_scene
#print axioms Zcm.C160_vec3_never_past
#print axioms Zcm.C160_vec3_stops
#print axioms Zcm.C161_ivec2
#print axioms Zcm.C161_ivec2_back
#print axioms Zcm.C161_ivec2_blocks
#print axioms Zcm.C161_ivec3
#print axioms Zcm.C161_ivec3_back
#print axioms Zcm.C161_ivec3_printed
#print axioms Zcm.C162_ivec2_exact
#print axioms Zcm.C162_ivec2_overflow
#print axioms Zcm.C162_ivec2_shared_edge
#print axioms Zcm.C162_ivec2_two_triangles
#print axioms Zcm.C162_ivec2_at_most_once
#print axioms Zcm.C162_ivec2_polygon
#print axioms Zcm.C162_ivec2_inside
#print axioms Zcm.C163_ivec2
#print axioms Zcm.C163_ivec2_overflow
#print axioms Zcm.C164_ivec2_winding
#print axioms Zcm.C164_ivec2_same_boundary
#print axioms Zcm.C164_ivec2_convex
#print axioms Zcm.C164_ivec2_any_triangles
#print axioms Zcm.C165_ivec2_exact
#print axioms Zcm.C165_ivec2_mesh
#print axioms Zcm.C165_ivec2_first_corner
#print axioms Zcm.C165_ivec2_other_way
#print axioms Zcm.C165_ivec2_moved
#print axioms Zcm.C165_ivec2_positive
#print axioms Zcm.C165_ivec2_overflow
#print axioms Zcm.C166_ivec2_gcd
#print axioms Zcm.C166_ivec2_shortest
#print axioms Zcm.C166_ivec2_points
#print axioms Zcm.C166_ivec2_undefined
#print axioms Zcm.C17_float_selects
#print axioms Zcm.C17_float_bounds
#print axioms Zcm.C17_float_laws
#print axioms Zcm.C17_float_nan
#print axioms Zcm.C17_int
#print axioms Zcm.C18_float
#print axioms Zcm.C18_float_mono
#print axioms Zcm.C18_float_special
#print axioms Zcm.C18_int
#print axioms Zcm.C19_float_abs
#print axioms Zcm.C19_float_sign
#print axioms Zcm.C19_float_sign_nan
#print axioms Zcm.C19_float_signNotZero
#print axioms Zcm.C19_int_abs
#print axioms Zcm.C19_int_sign
#print axioms Zcm.C20_real
#print axioms Zcm.C20_float
#print axioms Zcm.C20_float_special
#print axioms Zcm.C20_vec2
#print axioms Zcm.C20_vec3
#print axioms Zcm.C20_vec4
#print axioms Zcm.C21_real
#print axioms Zcm.C21_float_partial
#print axioms Zcm.C21_float_all
#print axioms Zcm.C21_float_false
#print axioms Zcm.C22_real_false
#print axioms Zcm.C22_float_false
#print axioms Zcm.C22_real_partial
#print axioms Zcm.C22_float_partial
#print axioms Zcm.C22_float_actual
#print axioms Zcm.C23_mod
#print axioms Zcm.C24_mix
#print axioms Zcm.C24_float_zero
#print axioms Zcm.C24_float_endpoints
#print axioms Zcm.C24_vec2
#print axioms Zcm.C24_vec3
#print axioms Zcm.C24_vec4
#print axioms Zcm.C25_scalar
#print axioms Zcm.C25_vec2
#print axioms Zcm.C25_vec3
#print axioms Zcm.C25_vec4
#print axioms Zcm.C26_step_float
#print axioms Zcm.C26_step_real
#print axioms Zcm.C26_smoothstep
#print axioms Zcm.C26_vec2
#print axioms Zcm.C26_vec3
#print axioms Zcm.C26_vec4
#print axioms Zcm.C27_float
#print axioms Zcm.C27_vec2
#print axioms Zcm.C27_vec3
#print axioms Zcm.C27_vec4
#print axioms Zcm.C27_quat
#print axioms Zcm.C28_vec2_common
#print axioms Zcm.C28_vec2_exponential
#print axioms Zcm.C28_vec2_trigonometry
#print axioms Zcm.C28_ivec2
#print axioms Zcm.C28_vec3_common
#print axioms Zcm.C28_vec3_exponential
#print axioms Zcm.C28_vec3_trigonometry
#print axioms Zcm.C28_ivec3
#print axioms Zcm.C28_vec4_common
#print axioms Zcm.C28_vec4_exponential
#print axioms Zcm.C28_vec4_trigonometry
#print axioms Zcm.C28_ivec4
#print axioms Zcm.C28_quat
#print axioms Zcm.C29_float
#print axioms Zcm.C29_vec2
#print axioms Zcm.C29_vec2_ieee
#print axioms Zcm.C29_vec3
#print axioms Zcm.C29_vec3_ieee
#print axioms Zcm.C29_vec4
#print axioms Zcm.C29_vec4_ieee
#print axioms Zcm.C29_quat
#print axioms Zcm.C29_quat_ieee
#print axioms Zcm.C30_cross_eq
#print axioms Zcm.C30_cross
#print axioms Zcm.C30_area
#print axioms Zcm.C31_vec2
#print axioms Zcm.C31_vec3
#print axioms Zcm.C31_vec4
#print axioms Zcm.C31_quat
#print axioms Zcm.C31_float_partial
#print axioms Zcm.C31_float_false
#print axioms Zcm.C32_float
#print axioms Zcm.C32_vec2
#print axioms Zcm.C32_vec3
#print axioms Zcm.C32_vec4
#print axioms Zcm.C33_length2_float
#print axioms Zcm.C33_length2_vec2
#print axioms Zcm.C33_length2_vec3
#print axioms Zcm.C33_length2_vec4
#print axioms Zcm.C33_length2_quat
#print axioms Zcm.C33_distance2_partial
#print axioms Zcm.C33_distance2_false
#print axioms Zcm.C33_distance2_actual
#print axioms Zcm.C34_vec2
#print axioms Zcm.C34_vec3
#print axioms Zcm.C34_vec4
#print axioms Zcm.C34_quat
#print axioms Zcm.C35_float
#print axioms Zcm.C35_vec2
#print axioms Zcm.C35_vec3
#print axioms Zcm.C35_vec4
#print axioms Zcm.C35_any
#print axioms Zcm.C36_float
#print axioms Zcm.C36_vec2
#print axioms Zcm.C36_vec3
#print axioms Zcm.C36_vec4
#print axioms Zcm.C37_float
#print axioms Zcm.C37_vec2
#print axioms Zcm.C37_vec3
#print axioms Zcm.C37_vec4
#print axioms Zcm.C38_orthogonal
#print axioms Zcm.C38_orthogonal_branchless
#print axioms Zcm.C38_branchless_needs_unit
#print axioms Zcm.C39_encode_range
#print axioms Zcm.C39_roundtrip_partial
#print axioms Zcm.C39_encode_standard
#print axioms Zcm.C39_lower_false
#print axioms Zcm.C40_mat2
#print axioms Zcm.C40_mat2_entry
#print axioms Zcm.C40_mat2_laws
#print axioms Zcm.C40_mat3
#print axioms Zcm.C40_mat3_entry
#print axioms Zcm.C40_mat3_laws
#print axioms Zcm.C40_mat4
#print axioms Zcm.C40_mat4_entry
#print axioms Zcm.C40_mat4_laws
#print axioms Zcm.C41_mat2
#print axioms Zcm.C41_mat2_laws
#print axioms Zcm.C41_mat3
#print axioms Zcm.C41_mat3_laws
#print axioms Zcm.C41_mat4
#print axioms Zcm.C41_mat4_laws
#print axioms Zcm.C42_mat2
#print axioms Zcm.C42_mat2_laws
#print axioms Zcm.C42_mat3
#print axioms Zcm.C42_mat3_laws
#print axioms Zcm.C42_mat4
#print axioms Zcm.C42_mat4_laws
#print axioms Zcm.C43_mat2
#print axioms Zcm.C43_mat2_laws
#print axioms Zcm.C43_mat3
#print axioms Zcm.C43_mat3_laws
#print axioms Zcm.C43_mat4
#print axioms Zcm.C43_mat4_laws
#print axioms Zcm.C44_mat2
#print axioms Zcm.C44_mat3
#print axioms Zcm.C44_mat4
#print axioms Zcm.C45_mat2
#print axioms Zcm.C45_mat3
#print axioms Zcm.C45_mat4
#print axioms Zcm.C46_mat2_partial
#print axioms Zcm.C46_mat2_false
#print axioms Zcm.C46_mat3
#print axioms Zcm.C46_mat4
#print axioms Zcm.C47_mat2
#print axioms Zcm.C47_mat2_assign
#print axioms Zcm.C47_mat3
#print axioms Zcm.C47_mat3_assign
#print axioms Zcm.C47_mat4
#print axioms Zcm.C47_mat4_assign
#print axioms Zcm.C48_translate
#print axioms Zcm.C48_scale
#print axioms Zcm.C49_rotate
#print axioms Zcm.C49_rodrigues
#print axioms Zcm.C49_angle
#print axioms Zcm.C49_group
#print axioms Zcm.C50_RH
#print axioms Zcm.C50_LH
#print axioms Zcm.C51_ortho
#print axioms Zcm.C51_LH_ZO
#print axioms Zcm.C51_LH_ZO_clip
#print axioms Zcm.C51_LH_NO
#print axioms Zcm.C51_LH_NO_clip
#print axioms Zcm.C51_RH_ZO
#print axioms Zcm.C51_RH_ZO_clip
#print axioms Zcm.C51_RH_NO
#print axioms Zcm.C51_RH_NO_clip
#print axioms Zcm.C52_RH_ZO_partial
#print axioms Zcm.C52_RH_NO_partial
#print axioms Zcm.C52_LH_ZO_partial
#print axioms Zcm.C52_LH_NO_partial
#print axioms Zcm.C52_assert_false
#print axioms Zcm.C53_recompose
#print axioms Zcm.C53_parts
#print axioms Zcm.C54_hamilton
#print axioms Zcm.C54_ring
#print axioms Zcm.C54_units
#print axioms Zcm.C54_mulAssign
#print axioms Zcm.C55_length
#print axioms Zcm.C55_conjugate
#print axioms Zcm.C55_inverse
#print axioms Zcm.C55_unit
#print axioms Zcm.C56_sandwich
#print axioms Zcm.C56_isometry
#print axioms Zcm.C56_compose
#print axioms Zcm.C57_rotation
#print axioms Zcm.C57_hom
#print axioms Zcm.C57_mat4
#print axioms Zcm.C58_of_rotation
#print axioms Zcm.C58_roundtrip
#print axioms Zcm.C58_mat4
#print axioms Zcm.C59_rodrigues
#print axioms Zcm.C59_angle
#print axioms Zcm.C59_recover
#print axioms Zcm.C59_convert
#print axioms Zcm.C59_group
#print axioms Zcm.C59_matrix
#print axioms Zcm.C60_general
#print axioms Zcm.C60_opposite
#print axioms Zcm.C60_uv
#print axioms Zcm.C61_product
#print axioms Zcm.C61_extract
#print axioms Zcm.C61_reconstruct
#print axioms Zcm.C62_lerp
#print axioms Zcm.C62_ends
#print axioms Zcm.C62_assert
#print axioms Zcm.C62_nlerp
#print axioms Zcm.C62_nlerp_unit
#print axioms Zcm.C63_ends
#print axioms Zcm.C63_constant_speed
#print axioms Zcm.C63_fallback
#print axioms Zcm.C63_sign
#print axioms Zcm.C64_LH
#print axioms Zcm.C64_RH
#print axioms Zcm.C65_rotate
#print axioms Zcm.C65_axis
#print axioms Zcm.C66_exp_log
#print axioms Zcm.C66_log2
#print axioms Zcm.C66_sqrt
#print axioms Zcm.C66_cbrt
#print axioms Zcm.C66_inversesqrt
#print axioms Zcm.C66_pow
#print axioms Zcm.C66_sum
#print axioms Zcm.C66_exp2_false
#print axioms Zcm.C66_exp2_partial
#print axioms Zcm.C66_vec2
#print axioms Zcm.C66_vec3
#print axioms Zcm.C66_vec4
#print axioms Zcm.C66_quat
#print axioms Zcm.C66_vec2_pow
#print axioms Zcm.C66_vec3_pow
#print axioms Zcm.C66_vec4_pow
#print axioms Zcm.C66_quat_pow
#print axioms Zcm.C67_exact
#print axioms Zcm.C67_float
#print axioms Zcm.C67_roundtrip
#print axioms Zcm.C68_asin_acos
#print axioms Zcm.C68_angle
#print axioms Zcm.C68_atan
#print axioms Zcm.C68_atan2
#print axioms Zcm.C68_pythagoras
#print axioms Zcm.C68_addition
#print axioms Zcm.C68_hyperbolic
#print axioms Zcm.C68_hyperbolic_inverse
#print axioms Zcm.C68_vec2
#print axioms Zcm.C68_vec2_atan2
#print axioms Zcm.C68_vec3
#print axioms Zcm.C68_vec3_atan2
#print axioms Zcm.C68_vec4
#print axioms Zcm.C68_vec4_atan2
#print axioms Zcm.C69_alpha_linear_gamma
#print axioms Zcm.C69_alpha_linear
#print axioms Zcm.C69_alpha_srgb_gamma
#print axioms Zcm.C69_alpha_srgb
#print axioms Zcm.C69_default
#print axioms Zcm.C69_decode
#print axioms Zcm.C69_encode
#print axioms Zcm.C69_encode_high
#print axioms Zcm.C69_decode_monotone
#print axioms Zcm.C69_encode_monotone
#print axioms Zcm.C69_encode_monotone_false
#print axioms Zcm.C69_inverse_false
#print axioms Zcm.C69_reciprocal_partial
#print axioms Zcm.C69_approx
#print axioms Zcm.C69_approx_false
#print axioms Zcm.C69_approx_partial
#print axioms Zcm.C70_int
#print axioms Zcm.C70_bool
#print axioms Zcm.C70_ivec2
#print axioms Zcm.C70_bvec2
#print axioms Zcm.C70_ivec3
#print axioms Zcm.C70_bvec3
#print axioms Zcm.C70_ivec4
#print axioms Zcm.C70_bvec4
#print axioms Zcm.C70_float_false
#print axioms Zcm.C70_float_partial
#print axioms Zcm.C70_vec2_false
#print axioms Zcm.C70_vec2_partial
#print axioms Zcm.C70_vec3_false
#print axioms Zcm.C70_vec3_partial
#print axioms Zcm.C70_vec4_false
#print axioms Zcm.C70_vec4_partial
#print axioms Zcm.C70_quat_false
#print axioms Zcm.C70_quat_partial
#print axioms Zcm.C70_mat2_false
#print axioms Zcm.C70_mat2_partial
#print axioms Zcm.C70_mat3_false
#print axioms Zcm.C70_mat3_partial
#print axioms Zcm.C70_mat4_false
#print axioms Zcm.C70_mat4_partial
#print axioms Zcm.C71_int
#print axioms Zcm.C71_ivec2
#print axioms Zcm.C71_bvec2
#print axioms Zcm.C71_ivec3
#print axioms Zcm.C71_bvec3
#print axioms Zcm.C71_ivec4
#print axioms Zcm.C71_bvec4
#print axioms Zcm.C71_vec2
#print axioms Zcm.C71_vec3
#print axioms Zcm.C71_vec4
#print axioms Zcm.C71_quat
#print axioms Zcm.C71_mat2
#print axioms Zcm.C71_mat3
#print axioms Zcm.C71_mat4_partial
#print axioms Zcm.C71_mat4_false
#print axioms Zcm.C72_vec2_sum
#print axioms Zcm.C72_vec2_order
#print axioms Zcm.C72_vec2_min
#print axioms Zcm.C72_vec2_min_float
#print axioms Zcm.C72_ivec2_min
#print axioms Zcm.C72_vec2_max
#print axioms Zcm.C72_vec2_max_float
#print axioms Zcm.C72_ivec2_max
#print axioms Zcm.C72_ivec2_add
#print axioms Zcm.C72_ivec2_mul
#print axioms Zcm.C72_vec3_sum
#print axioms Zcm.C72_vec3_order
#print axioms Zcm.C72_vec3_min
#print axioms Zcm.C72_vec3_min_float
#print axioms Zcm.C72_ivec3_min
#print axioms Zcm.C72_vec3_max
#print axioms Zcm.C72_vec3_max_float
#print axioms Zcm.C72_ivec3_max
#print axioms Zcm.C72_ivec3_add
#print axioms Zcm.C72_ivec3_mul
#print axioms Zcm.C72_vec4_sum
#print axioms Zcm.C72_vec4_order
#print axioms Zcm.C72_vec4_min
#print axioms Zcm.C72_vec4_min_float
#print axioms Zcm.C72_ivec4_min
#print axioms Zcm.C72_vec4_max
#print axioms Zcm.C72_vec4_max_float
#print axioms Zcm.C72_ivec4_max
#print axioms Zcm.C72_ivec4_add
#print axioms Zcm.C72_ivec4_mul
#print axioms Zcm.C73_pi
#print axioms Zcm.C73_two_pi
#print axioms Zcm.C73_root_pi
#print axioms Zcm.C73_half_pi
#print axioms Zcm.C73_three_over_two_pi
#print axioms Zcm.C73_quarter_pi
#print axioms Zcm.C73_one_over_pi
#print axioms Zcm.C73_one_over_two_pi
#print axioms Zcm.C73_two_over_pi
#print axioms Zcm.C73_four_over_pi
#print axioms Zcm.C73_two_over_root_pi
#print axioms Zcm.C73_one_over_root_two
#print axioms Zcm.C73_root_half_pi
#print axioms Zcm.C73_root_two_pi
#print axioms Zcm.C73_root_ln_four
#print axioms Zcm.C73_e
#print axioms Zcm.C73_euler
#print axioms Zcm.C73_root_two
#print axioms Zcm.C73_root_three
#print axioms Zcm.C73_root_five
#print axioms Zcm.C73_ln_two
#print axioms Zcm.C73_ln_ten
#print axioms Zcm.C73_third
#print axioms Zcm.C73_two_thirds
#print axioms Zcm.C73_golden_ratio
#print axioms Zcm.C73_ln_ln_two
#print axioms Zcm.C73_zero_one
#print axioms Zcm.C73_epsilon
#print axioms Zcm.C74_vec2
#print axioms Zcm.C74_vec3
#print axioms Zcm.C74_vec4
#print axioms Zcm.C74_ivec2
#print axioms Zcm.C74_ivec3
#print axioms Zcm.C74_ivec4
#print axioms Zcm.C75_float
#print axioms Zcm.C75_vec2
#print axioms Zcm.C75_vec3
#print axioms Zcm.C75_vec4
#print axioms Zcm.C75_quat
#print axioms Zcm.C76_fract
#print axioms Zcm.C76_fract_vec
#print axioms Zcm.C76_clamp
#print axioms Zcm.C76_clamp_vec
#print axioms Zcm.C76_length
#print axioms Zcm.C76_smoothstep
#print axioms Zcm.C76_smoothstep_vec
#print axioms Zcm.C76_smoothstep_fin
#print axioms Zcm.C76_mix
#print axioms Zcm.C77_mat2
#print axioms Zcm.C77_transpose2
#print axioms Zcm.C77_mat3
#print axioms Zcm.C77_transpose3
#print axioms Zcm.C77_mat4
#print axioms Zcm.C77_transpose4
#print axioms Zcm.C77_casts
#print axioms Zcm.C78_ivec2
#print axioms Zcm.C78_ivec3
#print axioms Zcm.C78_ivec4
#print axioms Zcm.C79_constructors
#print axioms Zcm.C79_default
#print axioms Zcm.C79_operators
#print axioms Zcm.C79_scalar_comm
#print axioms Zcm.C80_sqrt
#print axioms Zcm.C80_vec2
#print axioms Zcm.C80_vec3
#print axioms Zcm.C80_vec4
#print axioms Zcm.C80_mat2
#print axioms Zcm.C80_mat3
#print axioms Zcm.C80_mat4
#print axioms Zcm.C80_quat
#print axioms Zcm.C80_fma
#print axioms Zcm.C80_fma_vec
#print axioms Zcm.C80_unique
#print axioms Zcm.C81_dot_vec2
#print axioms Zcm.C81_dot_vec3
#print axioms Zcm.C81_dot_vec4
#print axioms Zcm.C81_dot_quat
#print axioms Zcm.C81_cross
#print axioms Zcm.C81_mat2_vec
#print axioms Zcm.C81_vec_mat2
#print axioms Zcm.C81_mat2_mul
#print axioms Zcm.C81_mat3_vec
#print axioms Zcm.C81_vec_mat3
#print axioms Zcm.C81_mat3_mul
#print axioms Zcm.C81_mat4_vec
#print axioms Zcm.C81_vec_mat4
#print axioms Zcm.C81_mat4_mul
#print axioms Zcm.C82_length_vec2
#print axioms Zcm.C82_length_vec3
#print axioms Zcm.C82_length_vec4
#print axioms Zcm.C82_length_quat
#print axioms Zcm.C82_distance_vec2
#print axioms Zcm.C82_distance_vec3
#print axioms Zcm.C82_distance_vec4
#print axioms Zcm.C83_vec2
#print axioms Zcm.C83_vec3
#print axioms Zcm.C83_vec4
#print axioms Zcm.C83_quat
#print axioms Zcm.C84_vec2
#print axioms Zcm.C84_distance_vec2
#print axioms Zcm.C84_vec3
#print axioms Zcm.C84_distance_vec3
#print axioms Zcm.C84_vec4
#print axioms Zcm.C84_distance_vec4
#print axioms Zcm.C84_cross
#print axioms Zcm.C84_cross_self
#print axioms Zcm.C84_mat2
#print axioms Zcm.C84_mat3
#print axioms Zcm.C84_mat4
#print axioms Zcm.C85_float
#print axioms Zcm.C85_mix
#print axioms Zcm.C85_roundings
#print axioms Zcm.C85_vec2_ops
#print axioms Zcm.C85_vec2_length
#print axioms Zcm.C85_vec3_ops
#print axioms Zcm.C85_vec3_length
#print axioms Zcm.C85_vec4_ops
#print axioms Zcm.C85_vec4_length
#print axioms Zcm.C86_vec2
#print axioms Zcm.C86_vec3
#print axioms Zcm.C86_vec4
#print axioms Zcm.C86_cross
#print axioms Zcm.C86_dot_vec2
#print axioms Zcm.C86_mat2_vec
#print axioms Zcm.C86_vec_mat2
#print axioms Zcm.C86_mat2_mul
#print axioms Zcm.C86_dot_vec3
#print axioms Zcm.C86_mat3_vec
#print axioms Zcm.C86_vec_mat3
#print axioms Zcm.C86_mat3_mul
#print axioms Zcm.C86_dot_vec4
#print axioms Zcm.C86_mat4_vec
#print axioms Zcm.C86_vec_mat4
#print axioms Zcm.C86_mat4_mul
#print axioms Zcm.C86_determinant_mat2
#print axioms Zcm.C86_adjugate_mat2
#print axioms Zcm.C86_inverse_mat2
#print axioms Zcm.C86_inverse_mul_mat2
#print axioms Zcm.C86_determinant_mat3
#print axioms Zcm.C86_adjugate_mat3
#print axioms Zcm.C86_inverse_mat3
#print axioms Zcm.C86_inverse_mul_mat3
#print axioms Zcm.C86_determinant_mat4
#print axioms Zcm.C86_adjugate_mat4
#print axioms Zcm.C86_inverse_mat4
#print axioms Zcm.C86_inverse_mul_mat4
#print axioms Zcm.C87_quat
#print axioms Zcm.C87_norm
#print axioms Zcm.C87_identity_false
#print axioms Zcm.C88_quat
#print axioms Zcm.C88_growth
#print axioms Zcm.C88_normalized
#print axioms Zcm.C89_quat
#print axioms Zcm.C89_reference
#print axioms Zcm.C90_rotate
#print axioms Zcm.C90_length
#print axioms Zcm.C90_history
#print axioms Zcm.C91_mat3
#print axioms Zcm.C91_orthonormal
#print axioms Zcm.C91_mat4
#print axioms Zcm.C92_mat2
#print axioms Zcm.C92_mat3
#print axioms Zcm.C92_mat4
#print axioms Zcm.C92_quat
#print axioms Zcm.C92_bvec2
#print axioms Zcm.C92_bvec3
#print axioms Zcm.C92_bvec4
#print axioms Zcm.C93_translate_point
#print axioms Zcm.C93_translate_direction
#print axioms Zcm.C93_translate_twice
#print axioms Zcm.C93_scale_point
#print axioms Zcm.C93_scale_then_translate
#print axioms Zcm.C94_inverse_quat
#print axioms Zcm.C94_inverse_elementary
#print axioms Zcm.C94_lookAt_RH
#print axioms Zcm.C94_lookAt_LH
#print axioms Zcm.C94_euler
#print axioms Zcm.C94_rotate
#print axioms Zcm.C94_slerp_angleAxis
#print axioms Zcm.C94_slerp_frame
#print axioms Zcm.C94_uv
#print axioms Zcm.C95_normal3
#print axioms Zcm.C95_cross
#print axioms Zcm.C95_plane
#print axioms Zcm.C95_normal2_false
#print axioms Zcm.C95_normal2_partial
#print axioms Zcm.C96_dot
#print axioms Zcm.C96_cross
#print axioms Zcm.C96_mulV
#print axioms Zcm.C96_mul
#print axioms Zcm.C96_vmul
#print axioms Zcm.C96_length
#print axioms Zcm.C96_normalize
#print axioms Zcm.C96_distance
#print axioms Zcm.C96_mix
#print axioms Zcm.C97_mat2_operators
#print axioms Zcm.C97_mat3_operators
#print axioms Zcm.C97_mat4_operators
#print axioms Zcm.C97_matrixCompMult
#print axioms Zcm.C97_transpose
#print axioms Zcm.C97_determinant
#print axioms Zcm.C97_inverse
#print axioms Zcm.C97_adjugate
#print axioms Zcm.C97_inverseTranspose
#print axioms Zcm.C97_adjugateTranspose
#print axioms Zcm.C97_transforms
#print axioms Zcm.C97_lookAt
#print axioms Zcm.C97_ortho
#print axioms Zcm.C97_perspective
#print axioms Zcm.C97_casts
#print axioms Zcm.C97_quatLookAt
#print axioms Zcm.C97_decompose
#print axioms Zcm.C97_no_init
#print axioms Zcm.C98_determinant_mat2
#print axioms Zcm.C98_determinant_mat3
#print axioms Zcm.C98_determinant_mat4
#print axioms Zcm.C98_sign_mat2
#print axioms Zcm.C98_sign_mat3
#print axioms Zcm.C98_sign_mat4
#print axioms Zcm.C98_adjugate_mat2
#print axioms Zcm.C98_adjugate_mat3
#print axioms Zcm.C98_adjugate_mat4
#print axioms Zcm.C98_inverse_mat2
#print axioms Zcm.C98_inverse_mat3
#print axioms Zcm.C98_inverse_mat4
#print axioms Zcm.C98_adjugateTranspose_mat3
#print axioms Zcm.C98_adjugateTranspose_mat4
#print axioms Zcm.C98_inverseTranspose_mat3
#print axioms Zcm.C98_inverseTranspose_mat4
#print axioms Zcm.C99_vec2_operators
#print axioms Zcm.C99_vec3_operators
#print axioms Zcm.C99_vec4_operators
#print axioms Zcm.C99_quat_operators
#print axioms Zcm.C99_vec2_dot
#print axioms Zcm.C99_vec2_length
#print axioms Zcm.C99_vec3_dot
#print axioms Zcm.C99_vec3_length
#print axioms Zcm.C99_vec4_dot
#print axioms Zcm.C99_vec4_length
#print axioms Zcm.C99_quat_dot
#print axioms Zcm.C99_quat_length
#print axioms Zcm.C99_vec2_reflect
#print axioms Zcm.C99_vec2_faceforward
#print axioms Zcm.C99_vec3_reflect
#print axioms Zcm.C99_vec3_faceforward
#print axioms Zcm.C99_vec4_reflect
#print axioms Zcm.C99_vec4_faceforward
#print axioms Zcm.C99_cross
#print axioms Zcm.C99_scalar
#print axioms Zcm.C99_swallowed
#print axioms Zcm.C99_comparison
#print axioms Zcm.C99_vec2_eq
#print axioms Zcm.C99_vec3_eq
#print axioms Zcm.C99_vec4_eq
#print axioms Zcm.C99_quat_eq
#print axioms Zcm.C99_mat2_vec
#print axioms Zcm.C99_mat2_mul
#print axioms Zcm.C99_mat2_inverse
#print axioms Zcm.C99_mat3_vec
#print axioms Zcm.C99_mat3_mul
#print axioms Zcm.C99_mat3_inverse
#print axioms Zcm.C99_mat4_vec
#print axioms Zcm.C99_mat4_mul
#print axioms Zcm.C99_mat4_inverse
#print axioms Zcm.C99_quat_mul
#print axioms Zcm.C99_lerp
#print axioms Zcm.C99_casts
#print axioms Zcm.C99_decompose
#print axioms Zcm.C99_singular_mat2
#print axioms Zcm.C99_singular_mat3
#print axioms Zcm.C99_singular_mat4
#print axioms Zcm.C99_vec2_normalize
#print axioms Zcm.C99_vec2_length_iff
#print axioms Zcm.C99_vec3_normalize
#print axioms Zcm.C99_vec3_length_iff
#print axioms Zcm.C99_vec4_normalize
#print axioms Zcm.C99_vec4_length_iff
