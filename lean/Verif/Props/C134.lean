import Verif.Lemmas.F32Affine
import Verif.Lemmas.F32AffineQuat
import Verif.Model.Common
import Verif.Props.C81
import Verif.Props.C90
import Verif.Props.C103

/-!
# C134  Transforming commutes with interpolating in IEEE arithmetic

Transforming the ends of a segment and interpolating between the images gives the same point, up to a few roundings, as
interpolating first and transforming the result.  This is what lets a program move work between vertices and the points in
between.
-/

set_option exponentiation.threshold 300

namespace Zcm

open F32

/-- Numbers that can be transformed and interpolated without overflow. -/
def Mixable {n : ℕ} (m a b : Fin n → F32) (t : F32) : Prop :=
  (∀ i, (m i).IsFin = true) ∧ (∀ i, (a i).IsFin = true ∧ |(a i).val| ≤ 2 ^ 124) ∧
  (∀ i, (b i).IsFin = true ∧ |(b i).val| ≤ 2 ^ 124) ∧ (t.IsFin = true ∧ 0 ≤ t.val ∧ t.val ≤ 1) ∧
  ∑ i, |(m i).val| * (|(a i).val| + |(b i).val|) ≤ 2 ^ 123 ∧ ∑ i, |(m i).val| ≤ 2 ^ 123

/-- `x` and `y` are finite and differ by at most 15 units of `2^-24` of the sum of the magnitudes of all terms (and a tiny
amount for underflow). -/
def AgreeMix {n : ℕ} (x y : F32) (m a b : Fin n → F32) : Prop :=
  x.IsFin = true ∧ y.IsFin = true ∧
    |x.val - y.val| ≤ 15 / 2 ^ 24 * ∑ i, |(m i).val| * (|(a i).val| + |(b i).val|) +
      (2 * ∑ i, |(m i).val| + 20) / 2 ^ 149

private theorem agree {n : ℕ} (hn : n ≤ 4) {x y z t : F32} {m a b c : Fin n → F32} (h : Mixable m a b t) (hx : AccurateSum x m c)
    (hy : AccurateSum y m a) (hz : AccurateSum z m b) (hc : ∀ i, c i = F.mix (a i) (b i) t) :
    AgreeMix x (F.mix y z t) m a b :=
  affine_core hn hx hy hz hc h.1 h.2.1 h.2.2.1 h.2.2.2.1.1 h.2.2.2.1.2.1 h.2.2.2.1.2.2 h.2.2.2.2.1 h.2.2.2.2.2

/-- C134, mat2 times vec2: transforming the interpolated vector or interpolating the transformed vectors. -/
theorem C134_mat2_vec (m : M2 F32) (a b : V2 F32) (t : F32) (r : Fin 2)
    (h : Mixable (fun c => entry m c r) (coord a) (coord b) t) :
    AgreeMix (coord (m * V2.mixS a b t) r) (coord (V2.mixS (m * a) (m * b) t) r) (fun c => entry m c r) (coord a) (coord b) := by
  rw [show coord (V2.mixS (m * a) (m * b) t) r = F.mix (coord (m * a) r) (coord (m * b) r) t by fin_cases r <;> rfl]
  exact agree (by norm_num) h (C81_mat2_vec m _ r) (C81_mat2_vec m a r) (C81_mat2_vec m b r)
    (fun c => by fin_cases c <;> rfl)

/-- C134, vec2 times mat2 likewise. -/
theorem C134_vec_mat2 (m : M2 F32) (a b : V2 F32) (t : F32) (c : Fin 2) (h : Mixable (entry m c) (coord a) (coord b) t) :
    AgreeMix (coord (V2.mixS a b t * m) c) (coord (V2.mixS (a * m) (b * m) t) c) (entry m c) (coord a) (coord b) := by
  rw [show coord (V2.mixS (a * m) (b * m) t) c = F.mix (coord (a * m) c) (coord (b * m) c) t by fin_cases c <;> rfl]
  exact agree (by norm_num) h (C81_vec_mat2 _ m c).swap (C81_vec_mat2 a m c).swap (C81_vec_mat2 b m c).swap
    (fun c => by fin_cases c <;> rfl)

/-- C134, the dot product of vec2 likewise: `dot(p, mix(a, b, t))` and `mix(dot(p, a), dot(p, b), t)`. -/
theorem C134_dot_vec2 (p a b : V2 F32) (t : F32) (h : Mixable (coord p) (coord a) (coord b) t) :
    AgreeMix (V2.dot p (V2.mixS a b t)) (F.mix (V2.dot p a) (V2.dot p b) t) (coord p) (coord a) (coord b) :=
  agree (by norm_num) h (C81_dot_vec2 p _).1 (C81_dot_vec2 p a).1 (C81_dot_vec2 p b).1 (fun c => by fin_cases c <;> rfl)

/-- C134, mat3 times vec3: transforming the interpolated vector or interpolating the transformed vectors. -/
theorem C134_mat3_vec (m : M3 F32) (a b : V3 F32) (t : F32) (r : Fin 3)
    (h : Mixable (fun c => entry m c r) (coord a) (coord b) t) :
    AgreeMix (coord (m * V3.mixS a b t) r) (coord (V3.mixS (m * a) (m * b) t) r) (fun c => entry m c r) (coord a) (coord b) := by
  rw [show coord (V3.mixS (m * a) (m * b) t) r = F.mix (coord (m * a) r) (coord (m * b) r) t by fin_cases r <;> rfl]
  exact agree (by norm_num) h (C81_mat3_vec m _ r) (C81_mat3_vec m a r) (C81_mat3_vec m b r)
    (fun c => by fin_cases c <;> rfl)

/-- C134, vec3 times mat3 likewise. -/
theorem C134_vec_mat3 (m : M3 F32) (a b : V3 F32) (t : F32) (c : Fin 3) (h : Mixable (entry m c) (coord a) (coord b) t) :
    AgreeMix (coord (V3.mixS a b t * m) c) (coord (V3.mixS (a * m) (b * m) t) c) (entry m c) (coord a) (coord b) := by
  rw [show coord (V3.mixS (a * m) (b * m) t) c = F.mix (coord (a * m) c) (coord (b * m) c) t by fin_cases c <;> rfl]
  exact agree (by norm_num) h (C81_vec_mat3 _ m c).swap (C81_vec_mat3 a m c).swap (C81_vec_mat3 b m c).swap
    (fun c => by fin_cases c <;> rfl)

/-- C134, the dot product of vec3 likewise: `dot(p, mix(a, b, t))` and `mix(dot(p, a), dot(p, b), t)`. -/
theorem C134_dot_vec3 (p a b : V3 F32) (t : F32) (h : Mixable (coord p) (coord a) (coord b) t) :
    AgreeMix (V3.dot p (V3.mixS a b t)) (F.mix (V3.dot p a) (V3.dot p b) t) (coord p) (coord a) (coord b) :=
  agree (by norm_num) h (C81_dot_vec3 p _).1 (C81_dot_vec3 p a).1 (C81_dot_vec3 p b).1 (fun c => by fin_cases c <;> rfl)

/-- C134, mat4 times vec4: transforming the interpolated vector or interpolating the transformed vectors. -/
theorem C134_mat4_vec (m : M4 F32) (a b : V4 F32) (t : F32) (r : Fin 4)
    (h : Mixable (fun c => entry m c r) (coord a) (coord b) t) :
    AgreeMix (coord (m * V4.mixS a b t) r) (coord (V4.mixS (m * a) (m * b) t) r) (fun c => entry m c r) (coord a) (coord b) := by
  rw [show coord (V4.mixS (m * a) (m * b) t) r = F.mix (coord (m * a) r) (coord (m * b) r) t by fin_cases r <;> rfl]
  exact agree (by norm_num) h (C81_mat4_vec m _ r) (C81_mat4_vec m a r) (C81_mat4_vec m b r)
    (fun c => by fin_cases c <;> rfl)

/-- C134, vec4 times mat4 likewise. -/
theorem C134_vec_mat4 (m : M4 F32) (a b : V4 F32) (t : F32) (c : Fin 4) (h : Mixable (entry m c) (coord a) (coord b) t) :
    AgreeMix (coord (V4.mixS a b t * m) c) (coord (V4.mixS (a * m) (b * m) t) c) (entry m c) (coord a) (coord b) := by
  rw [show coord (V4.mixS (a * m) (b * m) t) c = F.mix (coord (a * m) c) (coord (b * m) c) t by fin_cases c <;> rfl]
  exact agree (by norm_num) h (C81_vec_mat4 _ m c).swap (C81_vec_mat4 a m c).swap (C81_vec_mat4 b m c).swap
    (fun c => by fin_cases c <;> rfl)

/-- C134, the dot product of vec4 likewise: `dot(p, mix(a, b, t))` and `mix(dot(p, a), dot(p, b), t)`. -/
theorem C134_dot_vec4 (p a b : V4 F32) (t : F32) (h : Mixable (coord p) (coord a) (coord b) t) :
    AgreeMix (V4.dot p (V4.mixS a b t)) (F.mix (V4.dot p a) (V4.dot p b) t) (coord p) (coord a) (coord b) :=
  agree (by norm_num) h (C81_dot_vec4 p _).1 (C81_dot_vec4 p a).1 (C81_dot_vec4 p b).1 (fun c => by fin_cases c <;> rfl)

/-! ## Quaternions -/

open Quaternion in
/-- C134, quaternion times vec3: rotating the interpolated vector or interpolating the rotated vectors, for a quaternion as
`normalize` returns it. -/
theorem C134_quat_vec3 (q : Quat F32) (a b : V3 F32) (t : F32) (hq : q.Finite) (hu : |‖exactQ q‖ - 1| ≤ 1 / 2 ^ 20)
    (ha : a.Finite) (hb : b.Finite) (a1 : 1 / 2 ^ 100 ≤ ‖exactV a‖) (a2 : ‖exactV a‖ ≤ 2 ^ 118)
    (b1 : 1 / 2 ^ 100 ≤ ‖exactV b‖) (b2 : ‖exactV b‖ ≤ 2 ^ 118) (ht : Fraction t)
    (hm : 1 / 2 ^ 100 ≤ ‖exactV (V3.mixS a b t)‖) :
    V3.Finite (q * V3.mixS a b t) ∧ V3.Finite (V3.mixS (q * a) (q * b) t) ∧
      ‖exactV (q * V3.mixS a b t) - exactV (V3.mixS (q * a) (q * b) t)‖ ≤ 1 / 2 ^ 14 * (‖exactV a‖ + ‖exactV b‖) :=
  quat_mix hq hu ha hb a1 a2 b1 b2 ht.1 ht.2.1 ht.2.2 hm

/-! ## Non-vacuity -/

/-- small integers meet the hypotheses of the theorems above -/
example : let m : M3 F32 := ⟨⟨lit 1, lit (-2), lit 3⟩, ⟨lit 3, lit 5, lit 1⟩, ⟨lit 0, lit 1, lit 7⟩⟩
    let a : V3 F32 := ⟨lit 7, lit (-1), lit 4⟩
    let b : V3 F32 := ⟨lit (1 / 2), lit 2, lit 9⟩
    ∀ r, Mixable (fun c => entry m c r) (coord a) (coord b) (lit (1 / 4)) := by
  unfold Mixable
  decide +kernel

/-- a third of a turn and two vectors of lengths 3 and 9, with their midpoint -/
example : let a : V3 F32 := ⟨lit 2, lit 2, lit 1⟩
    let b : V3 F32 := ⟨lit 6, lit 6, lit 3⟩
    third.Finite ∧ |‖exactQ third‖ - 1| ≤ 1 / 2 ^ 20 ∧ a.Finite ∧ b.Finite ∧ ‖exactV a‖ = 3 ∧ ‖exactV b‖ = 9 ∧
      Fraction (lit (1 / 2)) ∧ ‖exactV (V3.mixS a b (lit (1 / 2)))‖ = 6 := by
  obtain ⟨f, n⟩ := third_norm
  have e1 : (lit 1 : F32).val = 1 := by decide +kernel
  have e2 : (lit 2 : F32).val = 2 := by decide +kernel
  have e3 : (lit 3 : F32).val = 3 := by decide +kernel
  have e6 : (lit 6 : F32).val = 6 := by decide +kernel
  have eh : (lit (1 / 2) : F32).val = 1 / 2 := by decide +kernel
  have m1 : (F.mix (lit 2) (lit 6) (lit (1 / 2)) : F32).val = 4 := by decide +kernel
  have m2 : (F.mix (lit 1) (lit 3) (lit (1 / 2)) : F32).val = 2 := by decide +kernel
  refine ⟨f, by rw [n]; norm_num, fun i => by fin_cases i <;> decide +kernel, fun i => by fin_cases i <;> decide +kernel,
    ?_, ?_, ⟨by decide +kernel, by rw [eh]; norm_num, by rw [eh]; norm_num⟩, ?_⟩
  · rw [← sq_eq_sq₀ (norm_nonneg _) (by norm_num), norm_sq_quat]
    simp only [exactV, e1, e2]
    norm_num
  · rw [← sq_eq_sq₀ (norm_nonneg _) (by norm_num), norm_sq_quat]
    simp only [exactV, e6, e3]
    norm_num
  · rw [← sq_eq_sq₀ (norm_nonneg _) (by norm_num), norm_sq_quat]
    simp only [exactV, V3.mixS, m1, m2]
    norm_num

end Zcm
