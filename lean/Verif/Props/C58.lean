import Verif.Lemmas.RotQuat

/-!
# C58: `quat_cast` inverts `mat3_cast`

Exact arithmetic.  A rotation matrix is an orthogonal matrix with determinant 1.
-/

namespace Zcm

/-- C58: for every rotation matrix `R`, `quat_cast(R)` is a unit quaternion with matrix `R`; one of
its components (the selected one, by which the function divides) is at least 1/2. -/
theorem C58_of_rotation (R : M3 ℝ) (hR : (toMat R).transpose * toMat R = 1) (hd : (toMat R).det = 1) :
    Quat.length (M3.quat_cast R) = 1 ∧ Quat.mat3_cast (M3.quat_cast R) = R ∧
    ∃ i, 1 / 2 ≤ coord (M3.quat_cast R) i := by
  have h := (RotEq.of_rotation hR hd).quat_cast
  exact ⟨Quat.length_of_dot_self h.1, h.2⟩

/-- C58: for every unit quaternion `quat_cast(mat3_cast(q))` is `q` or `-q`; the same for `mat4`. -/
theorem C58_roundtrip (q : Quat ℝ) (hq : Quat.length q = 1) :
    (M3.quat_cast (Quat.mat3_cast q) = q ∨ M3.quat_cast (Quat.mat3_cast q) = -q) ∧
    M4.quat_cast (Quat.mat4_cast q) = M3.quat_cast (Quat.mat3_cast q) := by
  have hq := Quat.dot_self_of_length hq
  have h := (RotEq.mat3_cast hq).quat_cast
  exact ⟨Quat.eq_or_neg_of_mat3_cast h.1 hq h.2.1, rfl⟩

/-- C58: `quat_cast(mat4)` only looks at the upper left 3x3 block, whose rotation it recovers. -/
theorem C58_mat4 (M : M4 ℝ) (R : M3 ℝ) (hR : (toMat R).transpose * toMat R = 1) (hd : (toMat R).det = 1)
    (hM : ∀ c r : Fin 3, entry M c.castSucc r.castSucc = entry R c r) :
    Quat.length (M4.quat_cast M) = 1 ∧ Quat.mat3_cast (M4.quat_cast M) = R := by
  have : M4.toMat3 M = R := by
    rw [← entry_inj3]
    intro c r
    rw [← hM]
    fin_cases c <;> fin_cases r <;> rfl
  rw [M4.quat_cast, this]
  exact ⟨(C58_of_rotation R hR hd).1, (C58_of_rotation R hR hd).2.1⟩

/-- Non-vacuity: each of the four selection branches is reached by a rotation matrix: the identity
and the half turns about `x`, `y`, `z`. -/
example : M3.quat_cast (Quat.mat3_cast (Quat.wxyz 1 0 0 0 : Quat ℝ)) = Quat.wxyz 1 0 0 0 ∧
    M3.quat_cast (Quat.mat3_cast (Quat.wxyz 0 1 0 0 : Quat ℝ)) = Quat.wxyz 0 1 0 0 ∧
    M3.quat_cast (Quat.mat3_cast (Quat.wxyz 0 0 1 0 : Quat ℝ)) = Quat.wxyz 0 0 1 0 ∧
    M3.quat_cast (Quat.mat3_cast (Quat.wxyz 0 0 0 1 : Quat ℝ)) = Quat.wxyz 0 0 0 1 := by
  have e : √4 = 2 := by rw [show (4:ℝ) = 2 ^ 2 by norm_num]; exact Real.sqrt_sq (by norm_num)
  refine ⟨?_, ?_, ?_, ?_⟩ <;> simp [M3.quat_cast, Quat.mat3_cast] <;> norm_num [e]

end Zcm
