import Verif.Lemmas.F32Det

/-!
# C98  Determinants, adjugates and inverses are accurate in IEEE arithmetic

Entries are finite and at most `B ≤ 2^30` in magnitude.  `exactMat m` is the rational matrix that `m` stands for; its
determinant, adjugate and inverse are Mathlib's.  `termSize` (Spec/Leibniz) is the sum of the magnitudes of the Leibniz terms.
-/

set_option exponentiation.threshold 300

namespace Zcm

open F32

/-- C98, `determinant(mat2)`. -/
theorem C98_determinant_mat2 (m : M2 F32) (B : ℚ) (hB : 1 ≤ B) (hB' : B ≤ 2 ^ 30) (h : BoundedBy m B) :
    (M2.determinant m).IsFin = true ∧
    |(M2.determinant m).val - (exactMat m).det| ≤
      ((1 + 1 / 2 ^ 24) ^ 2 - 1) * termSize (exactMat m) + 1 / 2 ^ 148 := by
  have p := det2 hB hB' h
  refine ⟨p.fin, p.err.trans (add_le_add le_rfl ?_)⟩
  norm_num

/-- C98, `determinant(mat3)`. -/
theorem C98_determinant_mat3 (m : M3 F32) (B : ℚ) (hB : 1 ≤ B) (hB' : B ≤ 2 ^ 30) (h : BoundedBy m B) :
    (M3.determinant m).IsFin = true ∧
    |(M3.determinant m).val - (exactMat m).det| ≤
      ((1 + 1 / 2 ^ 24) ^ 5 - 1) * termSize (exactMat m) + B / 2 ^ 146 := by
  have p := det3 hB hB' h
  refine ⟨p.fin, p.err.trans (add_le_add le_rfl ?_)⟩
  rw [pow_one, div_eq_inv_mul B]
  exact mul_le_mul_of_nonneg_right (by norm_num) (by linarith)

/-- C98, `determinant(mat4)`. -/
theorem C98_determinant_mat4 (m : M4 F32) (B : ℚ) (hB : 1 ≤ B) (hB' : B ≤ 2 ^ 30) (h : BoundedBy m B) :
    (M4.determinant m).IsFin = true ∧
    |(M4.determinant m).val - (exactMat m).det| ≤
      ((1 + 1 / 2 ^ 24) ^ 9 - 1) * termSize (exactMat m) + B ^ 2 / 2 ^ 144 := by
  have p := det4 hB hB' h
  refine ⟨p.fin, p.err.trans (add_le_add le_rfl ?_)⟩
  rw [div_eq_inv_mul (B ^ 2)]
  exact mul_le_mul_of_nonneg_right (by norm_num) (by positivity)

/-- C98: the computed determinant has the sign of the exact one, unless the exact one is below the error bound. -/
theorem C98_sign_mat2 (m : M2 F32) (B : ℚ) (hB : 1 ≤ B) (hB' : B ≤ 2 ^ 30) (h : BoundedBy m B)
    (hd : ((1 + 1 / 2 ^ 24) ^ 2 - 1) * termSize (exactMat m) + 1 / 2 ^ 148 < |(exactMat m).det|) :
    (0 < (M2.determinant m).val ↔ 0 < (exactMat m).det) ∧ ((M2.determinant m).val < 0 ↔ (exactMat m).det < 0) :=
  sign_of_error (C98_determinant_mat2 m B hB hB' h).2 hd

/-- C98, the sign of `determinant(mat3)`. -/
theorem C98_sign_mat3 (m : M3 F32) (B : ℚ) (hB : 1 ≤ B) (hB' : B ≤ 2 ^ 30) (h : BoundedBy m B)
    (hd : ((1 + 1 / 2 ^ 24) ^ 5 - 1) * termSize (exactMat m) + B / 2 ^ 146 < |(exactMat m).det|) :
    (0 < (M3.determinant m).val ↔ 0 < (exactMat m).det) ∧ ((M3.determinant m).val < 0 ↔ (exactMat m).det < 0) :=
  sign_of_error (C98_determinant_mat3 m B hB hB' h).2 hd

/-- C98, the sign of `determinant(mat4)`. -/
theorem C98_sign_mat4 (m : M4 F32) (B : ℚ) (hB : 1 ≤ B) (hB' : B ≤ 2 ^ 30) (h : BoundedBy m B)
    (hd : ((1 + 1 / 2 ^ 24) ^ 9 - 1) * termSize (exactMat m) + B ^ 2 / 2 ^ 144 < |(exactMat m).det|) :
    (0 < (M4.determinant m).val ↔ 0 < (exactMat m).det) ∧ ((M4.determinant m).val < 0 ↔ (exactMat m).det < 0) :=
  sign_of_error (C98_determinant_mat4 m B hB hB' h).2 hd

/-- C98, `adjugate(mat2)` makes no rounding error. -/
theorem C98_adjugate_mat2 (m : M2 F32) (B : ℚ) (h : BoundedBy m B) (r c : Fin 2) :
    (entry (M2.adjugate m) c r).IsFin = true ∧ (entry (M2.adjugate m) c r).val = (exactMat m).adjugate r c :=
  ⟨(adj2 h r c).1.1, (adj2 h r c).2.1⟩

/-- C98, `adjugate(mat3)`. -/
theorem C98_adjugate_mat3 (m : M3 F32) (B : ℚ) (hB : 1 ≤ B) (hB' : B ≤ 2 ^ 30) (h : BoundedBy m B) (r c : Fin 3) :
    (entry (M3.adjugate m) c r).IsFin = true ∧
    |(entry (M3.adjugate m) c r).val - (exactMat m).adjugate r c| ≤
      ((1 + 1 / 2 ^ 24) ^ 2 - 1) * minorSize (exactMat m) r c + 1 / 2 ^ 148 := by
  have p := adj3 hB hB' h r c
  refine ⟨p.fin, p.err.trans (add_le_add le_rfl ?_)⟩
  norm_num

/-- C98, `adjugate(mat4)`. -/
theorem C98_adjugate_mat4 (m : M4 F32) (B : ℚ) (hB : 1 ≤ B) (hB' : B ≤ 2 ^ 30) (h : BoundedBy m B) (r c : Fin 4) :
    (entry (M4.adjugate m) c r).IsFin = true ∧
    |(entry (M4.adjugate m) c r).val - (exactMat m).adjugate r c| ≤
      ((1 + 1 / 2 ^ 24) ^ 5 - 1) * minorSize (exactMat m) r c + B / 2 ^ 146 := by
  have p := adj4 hB hB' h r c
  refine ⟨p.fin, p.err.trans (add_le_add le_rfl ?_)⟩
  rw [pow_one, div_eq_inv_mul B]
  exact mul_le_mul_of_nonneg_right (by norm_num) (by linarith)

/-- C98, `inverse(mat2)`. -/
theorem C98_inverse_mat2 (m : M2 F32) (B : ℚ) (hB : 1 ≤ B) (hB' : B ≤ 2 ^ 30) (h : BoundedBy m B)
    (hi : Invertible32 (exactMat m) B) (r c : Fin 2) :
    InverseEntry (exactMat m) B r c (entry (M2.inverse m) c r) := by
  have e : entry (M2.inverse m) c r = entry (M2.adjugate m) c r * (lit 1 / M2.determinant m) := by
    fin_cases r <;> fin_cases c <;> rfl
  unfold InverseEntry
  rw [e, inv_apply]
  exact (ready2 hB hB' h r c (by simpa using hi.2) hi.1).mul hB

/-- C98, `inverse(mat3)`. -/
theorem C98_inverse_mat3 (m : M3 F32) (B : ℚ) (hB : 1 ≤ B) (hB' : B ≤ 2 ^ 30) (h : BoundedBy m B)
    (hi : Invertible32 (exactMat m) B) (r c : Fin 3) :
    InverseEntry (exactMat m) B r c (entry (M3.inverse m) c r) := by
  have e : entry (M3.inverse m) c r = entry (M3.adjugate m) c r * (lit 1 / M3.determinant m) := by
    fin_cases r <;> fin_cases c <;> rfl
  unfold InverseEntry
  rw [e, inv_apply]
  exact (ready3 hB hB' (det3 hB hB' h) h r c hi.2 hi.1).mul hB

/-- C98, `inverse(mat4)`. -/
theorem C98_inverse_mat4 (m : M4 F32) (B : ℚ) (hB : 1 ≤ B) (hB' : B ≤ 2 ^ 30) (h : BoundedBy m B)
    (hi : Invertible32 (exactMat m) B) (r c : Fin 4) :
    InverseEntry (exactMat m) B r c (entry (M4.inverse m) c r) := by
  have e : entry (M4.inverse m) c r = entry (M4.adjugate m) c r *
      (lit 1 / ((m.c0.x * entry (M4.adjugate m) 0 0 + m.c0.y * entry (M4.adjugate m) 1 0) +
        (m.c0.z * entry (M4.adjugate m) 2 0 + m.c0.w * entry (M4.adjugate m) 3 0))) := by
    fin_cases r <;> fin_cases c <;> rfl
  unfold InverseEntry
  rw [e, inv_apply]
  exact (ready4 hB hB' (det4' hB hB' h) h r c hi.2 hi.1).mul hB

/-- C98, `adjugateTranspose(mat3)` is bit for bit the transpose of `adjugate(mat3)`. -/
theorem C98_adjugateTranspose_mat3 (m : M3 F32) : M3.adjugateTranspose m = M3.transpose (M3.adjugate m) := rfl

/-- C98, `adjugateTranspose(mat4)` is bit for bit the transpose of `adjugate(mat4)`. -/
theorem C98_adjugateTranspose_mat4 (m : M4 F32) : M4.adjugateTranspose m = M4.transpose (M4.adjugate m) := by
  simp only [M4.adjugateTranspose, M4.transpose, M4.adjugate, V4.mul_x, V4.mul_y, V4.mul_z, V4.mul_w, V4.add_x, V4.add_y,
    V4.add_z, V4.add_w, V4.sub_x, V4.sub_y, V4.sub_z, V4.sub_w, mul_one', mul_negOne]

/-- C98, `inverseTranspose(mat3)`: entry (r, c) of the inverse is found at (c, r). -/
theorem C98_inverseTranspose_mat3 (m : M3 F32) (B : ℚ) (hB : 1 ≤ B) (hB' : B ≤ 2 ^ 30) (h : BoundedBy m B)
    (hi : Invertible32 (exactMat m) B) (r c : Fin 3) :
    InverseEntry (exactMat m) B r c (entry (M3.inverseTranspose m) r c) := by
  have e : entry (M3.inverseTranspose m) r c = entry (M3.adjugate m) c r /
      (m.c0.x * (m.c1.y * m.c2.z - m.c1.z * m.c2.y) - m.c0.y * (m.c1.x * m.c2.z - m.c1.z * m.c2.x) +
        m.c0.z * (m.c1.x * m.c2.y - m.c1.y * m.c2.x)) := by
    fin_cases r <;> fin_cases c <;> rfl
  unfold InverseEntry
  rw [e, inv_apply]
  exact (ready3 hB hB' (det3' hB hB' h) h r c hi.2 hi.1).div hB

/-- C98, `inverseTranspose(mat4)`: entry (r, c) of the inverse is found at (c, r). -/
theorem C98_inverseTranspose_mat4 (m : M4 F32) (B : ℚ) (hB : 1 ≤ B) (hB' : B ≤ 2 ^ 30) (h : BoundedBy m B)
    (hi : Invertible32 (exactMat m) B) (r c : Fin 4) :
    InverseEntry (exactMat m) B r c (entry (M4.inverseTranspose m) r c) := by
  unfold InverseEntry
  rw [inverseTranspose_entry4, C98_adjugateTranspose_mat4, transpose_entry4, inv_apply]
  exact (ready4 hB hB' (det4 hB hB' h) h r c hi.2 hi.1).div hB

/-! ### The hypotheses can be met -/

private theorem bounded_of {M : Type → Type} {n : ℕ} [Entries M n] {m : M F32} {B : ℚ}
    (h : ∀ c r, (entry m c r).IsFin = true ∧ -B ≤ (entry m c r).val ∧ (entry m c r).val ≤ B) : BoundedBy m B :=
  fun c r => ⟨(h c r).1, abs_le.mpr (h c r).2⟩

private def ex2 : M2 F32 := ⟨⟨lit 2, lit 1⟩, ⟨lit 5, lit 3⟩⟩

private theorem ex2_eq : exactMat ex2 = !![2, 5; 1, 3] := by
  ext r c; fin_cases r <;> fin_cases c <;> decide +kernel

example : BoundedBy ex2 5 ∧ Invertible32 (exactMat ex2) 5 ∧
    ((1 + 1 / 2 ^ 24) ^ 2 - 1) * termSize (exactMat ex2) + 1 / 2 ^ 148 < |(exactMat ex2).det| := by
  refine ⟨bounded_of (by decide +kernel), ?_⟩
  have t : termSize (exactMat ex2) = 11 := by rw [ex2_eq, termSize_two]; norm_num [abs_of_pos]
  have d : (exactMat ex2).det = 1 := by rw [ex2_eq, Matrix.det_fin_two_of]; norm_num
  unfold Invertible32
  rw [t, d]
  norm_num

private def ex3 : M3 F32 := ⟨⟨lit 2, lit 1, lit 0⟩, ⟨lit (-1), lit 3, lit 1⟩, ⟨lit 4, lit 2, lit 5⟩⟩

private theorem ex3_eq : exactMat ex3 = !![2, -1, 4; 1, 3, 2; 0, 1, 5] := by
  ext r c; fin_cases r <;> fin_cases c <;> decide +kernel

example : BoundedBy ex3 5 ∧ Invertible32 (exactMat ex3) 5 ∧
    ((1 + 1 / 2 ^ 24) ^ 5 - 1) * termSize (exactMat ex3) + 5 / 2 ^ 146 < |(exactMat ex3).det| := by
  refine ⟨bounded_of (by decide +kernel), ?_⟩
  have t : termSize (exactMat ex3) = 43 := by rw [ex3_eq, termSize_three]; simp; norm_num [abs_of_pos]
  have d : (exactMat ex3).det = 35 := by rw [ex3_eq, Matrix.det_fin_three]; simp; norm_num
  unfold Invertible32
  rw [t, d]
  norm_num [abs_of_pos]

private def ex4 : M4 F32 :=
  ⟨⟨lit 2, lit 1, lit 0, lit 0⟩, ⟨lit (-1), lit 3, lit 1, lit 0⟩, ⟨lit 4, lit 2, lit 5, lit 0⟩, ⟨lit 7, lit 8, lit 9, lit 1⟩⟩

private theorem ex4_eq : exactMat ex4 = !![2, -1, 4, 7; 1, 3, 2, 8; 0, 1, 5, 9; 0, 0, 0, 1] := by
  ext r c; fin_cases r <;> fin_cases c <;> decide +kernel

example : BoundedBy ex4 9 ∧ Invertible32 (exactMat ex4) 9 ∧
    ((1 + 1 / 2 ^ 24) ^ 9 - 1) * termSize (exactMat ex4) + 9 ^ 2 / 2 ^ 144 < |(exactMat ex4).det| := by
  refine ⟨bounded_of (by decide +kernel), ?_⟩
  have t : termSize (exactMat ex4) = 43 := by
    rw [ex4_eq, termSize_four]; simp [termSize_three, Fin.succAbove]; norm_num [abs_of_pos]
  have d : (exactMat ex4).det = 35 := by
    rw [ex4_eq]; simp [Matrix.det_succ_row_zero, Fin.sum_univ_succ, Fin.succAbove]; norm_num
  unfold Invertible32
  rw [t, d]
  norm_num [abs_of_pos]

end Zcm
