import Verif.Lemmas.HistoryMat

/-!
# C92: histories of matrix, quaternion and boolean vector objects

`runStatements (M3.exec b) p σ` executes the client program `p`, a list of any length of statements on `mat3`
variables, from the initial values `σ`; `specRun matExec p τ` executes it on Mathlib's real matrices
(Spec/HistoryMat.lean).  The same for quaternions and Mathlib's quaternions, and for boolean vectors and arrays
of truth values.  Matrices and quaternions in exact arithmetic.
-/

namespace Zcm

open Quaternion

/-- C92 for `mat2`, every program of any length: it leaves what the same statements leave in real matrices. -/
theorem C92_mat2 (b : Build) (p : List (MatCmd ℝ)) (σ : ℕ → M2 ℝ) :
    Refines toMat (runStatements (M2.exec b) p σ) (specRun matExec p fun x => toMat (σ x)) :=
  run_refines toMat _ _ True (fun c σ _ => M2.exec_same b c σ) p σ (Or.inl trivial)

/-- C92 for `mat3`, every program of any length: it leaves what the same statements leave in real matrices. -/
theorem C92_mat3 (b : Build) (p : List (MatCmd ℝ)) (σ : ℕ → M3 ℝ) :
    Refines toMat (runStatements (M3.exec b) p σ) (specRun matExec p fun x => toMat (σ x)) :=
  run_refines toMat _ _ True (fun c σ _ => M3.exec_same b c σ) p σ (Or.inl trivial)

/-- C92 for `mat4`, every program of any length: it leaves what the same statements leave in real matrices. -/
theorem C92_mat4 (b : Build) (p : List (MatCmd ℝ)) (σ : ℕ → M4 ℝ) :
    Refines toMat (runStatements (M4.exec b) p σ) (specRun matExec p fun x => toMat (σ x)) :=
  run_refines toMat _ _ True (fun c σ _ => M4.exec_same b c σ) p σ (Or.inl trivial)

/-- C92 for `quat`, every program of any length: it leaves what the same statements leave in Hamilton's quaternions.  A
release build does not notice a component number that does not exist, so there the program must not use one. -/
theorem C92_quat (b : Build) (p : List (QuatCmd ℝ)) (σ : ℕ → Quat ℝ)
    (hb : b = .debug ∨ specRun quatExec p (fun x => ham (σ x)) ≠ .outside) :
    Refines ham (runStatements (Quat.exec b) p σ) (specRun quatExec p fun x => ham (σ x)) :=
  run_refines ham _ _ (b = .debug) (fun c σ h => Quat.exec_same b c σ h) p σ hb

/-- C92 for `bvec2`, every program of any length that uses existing components: it leaves what the same statements
leave in arrays of truth values.  (A component number that does not exist is not noticed; see C05_bvec2_false.) -/
theorem C92_bvec2 (b : Build) (p : List BvecCmd) (σ : ℕ → V2 Bool)
    (hb : specRun boolExec p (fun x => coord (σ x)) ≠ .outside) :
    Refines coord (runStatements (BV2.exec b) p σ) (specRun boolExec p fun x => coord (σ x)) :=
  run_refines coord _ _ False (fun c σ h => BV2.exec_same b c σ h) p σ (Or.inr hb)

/-- C92 for `bvec3`, every program of any length: it leaves what the same statements leave in arrays of truth values. -/
theorem C92_bvec3 (b : Build) (p : List BvecCmd) (σ : ℕ → V3 Bool)
    (hb : b = .debug ∨ specRun boolExec p (fun x => coord (σ x)) ≠ .outside) :
    Refines coord (runStatements (BV3.exec b) p σ) (specRun boolExec p fun x => coord (σ x)) :=
  run_refines coord _ _ (b = .debug) (fun c σ h => BV3.exec_same b c σ h) p σ hb

/-- C92 for `bvec4`, every program of any length: it leaves what the same statements leave in arrays of truth values. -/
theorem C92_bvec4 (b : Build) (p : List BvecCmd) (σ : ℕ → V4 Bool)
    (hb : b = .debug ∨ specRun boolExec p (fun x => coord (σ x)) ≠ .outside) :
    Refines coord (runStatements (BV4.exec b) p σ) (specRun boolExec p fun x => coord (σ x)) :=
  run_refines coord _ _ (b = .debug) (fun c σ h => BV4.exec_same b c σ h) p σ hb

/-- Non-vacuity: `m[0][1] = 3; m *= m; m[1] += m[0]; print m[1][1]` from the identity ends normally and prints 7. -/
example : ∃ τ, specRun (matExec (n := 2)) [.write 0 0 1 3, .op 0 .mul 0, .colOp 0 1 .add 0 0, .read 0 1 1] (fun _ => 1) =
    .done τ [7] := by
  simp [specRun, matExec, Matrix.mul_apply, Matrix.updateCol_apply, Fin.sum_univ_two, Matrix.one_apply, OpKind.apply]
  norm_num

/-- Non-vacuity: a matrix program that uses a missing column, and one that divides by a singular matrix. -/
example : specRun (matExec (n := 2)) [.read 0 2 0] (fun _ => 1) = .outside ∧
    specRun (matExec (n := 2)) [.mulS 0 0 0, .op 1 .div 0] (fun _ => 1) = .byZero := by
  constructor <;> simp [specRun, matExec]

/-- Non-vacuity: `q[0] = 2; q *= q; q /= 3; r = conjugate(q); print r[0]` from `1` prints `-4/3`. -/
example : ∃ τ, specRun quatExec [.write 0 0 2, .op 0 .mul 0, .divS 0 3, .conjugate 1 0, .read 1 0] (fun _ => 1) =
    .done τ [-4/3] := by
  have h0 : ∀ f, (ofHamComp f).re = f 3 := fun _ => rfl
  have h1 : ∀ f, (ofHamComp f).imI = f 0 := fun _ => rfl
  have h2 : ∀ f, (ofHamComp f).imJ = f 1 := fun _ => rfl
  have h3 : ∀ f, (ofHamComp f).imK = f 2 := fun _ => rfl
  simp [specRun, quatExec, hamComp, h0, h1, h2, h3]
  norm_num

/-- Non-vacuity: `v[1] = true; v ^= w; print all(v), any(v)` on `bvec3` from `v = false`, `w = true`. -/
example : ∃ τ, specRun (boolExec (n := 3)) [.write 0 1 true, .op 0 .xor 1, .all 0, .any 0] (fun x _ => x == 1) =
    .done τ [false, true] := ⟨_, by simp [specRun, boolExec, BoolOp.apply, Fin.forall_fin_succ, Fin.exists_fin_succ]; rfl⟩

end Zcm
