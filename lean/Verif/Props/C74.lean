import Verif.Lemmas.History
import Verif.Lemmas.HistoryInt
import Verif.Model.F32

/-!
# C74: histories of vector mutations refine an array

`V3.run b p σ` executes the client program `p`, a list of any length of statements on `vec3` variables, from
the initial values `σ`; `arrayRun p τ` executes it on plain arrays (Spec/History.lean).
The same for `ivec` variables and arrays of mathematical integers, where overflow and division by zero are
undefined (Spec/HistoryInt.lean).
-/

namespace Zcm

variable {α : Type} [Add α] [Sub α] [Mul α] [Div α] [FloatOps α]

/-- C74 for `vec2`, every program of any length: it leaves exactly what the same statements leave in arrays. -/
theorem C74_vec2 (b : Build) (p : List (VecCmd α)) (σ : ℕ → V2 α) :
    SameOutcome (V2.run b p σ) (arrayRun p fun x => coord (σ x)) := by
  induction p generalizing σ with
  | nil => exact ⟨σ, rfl, fun _ _ => rfl⟩
  | cons c p ih =>
    have h := V2.exec_same b c σ
    unfold arrayRun V2.run
    cases hc : arrayExec c (fun x => coord (σ x)) with
    | none =>
      rw [hc] at h
      intro q hq
      cases hr : V2.exec b c σ with
      | ok r => exact h _ hr
      | abort => rw [hr] at hq; cases hq
      | ub => rw [hr] at hq; cases hq
    | some r =>
      rw [hc] at h
      obtain ⟨σ', h1, h2⟩ := h
      have e : r.1 = fun x => coord (σ' x) := by funext x i; exact (h2 x i).symm
      have h3 := ih σ'
      rw [h1]
      simp only [Res.ok_bind]
      rw [e]
      cases hp : arrayRun p (fun x => coord (σ' x)) with
      | none =>
        rw [hp] at h3
        intro q hq
        cases hr : V2.run b p σ' with
        | ok r => exact h3 _ hr
        | abort => rw [hr] at hq; cases hq
        | ub => rw [hr] at hq; cases hq
      | some s =>
        rw [hp] at h3
        obtain ⟨σ'', h4, h5⟩ := h3
        rw [h4]
        exact ⟨σ'', rfl, h5⟩

/-- C74 for `vec3`, every program of any length: it leaves exactly what the same statements leave in arrays. -/
theorem C74_vec3 (b : Build) (p : List (VecCmd α)) (σ : ℕ → V3 α) :
    SameOutcome (V3.run b p σ) (arrayRun p fun x => coord (σ x)) := by
  induction p generalizing σ with
  | nil => exact ⟨σ, rfl, fun _ _ => rfl⟩
  | cons c p ih =>
    have h := V3.exec_same b c σ
    unfold arrayRun V3.run
    cases hc : arrayExec c (fun x => coord (σ x)) with
    | none =>
      rw [hc] at h
      intro q hq
      cases hr : V3.exec b c σ with
      | ok r => exact h _ hr
      | abort => rw [hr] at hq; cases hq
      | ub => rw [hr] at hq; cases hq
    | some r =>
      rw [hc] at h
      obtain ⟨σ', h1, h2⟩ := h
      have e : r.1 = fun x => coord (σ' x) := by funext x i; exact (h2 x i).symm
      have h3 := ih σ'
      rw [h1]
      simp only [Res.ok_bind]
      rw [e]
      cases hp : arrayRun p (fun x => coord (σ' x)) with
      | none =>
        rw [hp] at h3
        intro q hq
        cases hr : V3.run b p σ' with
        | ok r => exact h3 _ hr
        | abort => rw [hr] at hq; cases hq
        | ub => rw [hr] at hq; cases hq
      | some s =>
        rw [hp] at h3
        obtain ⟨σ'', h4, h5⟩ := h3
        rw [h4]
        exact ⟨σ'', rfl, h5⟩

/-- C74 for `vec4`, every program of any length: it leaves exactly what the same statements leave in arrays. -/
theorem C74_vec4 (b : Build) (p : List (VecCmd α)) (σ : ℕ → V4 α) :
    SameOutcome (V4.run b p σ) (arrayRun p fun x => coord (σ x)) := by
  induction p generalizing σ with
  | nil => exact ⟨σ, rfl, fun _ _ => rfl⟩
  | cons c p ih =>
    have h := V4.exec_same b c σ
    unfold arrayRun V4.run
    cases hc : arrayExec c (fun x => coord (σ x)) with
    | none =>
      rw [hc] at h
      intro q hq
      cases hr : V4.exec b c σ with
      | ok r => exact h _ hr
      | abort => rw [hr] at hq; cases hq
      | ub => rw [hr] at hq; cases hq
    | some r =>
      rw [hc] at h
      obtain ⟨σ', h1, h2⟩ := h
      have e : r.1 = fun x => coord (σ' x) := by funext x i; exact (h2 x i).symm
      have h3 := ih σ'
      rw [h1]
      simp only [Res.ok_bind]
      rw [e]
      cases hp : arrayRun p (fun x => coord (σ' x)) with
      | none =>
        rw [hp] at h3
        intro q hq
        cases hr : V4.run b p σ' with
        | ok r => exact h3 _ hr
        | abort => rw [hr] at hq; cases hq
        | ub => rw [hr] at hq; cases hq
      | some s =>
        rw [hp] at h3
        obtain ⟨σ'', h4, h5⟩ := h3
        rw [h4]
        exact ⟨σ'', rfl, h5⟩

/-- Non-vacuity: `v[0] = 5; v.b += 2; ++v; w = v; w *= w; w.g--; v[2] = w[1]; print v[2]` on `vec3`, from zeros, in binary32,
uses existing cells only and ends with these values. -/
example : ((arrayRun (n := 3) [.write 0 0 (lit 5 : F32), .nameOp 0 .b .add (lit 2), .step 0 .preInc, .assign 1 0, .vecOp 1 .mul 1,
    .nameStep 1 .g .postDec, .copyAt 0 2 1 1, .read 0 2] fun _ _ => lit 0).map fun r => (r.1 0, r.1 1, r.2)) =
    some (![lit 6, lit 1, lit 0], ![lit 36, lit 0, lit 9], [lit 6, lit 1, lit 3, lit 1, lit 0]) := by decide +kernel

/-- Non-vacuity: a statement that uses a missing cell. -/
example : (arrayRun (n := 3) [.write 0 0 (lit 5 : F32), .read 0 3] fun _ _ => lit 0).isNone = true := by decide +kernel

/-- C74 for `ivec2`, every program of any length: it leaves exactly what the same statements leave in arrays of
mathematical integers, as long as no operation is undefined; if one is, so is the program. -/
theorem C74_ivec2 (b : Build) (p : List IvecCmd) (σ : ℕ → V2 I32) :
    SameIntOutcome (IV2.run b p σ) (intArrayRun p fun x => icoord (σ x)) := by
  induction p generalizing σ with
  | nil => exact ⟨σ, [], rfl, rfl, fun _ _ => rfl⟩
  | cons c p ih =>
    have h := IV2.exec_same b c σ
    unfold intArrayRun IV2.run
    cases hc : intArrayExec c (fun x => icoord (σ x)) with
    | none =>
      rw [hc] at h
      exact Res.bind_ne_ok h
    | some r =>
      rw [hc] at h
      obtain ⟨σ', o, h1, ho, h2⟩ := h
      have e : r.1 = fun x => icoord (σ' x) := by funext x i; exact (h2 x i).symm
      have h3 := ih σ'
      rw [h1]
      simp only [Res.ok_bind]
      rw [e]
      cases hp : intArrayRun p (fun x => icoord (σ' x)) with
      | none =>
        rw [hp] at h3
        exact Res.bind_ne_ok h3
      | some s =>
        rw [hp] at h3
        obtain ⟨σ'', o', h4, ho', h5⟩ := h3
        rw [h4]
        refine ⟨σ'', o ++ o', rfl, ?_, h5⟩
        rw [List.map_append, ho, ho']

/-- C74 for `ivec3`, every program of any length: it leaves exactly what the same statements leave in arrays of
mathematical integers, as long as no operation is undefined; if one is, so is the program. -/
theorem C74_ivec3 (b : Build) (p : List IvecCmd) (σ : ℕ → V3 I32) :
    SameIntOutcome (IV3.run b p σ) (intArrayRun p fun x => icoord (σ x)) := by
  induction p generalizing σ with
  | nil => exact ⟨σ, [], rfl, rfl, fun _ _ => rfl⟩
  | cons c p ih =>
    have h := IV3.exec_same b c σ
    unfold intArrayRun IV3.run
    cases hc : intArrayExec c (fun x => icoord (σ x)) with
    | none =>
      rw [hc] at h
      exact Res.bind_ne_ok h
    | some r =>
      rw [hc] at h
      obtain ⟨σ', o, h1, ho, h2⟩ := h
      have e : r.1 = fun x => icoord (σ' x) := by funext x i; exact (h2 x i).symm
      have h3 := ih σ'
      rw [h1]
      simp only [Res.ok_bind]
      rw [e]
      cases hp : intArrayRun p (fun x => icoord (σ' x)) with
      | none =>
        rw [hp] at h3
        exact Res.bind_ne_ok h3
      | some s =>
        rw [hp] at h3
        obtain ⟨σ'', o', h4, ho', h5⟩ := h3
        rw [h4]
        refine ⟨σ'', o ++ o', rfl, ?_, h5⟩
        rw [List.map_append, ho, ho']

/-- C74 for `ivec4`, every program of any length: it leaves exactly what the same statements leave in arrays of
mathematical integers, as long as no operation is undefined; if one is, so is the program. -/
theorem C74_ivec4 (b : Build) (p : List IvecCmd) (σ : ℕ → V4 I32) :
    SameIntOutcome (IV4.run b p σ) (intArrayRun p fun x => icoord (σ x)) := by
  induction p generalizing σ with
  | nil => exact ⟨σ, [], rfl, rfl, fun _ _ => rfl⟩
  | cons c p ih =>
    have h := IV4.exec_same b c σ
    unfold intArrayRun IV4.run
    cases hc : intArrayExec c (fun x => icoord (σ x)) with
    | none =>
      rw [hc] at h
      exact Res.bind_ne_ok h
    | some r =>
      rw [hc] at h
      obtain ⟨σ', o, h1, ho, h2⟩ := h
      have e : r.1 = fun x => icoord (σ' x) := by funext x i; exact (h2 x i).symm
      have h3 := ih σ'
      rw [h1]
      simp only [Res.ok_bind]
      rw [e]
      cases hp : intArrayRun p (fun x => icoord (σ' x)) with
      | none =>
        rw [hp] at h3
        exact Res.bind_ne_ok h3
      | some s =>
        rw [hp] at h3
        obtain ⟨σ'', o', h4, ho', h5⟩ := h3
        rw [h4]
        refine ⟨σ'', o ++ o', rfl, ?_, h5⟩
        rw [List.map_append, ho, ho']

/-- Non-vacuity: `v[0] = 5; v.b += 2; ++v; w = v; w <<= w; print w.r++; v %= 4` on `ivec3`, from zeros. -/
example : ((intArrayRun (n := 3) [.write 0 0 ⟨5#32⟩, .nameOp 0 .b .add ⟨2#32⟩, .step 0 .preInc, .assign 1 0,
    .vecOp 1 .shl 1, .nameStep 1 .r .postInc, .scalarOp 0 .mod ⟨4#32⟩] fun _ _ => 0).map
      fun r => (r.1 0, r.1 1, r.2)) = some (![2, 1, 3], ![385, 2, 24], [6, 1, 3, 384]) := by decide +kernel

/-- Non-vacuity: an overflow. -/
example : (intArrayRun (n := 3) [.write 0 0 ⟨2147483647#32⟩, .step 0 .postInc] fun _ _ => 0).isNone = true := by
  decide +kernel

end Zcm
