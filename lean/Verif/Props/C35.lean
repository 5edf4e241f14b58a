import Verif.Lemmas.Euclid

/-!
# C35: faceforward faces against the incident vector
-/

namespace Zcm

/-- C35 for `float` (exact arithmetic). -/
theorem C35_float (N I Nref : ℝ) :
    (Nref * I < 0 → F.faceforward N I Nref = N) ∧
    (0 ≤ Nref * I → F.faceforward N I Nref = -N) ∧
    F.dot (F.faceforward N I N) I ≤ 0 := by
  refine ⟨fun h => if_pos (by simpa [F.dot] using h), fun h => if_neg (by simpa [F.dot] using h), ?_⟩
  unfold F.faceforward
  split_ifs with h
  · exact le_of_lt (by simpa using h)
  · have h' : 0 ≤ F.dot N I := by simpa using h
    have : F.dot (-N) I = -F.dot N I := by simp [F.dot]
    linarith

/-- C35 for `vec2` (exact arithmetic). -/
theorem C35_vec2 (N I Nref : V2 ℝ) :
    (∑ i, coord Nref i * coord I i < 0 → V2.faceforward N I Nref = N) ∧
    (0 ≤ ∑ i, coord Nref i * coord I i → V2.faceforward N I Nref = -N) ∧
    V2.dot (V2.faceforward N I N) I ≤ 0 := by
  rw [← V2.dot_eq_sum]
  refine ⟨fun h => if_pos (by simpa using h), fun h => if_neg (by simpa using h), ?_⟩
  unfold V2.faceforward
  split_ifs with h
  · exact le_of_lt (by simpa using h)
  · have h' : 0 ≤ V2.dot N I := by simpa using h
    have : V2.dot (-N) I = -V2.dot N I := by simp [V2.dot]; ring
    linarith

/-- C35 for `vec3` (exact arithmetic). -/
theorem C35_vec3 (N I Nref : V3 ℝ) :
    (∑ i, coord Nref i * coord I i < 0 → V3.faceforward N I Nref = N) ∧
    (0 ≤ ∑ i, coord Nref i * coord I i → V3.faceforward N I Nref = -N) ∧
    V3.dot (V3.faceforward N I N) I ≤ 0 := by
  rw [← V3.dot_eq_sum]
  refine ⟨fun h => if_pos (by simpa using h), fun h => if_neg (by simpa using h), ?_⟩
  unfold V3.faceforward
  split_ifs with h
  · exact le_of_lt (by simpa using h)
  · have h' : 0 ≤ V3.dot N I := by simpa using h
    have : V3.dot (-N) I = -V3.dot N I := by simp [V3.dot]; ring
    linarith

/-- C35 for `vec4` (exact arithmetic). -/
theorem C35_vec4 (N I Nref : V4 ℝ) :
    (∑ i, coord Nref i * coord I i < 0 → V4.faceforward N I Nref = N) ∧
    (0 ≤ ∑ i, coord Nref i * coord I i → V4.faceforward N I Nref = -N) ∧
    V4.dot (V4.faceforward N I N) I ≤ 0 := by
  rw [← V4.dot_eq_sum]
  refine ⟨fun h => if_pos (by simpa using h), fun h => if_neg (by simpa using h), ?_⟩
  unfold V4.faceforward
  split_ifs with h
  · exact le_of_lt (by simpa using h)
  · have h' : 0 ≤ V4.dot N I := by simpa using h
    have : V4.dot (-N) I = -V4.dot N I := by simp [V4.dot]; ring
    linarith


/-- C35 for every carrier, in particular IEEE floats: the choice is by the sign of the computed
`dot(Nref, I)`, and `-N` is chosen when it is not comparable (NaN). -/
theorem C35_any {α : Type} [Add α] [Mul α] [Neg α] [FloatOps α] [LT α] [DecidableLT α] :
    (∀ N I Nref : α, F.faceforward N I Nref = if Nref * I < (lit 0 : α) then N else -N) ∧
    (∀ N I Nref : V2 α, ∀ i, coord (V2.faceforward N I Nref) i =
      if V2.dot Nref I < (lit 0 : α) then coord N i else -coord N i) ∧
    (∀ N I Nref : V3 α, ∀ i, coord (V3.faceforward N I Nref) i =
      if V3.dot Nref I < (lit 0 : α) then coord N i else -coord N i) ∧
    (∀ N I Nref : V4 α, ∀ i, coord (V4.faceforward N I Nref) i =
      if V4.dot Nref I < (lit 0 : α) then coord N i else -coord N i) := by
  refine ⟨fun _ _ _ => rfl, fun N I Nref i => ?_, fun N I Nref i => ?_, fun N I Nref i => ?_⟩
  · unfold V2.faceforward; split_ifs <;> fin_cases i <;> rfl
  · unfold V3.faceforward; split_ifs <;> fin_cases i <;> rfl
  · unfold V4.faceforward; split_ifs <;> fin_cases i <;> rfl

/-- Non-vacuity: both branches occur. -/
example : (∑ i, coord (⟨1, 0⟩ : V2 ℝ) i * coord (⟨-2, 5⟩ : V2 ℝ) i < 0) ∧
    (0 ≤ ∑ i, coord (⟨1, 0⟩ : V2 ℝ) i * coord (⟨2, 5⟩ : V2 ℝ) i) := by
  simp [Fin.sum_univ_two]

end Zcm
