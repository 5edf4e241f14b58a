import Verif.Lemmas.RotQuat
import Verif.Lemmas.Rotate

/-!
# Lemmas: the parts of `decompose_orthogonal` in exact arithmetic
-/

namespace Zcm

/-- the orientation part of `decompose_orthogonal` as a function of the normalized columns -/
noncomputable def orientOf (Row : M3 ℝ) (orientation0 : Quat ℝ) : Quat ℝ :=
  let trace : ℝ := Row.c0.x + Row.c1.y + Row.c2.z
  if trace > lit 0 then
    let root : ℝ := F.sqrt (trace + lit 1)
    let o : Quat ℝ := { orientation0 with w := lit 0.5 * root }
    let root : ℝ := lit 0.5 / root
    let o : Quat ℝ := { o with x := root * (Row.c1.z - Row.c2.y) }
    let o : Quat ℝ := { o with y := root * (Row.c2.x - Row.c0.z) }
    let o : Quat ℝ := { o with z := root * (Row.c0.y - Row.c1.x) }
    o
  else
    let i : Fin 3 := 0
    let i : Fin 3 := if Row.c1.y > Row.c0.x then 1 else i
    let i : Fin 3 := if Row.c2.z > (Row.row i).idx i then 2 else i
    let j : Fin 3 := Next i
    let k : Fin 3 := Next j
    let root : ℝ := F.sqrt ((Row.row i).idx i - (Row.row j).idx j - (Row.row k).idx k + lit 1)
    let o : Quat ℝ := orientation0.setIdx i (lit 0.5 * root)
    let root : ℝ := lit 0.5 / root
    let o : Quat ℝ := o.setIdx j (root * ((Row.row i).idx j + (Row.row j).idx i))
    let o : Quat ℝ := o.setIdx k (root * ((Row.row i).idx k + (Row.row k).idx i))
    let o : Quat ℝ := { o with w := root * ((Row.row j).idx k - (Row.row k).idx j) }
    o

/-- the selected component and its divisor -/
theorem root_real {t : ℝ} (h : 0 ≤ t) :
    let r : ℝ := √(t + 1)
    4 * (1 / 2 * r) * (1 / 2 * r) = 1 + t ∧ 4 * (1 / 2 * r) * (1 / 2 / r) = 1 := by
  have h1 : 0 < √(t + 1) := Real.sqrt_pos.2 (by linarith)
  have h2 := Real.mul_self_sqrt (show 0 ≤ t + 1 by linarith)
  refine ⟨by linear_combination h2, ?_⟩
  field_simp
  norm_num

theorem RotEq.orientOf {m : M3 ℝ} (h : RotEq m) (o0 : Quat ℝ) :
    Quat.dot (orientOf m o0) (orientOf m o0) = 1 ∧ Quat.mat3_cast (orientOf m o0) = m := by
  have e5 : (lit 0.5 : ℝ) = 1 / 2 := by simp; norm_num
  simp only [Zcm.orientOf, F.sqrt_real, e5]
  simp only [lit_real]
  push_cast
  split_ifs with h0 h1 h2 h2
  · have hb := root_real (t := m.c0.x + m.c1.y + m.c2.z) (by linarith)
    have := h.castW hb.1 hb.2
    simp only [mul_comm (_ / √_)]
    exact this
  · simp only [Next, M3.row, V3.idx, Quat.setIdx] at h2 ⊢
    have hb := root_real (t := m.c2.z - m.c0.x - m.c1.y) (by linarith)
    have := h.castZ hb.1 hb.2
    simp only [mul_comm (_ / √_), add_comm m.c2.y] at this ⊢
    exact this
  · simp only [Next, M3.row, V3.idx, Quat.setIdx] at h2 ⊢
    have hb := root_real (t := m.c1.y - m.c0.x - m.c2.z) (by linarith)
    have := h.castY hb.1 hb.2
    rw [show m.c1.y - m.c2.z - m.c0.x = m.c1.y - m.c0.x - m.c2.z by ring]
    simp only [mul_comm (_ / √_), add_comm m.c1.x] at this ⊢
    exact this
  · simp only [Next, M3.row, V3.idx, Quat.setIdx] at h2 ⊢
    have hb := root_real (t := m.c2.z - m.c0.x - m.c1.y) (by linarith)
    have := h.castZ hb.1 hb.2
    simp only [mul_comm (_ / √_), add_comm m.c2.y] at this ⊢
    exact this
  · simp only [Next, M3.row, V3.idx, Quat.setIdx] at h2 ⊢
    have hb := root_real (t := m.c0.x - m.c1.y - m.c2.z) (by linarith)
    have := h.castX hb.1 hb.2
    simp only [mul_comm (_ / √_), add_comm m.c2.x] at this ⊢
    exact this

/-- the upper parts of the columns -/
def M4.up3 (c : V4 ℝ) : V3 ℝ := ⟨c.x, c.y, c.z⟩

/-- `decompose_orthogonal` in terms of its parts -/
theorem M4.decompose_eq (M : M4 ℝ) (o0 : Quat ℝ) :
    let r0 := M4.up3 M.c0 / V3.length (M4.up3 M.c0)
    let r1 := M4.up3 M.c1 / V3.length (M4.up3 M.c1)
    let r2 := M4.up3 M.c2 / V3.length (M4.up3 M.c2)
    let s : V3 ℝ := ⟨V3.length (M4.up3 M.c0), V3.length (M4.up3 M.c1), V3.length (M4.up3 M.c2)⟩
    M4.decompose_orthogonal M o0 =
      if V3.dot r0 (V3.cross r1 r2) < 0 then
        (-s, Zcm.orientOf ⟨-r0, -r1, -r2⟩ o0, M4.up3 M.c3)
      else (s, Zcm.orientOf ⟨r0, r1, r2⟩ o0, M4.up3 M.c3) := by
  intro r0 r1 r2 s
  have en : ∀ v : V3 ℝ, V3.mulAssignS v (-(lit 1)) = -v := by
    intro v; simp [V3.mulAssignS]; ext <;> simp
  have hs : (⟨s.x * (-(lit 1)), s.y * (-(lit 1)), s.z * (-(lit 1))⟩ : V3 ℝ) = -s := by
    ext <;> simp
  have : M4.decompose_orthogonal M o0 =
    (let p : V3 ℝ × M3 ℝ := if V3.dot r0 (V3.cross r1 r2) < lit 0 then
        (⟨s.x * (-(lit 1)), s.y * (-(lit 1)), s.z * (-(lit 1))⟩,
          ⟨V3.mulAssignS r0 (-(lit 1)), V3.mulAssignS r1 (-(lit 1)), V3.mulAssignS r2 (-(lit 1))⟩)
        else (s, ⟨r0, r1, r2⟩)
     (p.1, Zcm.orientOf p.2 o0, M4.up3 M.c3)) := rfl
  rw [this]
  have l0 : (lit 0 : ℝ) = 0 := by simp
  simp only [en, hs, l0]
  split_ifs <;> rfl

/-- the matrix `T(t) R(q) S(s)`, column by column -/
theorem compose_eq (t s : V3 ℝ) (q : Quat ℝ) :
    M4.translate M4.default t * Quat.mat4_cast q * M4.scale M4.default s =
      ⟨hom (s.x * (Quat.mat3_cast q).c0) 0, hom (s.y * (Quat.mat3_cast q).c1) 0,
       hom (s.z * (Quat.mat3_cast q).c2) 0, hom t 1⟩ := by
  rw [M4.mul_eq, M4.mul_eq (M4.translate M4.default t)]
  simp only [M4.translate, M4.scale, M4.default_real, M4.mulV_cols, Quat.mat4_cast, M4.ofMat3, V4.ofXYZ_W]
  ext <;> simp <;> ring

/-- a non-zero vector divided by its length -/
theorem V3.div_length {v : V3 ℝ} (h : ∃ i, coord v i ≠ 0) :
    0 < V3.length v ∧ V3.dot (v / V3.length v) (v / V3.length v) = 1 ∧
    V3.length v * (v / V3.length v) = v := by
  have l0 : 0 < V3.length v := by rw [V3.length_eq_norm]; exact V3.norm_pos h
  have hsq : V3.length v * V3.length v = V3.dot v v := by
    rw [V3.length_eq_norm, V3.dot_eq_inner, real_inner_self_eq_norm_sq, sq]
  generalize V3.length v = l at *
  refine ⟨l0, ?_, ?_⟩
  · simp only [V3.dot, V3.divS_x, V3.divS_y, V3.divS_z] at hsq ⊢
    field_simp
    linarith
  · ext <;> simp <;> field_simp

end Zcm
