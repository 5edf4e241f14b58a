import Verif.Lemmas.F32Zero
import Verif.Model.MatrixTransform
import Verif.Spec.Coord

/-!
# `mat4 * vec4` when most entries are zeros
-/

namespace Zcm

open F32

theorem F32.fin3 {v : V3 F32} (h : ∀ i, (coord v i).IsFin = true) :
    v.x.IsFin = true ∧ v.y.IsFin = true ∧ v.z.IsFin = true := ⟨h 0, h 1, h 2⟩

theorem F32.mulV_rows (m : M4 F32) (v : V4 F32) :
    (m * v).x = (m.c0.x * v.x + m.c1.x * v.y) + (m.c2.x * v.z + m.c3.x * v.w) ∧
    (m * v).y = (m.c0.y * v.x + m.c1.y * v.y) + (m.c2.y * v.z + m.c3.y * v.w) ∧
    (m * v).z = (m.c0.z * v.x + m.c1.z * v.y) + (m.c2.z * v.z + m.c3.z * v.w) ∧
    (m * v).w = (m.c0.w * v.x + m.c1.w * v.y) + (m.c2.w * v.z + m.c3.w * v.w) := ⟨rfl, rfl, rfl, rfl⟩

theorem F32.finite_of_same {x y : F32} (h : SameNumber x y) (hy : y.IsFin = true) : x.IsFin = true := by
  rcases h with rfl | h
  · exact hy
  · exact h.1

/-- off-diagonal entries of the first three columns are zeros -/
structure F32.Diag (m : M4 F32) : Prop where
  h0y : IsZ m.c0.y
  h0z : IsZ m.c0.z
  h0w : IsZ m.c0.w
  h1x : IsZ m.c1.x
  h1z : IsZ m.c1.z
  h1w : IsZ m.c1.w
  h2x : IsZ m.c2.x
  h2y : IsZ m.c2.y
  h2w : IsZ m.c2.w

theorem F32.Diag.rows {m : M4 F32} (h : Diag m) {p : V3 F32} (hp : ∀ i, (coord p i).IsFin = true) (w : F32) :
    SameNumber (m * V4.ofXYZ_W p w).x (m.c0.x * p.x + m.c3.x * w) ∧
    SameNumber (m * V4.ofXYZ_W p w).y (m.c1.y * p.y + m.c3.y * w) ∧
    SameNumber (m * V4.ofXYZ_W p w).z (m.c2.z * p.z + m.c3.z * w) ∧
    SameNumber (m * V4.ofXYZ_W p w).w (m.c3.w * w) := by
  obtain ⟨hx, hy, hz⟩ := fin3 hp
  obtain ⟨rx, ry, rz, rw'⟩ := mulV_rows m (V4.ofXYZ_W p w)
  rw [rx, ry, rz, rw']
  exact ⟨same4_03 (h.h1x.mulL hy) (h.h2x.mulL hz), same4_13 (h.h0y.mulL hx) (h.h2y.mulL hz),
    same4_23 (h.h0z.mulL hx) (h.h1z.mulL hy),
    (same4_23 (h.h0w.mulL hx) (h.h1w.mulL hy)).trans (.zAdd (h.h2w.mulL hz))⟩

end Zcm
