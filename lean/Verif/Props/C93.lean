import Verif.Lemmas.F32Diag
import Verif.Model.MatrixTransform
import Verif.Spec.Coord

/-!
# C93: pure translations and scalings in IEEE arithmetic

`M4.default` is `mat4()`.  All inputs are finite floats; `CorrectlyRounded` is Spec/Nearest.lean, `SameNumber`
Spec/SignedZero.lean.
-/

namespace Zcm

open F32

private theorem c3 {v : V3 F32} (h : ∀ i, (coord v i).IsFin = true) :
    SameNumber (M4.translate M4.default v).c3.x v.x ∧ SameNumber (M4.translate M4.default v).c3.y v.y ∧
    SameNumber (M4.translate M4.default v).c3.z v.z ∧ SameNumber (M4.translate M4.default v).c3.w (lit 1) := by
  obtain ⟨hx, hy, hz⟩ := fin3 h
  have zx := isZ_lit.mulL hx
  have zy := isZ_lit.mulL hy
  have zz := isZ_lit.mulL hz
  simp only [M4.translate, M4.default, M4.diag, V4.add_x, V4.add_y, V4.add_z, V4.add_w, V4.mulS_x, V4.mulS_y, V4.mulS_z,
    V4.mulS_w, one_mul']
  refine ⟨(SameNumber.addZ isZ_lit).trans ((SameNumber.addZ zz).trans (.addZ zy)),
    (SameNumber.addZ isZ_lit).trans ((SameNumber.addZ zz).trans (.zAdd zx)),
    (SameNumber.addZ isZ_lit).trans (.zAdd (zx.add zy)), .zAdd ((zx.add zy).add zz)⟩

private theorem diag_translate (v : V3 F32) : Diag (M4.translate M4.default v) := by
  constructor <;> exact isZ_lit

private theorem diag_scale {m : M4 F32} (h : Diag m) {s : V3 F32} (hs : ∀ i, (coord s i).IsFin = true) : Diag (M4.scale m s) := by
  obtain ⟨hx, hy, hz⟩ := fin3 hs
  exact ⟨h.h0y.mulL hx, h.h0z.mulL hx, h.h0w.mulL hx, h.h1x.mulL hy, h.h1z.mulL hy, h.h1w.mulL hy, h.h2x.mulL hz,
    h.h2y.mulL hz, h.h2w.mulL hz⟩

private theorem diag_default : Diag (M4.default : M4 F32) := by
  constructor <;> exact isZ_lit

private theorem cols (v s : V3 F32) (m : M4 F32) : (M4.translate M4.default v).c0.x = lit 1 ∧ (M4.translate M4.default v).c1.y = lit 1 ∧
    (M4.translate M4.default v).c2.z = lit 1 ∧ (M4.scale m s).c0.x = m.c0.x * s.x ∧ (M4.scale m s).c1.y = m.c1.y * s.y ∧
    (M4.scale m s).c2.z = m.c2.z * s.z ∧ (M4.scale m s).c3 = m.c3 := ⟨rfl, rfl, rfl, rfl, rfl, rfl, rfl⟩

/-- C93: `translate(mat4(), v) * vec4(p, 1)` is the point moved by `v`: every coordinate is the exact sum `p + v`, correctly
rounded, and the fourth component is 1. -/
theorem C93_translate_point (v p : V3 F32) (hv : ∀ i, (coord v i).IsFin = true) (hp : ∀ i, (coord p i).IsFin = true) :
    (∀ i : Fin 3, CorrectlyRounded (coord (M4.translate M4.default v * V4.ofXYZ_W p (lit 1)) i.castSucc)
      ((coord p i).val + (coord v i).val)) ∧
    (coord (M4.translate M4.default v * V4.ofXYZ_W p (lit 1)) 3 == lit 1) = true := by
  obtain ⟨cx, cy, cz, cw⟩ := c3 hv
  obtain ⟨rx, ry, rz, rw'⟩ := (diag_translate v).rows hp (lit 1)
  obtain ⟨d0, d1, d2, -⟩ := cols v v M4.default
  rw [mul_one'] at rx ry rz rw'
  rw [d0, one_mul'] at rx
  rw [d1, one_mul'] at ry
  rw [d2, one_mul'] at rz
  refine ⟨fun i => ?_, beq_of_same (rw'.trans cw) ?_⟩
  · fin_cases i
    · exact (rx.trans (.add .rfl cx)).correct (add_correct (hp 0) (hv 0))
    · exact (ry.trans (.add .rfl cy)).correct (add_correct (hp 1) (hv 1))
    · exact (rz.trans (.add .rfl cz)).correct (add_correct (hp 2) (hv 2))
  · exact isFin_ne_nan (finite_of_same (rw'.trans cw) isFin_lit_one)

/-- C93: a translation leaves directions (fourth component 0) alone, exactly. -/
theorem C93_translate_direction (v d : V3 F32) (hv : ∀ i, (coord v i).IsFin = true) (hd : ∀ i, (coord d i).IsFin = true) :
    V4.eq (M4.translate M4.default v * V4.ofXYZ_W d (lit 0)) (V4.ofXYZ_W d (lit 0)) = true := by
  obtain ⟨cx, cy, cz, cw⟩ := c3 hv
  obtain ⟨rx, ry, rz, rw'⟩ := (diag_translate v).rows hd (lit 0)
  obtain ⟨d0, d1, d2, -⟩ := cols v v M4.default
  rw [d0, one_mul'] at rx
  rw [d1, one_mul'] at ry
  rw [d2, one_mul'] at rz
  have ex := rx.trans (.addZ (isZ_lit.mulR (finite_of_same cx (hv 0))))
  have ey := ry.trans (.addZ (isZ_lit.mulR (finite_of_same cy (hv 1))))
  have ez := rz.trans (.addZ (isZ_lit.mulR (finite_of_same cz (hv 2))))
  have ew : SameNumber _ (lit 0) := rw'.trans (.inr ⟨(isZ_lit.mulR (finite_of_same cw isFin_lit_one)).1, isZ_lit.1,
    (isZ_lit.mulR (finite_of_same cw isFin_lit_one)).2, isZ_lit.2⟩)
  have hb : ∀ {x y : F32}, SameNumber x y → y.IsFin = true → (x == y) = true := fun h hy =>
    beq_of_same h (isFin_ne_nan (finite_of_same h hy))
  simp only [V4.eq, V4.ofXYZ_W, Bool.and_eq_true] at *
  exact ⟨⟨⟨hb ex (hd 0), hb ey (hd 1)⟩, hb ez (hd 2)⟩, hb ew isZ_lit.1⟩

/-- C93: `translate(translate(mat4(), v), u)` moves the origin by the exact sum `u + v`, correctly rounded. -/
theorem C93_translate_twice (v u : V3 F32) (hv : ∀ i, (coord v i).IsFin = true) (hu : ∀ i, (coord u i).IsFin = true)
    (i : Fin 3) : CorrectlyRounded (coord (M4.translate (M4.translate M4.default v) u).c3 i.castSucc)
      ((coord u i).val + (coord v i).val) := by
  obtain ⟨cx, cy, cz, cw⟩ := c3 hv
  obtain ⟨hx, hy, hz⟩ := fin3 hu
  have zx := isZ_lit.mulL hx
  have zy := isZ_lit.mulL hy
  have zz := isZ_lit.mulL hz
  have ex : (M4.translate (M4.translate M4.default v) u).c3.x =
    u.x + lit 0 * u.y + lit 0 * u.z + (M4.translate M4.default v).c3.x := by
    rw [← one_mul' u.x]; rfl
  have ey : (M4.translate (M4.translate M4.default v) u).c3.y =
    lit 0 * u.x + u.y + lit 0 * u.z + (M4.translate M4.default v).c3.y := by
    rw [← one_mul' u.y]; rfl
  have ez : (M4.translate (M4.translate M4.default v) u).c3.z =
    lit 0 * u.x + lit 0 * u.y + u.z + (M4.translate M4.default v).c3.z := by
    rw [← one_mul' u.z]; rfl
  fin_cases i
  · refine SameNumber.correct (y := u.x + v.x) ?_ (add_correct (hu 0) (hv 0))
    show SameNumber (M4.translate (M4.translate M4.default v) u).c3.x _
    rw [ex]
    exact .add ((SameNumber.addZ zz).trans (.addZ zy)) cx
  · refine SameNumber.correct (y := u.y + v.y) ?_ (add_correct (hu 1) (hv 1))
    show SameNumber (M4.translate (M4.translate M4.default v) u).c3.y _
    rw [ey]
    exact .add ((SameNumber.addZ zz).trans (.zAdd zx)) cy
  · refine SameNumber.correct (y := u.z + v.z) ?_ (add_correct (hu 2) (hv 2))
    show SameNumber (M4.translate (M4.translate M4.default v) u).c3.z _
    rw [ez]
    exact .add (.zAdd (zx.add zy)) cz

/-- C93: `scale(mat4(), s) * vec4(p, w)` has the exact products `s * p`, correctly rounded, and keeps `w`. -/
theorem C93_scale_point (s p : V3 F32) (w : F32) (hs : ∀ i, (coord s i).IsFin = true)
    (hp : ∀ i, (coord p i).IsFin = true) (hw : w.IsFin = true) :
    (∀ i : Fin 3, CorrectlyRounded (coord (M4.scale M4.default s * V4.ofXYZ_W p w) i.castSucc)
      ((coord s i).val * (coord p i).val)) ∧
    (coord (M4.scale M4.default s * V4.ofXYZ_W p w) 3 == w) = true := by
  obtain ⟨rx, ry, rz, rw'⟩ := (diag_scale diag_default hs).rows hp w
  obtain ⟨-, -, -, d0, d1, d2, d3⟩ := cols s s M4.default
  rw [d3] at rx ry rz rw'
  rw [d0] at rx
  rw [d1] at ry
  rw [d2] at rz
  have e : (M4.default : M4 F32).c0.x = lit 1 ∧ (M4.default : M4 F32).c1.y = lit 1 ∧ (M4.default : M4 F32).c2.z = lit 1 ∧
    (M4.default : M4 F32).c3.w = lit 1 ∧ (M4.default : M4 F32).c3.x = lit 0 ∧ (M4.default : M4 F32).c3.y = lit 0 ∧
    (M4.default : M4 F32).c3.z = lit 0 := ⟨rfl, rfl, rfl, rfl, rfl, rfl, rfl⟩
  obtain ⟨e0, e1, e2, e3, e4, e5, e6⟩ := e
  rw [e0, one_mul', e4] at rx
  rw [e1, one_mul', e5] at ry
  rw [e2, one_mul', e6] at rz
  rw [e3, one_mul'] at rw'
  refine ⟨fun i => ?_, beq_of_same rw' (isFin_ne_nan (finite_of_same rw' hw))⟩
  fin_cases i
  · exact (rx.trans (.addZ (isZ_lit.mulL hw))).correct (mul_correct (hs 0) (hp 0))
  · exact (ry.trans (.addZ (isZ_lit.mulL hw))).correct (mul_correct (hs 1) (hp 1))
  · exact (rz.trans (.addZ (isZ_lit.mulL hw))).correct (mul_correct (hs 2) (hp 2))

/-- C93: the usual object transform `scale(translate(mat4(), v), s) * vec4(p, 1)` makes two rounding errors per coordinate
and no others: the product `s * p` is rounded to `t`, then the sum `t + v` (if `t` did not overflow). -/
theorem C93_scale_then_translate (v s p : V3 F32) (hv : ∀ i, (coord v i).IsFin = true) (hs : ∀ i, (coord s i).IsFin = true)
    (hp : ∀ i, (coord p i).IsFin = true) (i : Fin 3) :
    ∃ t : F32, CorrectlyRounded t ((coord s i).val * (coord p i).val) ∧ (t.IsFin = true →
      CorrectlyRounded (coord (M4.scale (M4.translate M4.default v) s * V4.ofXYZ_W p (lit 1)) i.castSucc)
        (t.val + (coord v i).val)) := by
  obtain ⟨cx, cy, cz, cw⟩ := c3 hv
  obtain ⟨rx, ry, rz, rw'⟩ := (diag_scale (diag_translate v) hs).rows hp (lit 1)
  obtain ⟨a0, a1, a2, d0, d1, d2, d3⟩ := cols v s (M4.translate M4.default v)
  rw [d3, mul_one'] at rx ry rz
  rw [d0, a0, one_mul'] at rx
  rw [d1, a1, one_mul'] at ry
  rw [d2, a2, one_mul'] at rz
  fin_cases i
  · exact ⟨s.x * p.x, mul_correct (hs 0) (hp 0), fun ht => (rx.trans (.add .rfl cx)).correct (add_correct ht (hv 0))⟩
  · exact ⟨s.y * p.y, mul_correct (hs 1) (hp 1), fun ht => (ry.trans (.add .rfl cy)).correct (add_correct ht (hv 1))⟩
  · exact ⟨s.z * p.z, mul_correct (hs 2) (hp 2), fun ht => (rz.trans (.add .rfl cz)).correct (add_correct ht (hv 2))⟩

/-- Non-vacuity: finite inputs; 2^24 + 1 is not a float, so moving 2^24 by 1 rounds, and 3 * 5 - 7 is exact. -/
example : (∀ i, (coord (⟨lit 1, lit 1, lit (-7)⟩ : V3 F32) i).IsFin = true) ∧
    coord (M4.translate M4.default (⟨lit 1, lit 1, lit (-7)⟩ : V3 F32) * V4.ofXYZ_W (⟨lit 16777216, lit 2, lit 15⟩ : V3 F32) (lit 1)) =
      ![lit 16777216, lit 3, lit 8, lit 1] ∧
    coord (M4.scale (M4.translate M4.default (⟨lit 1, lit 1, lit (-7)⟩ : V3 F32)) ⟨lit 2, lit 2, lit 3⟩ *
      V4.ofXYZ_W (⟨lit 1, lit 2, lit 5⟩ : V3 F32) (lit 1)) = ![lit 3, lit 5, lit 8, lit 1] := by decide +kernel

end Zcm
