import Verif.Lemmas.F32
import Verif.Lemmas.Ops
import Verif.Model.Matrix
import Verif.Model.Quat
import Verif.Spec.Coord
import Verif.Props.C42
import Mathlib.Tactic.FinCases
import Mathlib.Tactic.CasesM

/-!
# C77: the identity is exact in IEEE arithmetic

`M2.eq`, `V2.eq`, ... are the library's `==` (componentwise `float ==`, so `0.0 == -0.0`).  The hypotheses say that
every entry is finite: `0 * inf` is NaN, so with an infinite entry the claims fail.
-/

namespace Zcm

open F32

/-- `a` is a finite float of value `x` -/
private def Is (a : F32) (x : ℚ) : Prop := a.IsFin = true ∧ a.val = x

private theorem is_of {a : F32} (h : a.IsFin = true) : Is a a.val := ⟨h, rfl⟩

private theorem is_round {a : F32} {x : ℚ} (h : Is a x) (s : Bool) : Is (round s x) x := by
  have k := key_round_val h.1 s
  rw [h.2] at k
  refine ⟨?_, (key_eq_iff.1 k).trans h.2⟩
  rw [isFin_iff (round_ne_nan _ _), k]
  exact key_bound_fin h.1

private theorem is_zero_mul {a : F32} {x : ℚ} (h : Is a x) : Is (lit 0 * a) 0 := by
  rw [mul_fin isFin_lit_zero h.1, val_lit_zero, zero_mul]
  exact is_round ⟨isFin_lit_zero, val_lit_zero⟩ _

private theorem is_mul_zero {a : F32} {x : ℚ} (h : Is a x) : Is (a * lit 0) 0 := by
  rw [mul_comm']; exact is_zero_mul h

private theorem is_add_zero {a b : F32} {x : ℚ} (ha : Is a x) (hb : Is b 0) : Is (a + b) x := by
  rw [add_fin ha.1 hb.1, ha.2, hb.2, add_zero]
  exact is_round ha _

private theorem is_zero_add {a b : F32} {x : ℚ} (ha : Is a 0) (hb : Is b x) : Is (a + b) x := by
  rw [add_comm']; exact is_add_zero hb ha

private theorem is_beq {a b : F32} (ha : Is a b.val) (hb : b.IsFin = true) : (a == b) = true :=
  beq_iff.2 ⟨isFin_ne_nan ha.1, isFin_ne_nan hb, key_eq_iff.2 ha.2⟩

private theorem sum2_0l {a b : F32} (ha : a.IsFin = true) (hb : b.IsFin = true) :
    (a + lit 0 * b == a) = true :=
  is_beq (is_add_zero (is_of ha) (is_zero_mul (is_of hb))) ha
private theorem sum2_0r {a b : F32} (ha : a.IsFin = true) (hb : b.IsFin = true) :
    (a + b * lit 0 == a) = true :=
  is_beq (is_add_zero (is_of ha) (is_mul_zero (is_of hb))) ha
private theorem sum2_1l {a b : F32} (ha : a.IsFin = true) (hb : b.IsFin = true) :
    (lit 0 * a + b == b) = true :=
  is_beq (is_zero_add (is_zero_mul (is_of ha)) (is_of hb)) hb
private theorem sum2_1r {a b : F32} (ha : a.IsFin = true) (hb : b.IsFin = true) :
    (a * lit 0 + b == b) = true :=
  is_beq (is_zero_add (is_mul_zero (is_of ha)) (is_of hb)) hb
private theorem sum3_0l {a b c : F32} (ha : a.IsFin = true) (hb : b.IsFin = true) (hc : c.IsFin = true) :
    (a + lit 0 * b + lit 0 * c == a) = true :=
  is_beq (is_add_zero (is_add_zero (is_of ha) (is_zero_mul (is_of hb))) (is_zero_mul (is_of hc))) ha
private theorem sum3_0r {a b c : F32} (ha : a.IsFin = true) (hb : b.IsFin = true) (hc : c.IsFin = true) :
    (a + b * lit 0 + c * lit 0 == a) = true :=
  is_beq (is_add_zero (is_add_zero (is_of ha) (is_mul_zero (is_of hb))) (is_mul_zero (is_of hc))) ha
private theorem sum3_1l {a b c : F32} (ha : a.IsFin = true) (hb : b.IsFin = true) (hc : c.IsFin = true) :
    (lit 0 * a + b + lit 0 * c == b) = true :=
  is_beq (is_add_zero (is_zero_add (is_zero_mul (is_of ha)) (is_of hb)) (is_zero_mul (is_of hc))) hb
private theorem sum3_1r {a b c : F32} (ha : a.IsFin = true) (hb : b.IsFin = true) (hc : c.IsFin = true) :
    (a * lit 0 + b + c * lit 0 == b) = true :=
  is_beq (is_add_zero (is_zero_add (is_mul_zero (is_of ha)) (is_of hb)) (is_mul_zero (is_of hc))) hb
private theorem sum3_2l {a b c : F32} (ha : a.IsFin = true) (hb : b.IsFin = true) (hc : c.IsFin = true) :
    (lit 0 * a + lit 0 * b + c == c) = true :=
  is_beq (is_zero_add (is_add_zero (is_zero_mul (is_of ha)) (is_zero_mul (is_of hb))) (is_of hc)) hc
private theorem sum3_2r {a b c : F32} (ha : a.IsFin = true) (hb : b.IsFin = true) (hc : c.IsFin = true) :
    (a * lit 0 + b * lit 0 + c == c) = true :=
  is_beq (is_zero_add (is_add_zero (is_mul_zero (is_of ha)) (is_mul_zero (is_of hb))) (is_of hc)) hc
private theorem sum4_0l {a b c d : F32} (ha : a.IsFin = true) (hb : b.IsFin = true) (hc : c.IsFin = true) (hd : d.IsFin = true) :
    (a + lit 0 * b + lit 0 * c + lit 0 * d == a) = true :=
  is_beq (is_add_zero (is_add_zero (is_add_zero (is_of ha) (is_zero_mul (is_of hb))) (is_zero_mul (is_of hc))) (is_zero_mul (is_of hd))) ha
private theorem sum4_0lp {a b c d : F32} (ha : a.IsFin = true) (hb : b.IsFin = true) (hc : c.IsFin = true) (hd : d.IsFin = true) :
    ((a + lit 0 * b) + (lit 0 * c + lit 0 * d) == a) = true :=
  is_beq (is_add_zero (is_add_zero (is_of ha) (is_zero_mul (is_of hb))) (is_add_zero (is_zero_mul (is_of hc)) (is_zero_mul (is_of hd)))) ha
private theorem sum4_0r {a b c d : F32} (ha : a.IsFin = true) (hb : b.IsFin = true) (hc : c.IsFin = true) (hd : d.IsFin = true) :
    (a + b * lit 0 + c * lit 0 + d * lit 0 == a) = true :=
  is_beq (is_add_zero (is_add_zero (is_add_zero (is_of ha) (is_mul_zero (is_of hb))) (is_mul_zero (is_of hc))) (is_mul_zero (is_of hd))) ha
private theorem sum4_1l {a b c d : F32} (ha : a.IsFin = true) (hb : b.IsFin = true) (hc : c.IsFin = true) (hd : d.IsFin = true) :
    (lit 0 * a + b + lit 0 * c + lit 0 * d == b) = true :=
  is_beq (is_add_zero (is_add_zero (is_zero_add (is_zero_mul (is_of ha)) (is_of hb)) (is_zero_mul (is_of hc))) (is_zero_mul (is_of hd))) hb
private theorem sum4_1lp {a b c d : F32} (ha : a.IsFin = true) (hb : b.IsFin = true) (hc : c.IsFin = true) (hd : d.IsFin = true) :
    ((lit 0 * a + b) + (lit 0 * c + lit 0 * d) == b) = true :=
  is_beq (is_add_zero (is_zero_add (is_zero_mul (is_of ha)) (is_of hb)) (is_add_zero (is_zero_mul (is_of hc)) (is_zero_mul (is_of hd)))) hb
private theorem sum4_1r {a b c d : F32} (ha : a.IsFin = true) (hb : b.IsFin = true) (hc : c.IsFin = true) (hd : d.IsFin = true) :
    (a * lit 0 + b + c * lit 0 + d * lit 0 == b) = true :=
  is_beq (is_add_zero (is_add_zero (is_zero_add (is_mul_zero (is_of ha)) (is_of hb)) (is_mul_zero (is_of hc))) (is_mul_zero (is_of hd))) hb
private theorem sum4_2l {a b c d : F32} (ha : a.IsFin = true) (hb : b.IsFin = true) (hc : c.IsFin = true) (hd : d.IsFin = true) :
    (lit 0 * a + lit 0 * b + c + lit 0 * d == c) = true :=
  is_beq (is_add_zero (is_zero_add (is_add_zero (is_zero_mul (is_of ha)) (is_zero_mul (is_of hb))) (is_of hc)) (is_zero_mul (is_of hd))) hc
private theorem sum4_2lp {a b c d : F32} (ha : a.IsFin = true) (hb : b.IsFin = true) (hc : c.IsFin = true) (hd : d.IsFin = true) :
    ((lit 0 * a + lit 0 * b) + (c + lit 0 * d) == c) = true :=
  is_beq (is_zero_add (is_add_zero (is_zero_mul (is_of ha)) (is_zero_mul (is_of hb))) (is_add_zero (is_of hc) (is_zero_mul (is_of hd)))) hc
private theorem sum4_2r {a b c d : F32} (ha : a.IsFin = true) (hb : b.IsFin = true) (hc : c.IsFin = true) (hd : d.IsFin = true) :
    (a * lit 0 + b * lit 0 + c + d * lit 0 == c) = true :=
  is_beq (is_add_zero (is_zero_add (is_add_zero (is_mul_zero (is_of ha)) (is_mul_zero (is_of hb))) (is_of hc)) (is_mul_zero (is_of hd))) hc
private theorem sum4_3l {a b c d : F32} (ha : a.IsFin = true) (hb : b.IsFin = true) (hc : c.IsFin = true) (hd : d.IsFin = true) :
    (lit 0 * a + lit 0 * b + lit 0 * c + d == d) = true :=
  is_beq (is_zero_add (is_add_zero (is_add_zero (is_zero_mul (is_of ha)) (is_zero_mul (is_of hb))) (is_zero_mul (is_of hc))) (is_of hd)) hd
private theorem sum4_3lp {a b c d : F32} (ha : a.IsFin = true) (hb : b.IsFin = true) (hc : c.IsFin = true) (hd : d.IsFin = true) :
    ((lit 0 * a + lit 0 * b) + (lit 0 * c + d) == d) = true :=
  is_beq (is_zero_add (is_add_zero (is_zero_mul (is_of ha)) (is_zero_mul (is_of hb))) (is_zero_add (is_zero_mul (is_of hc)) (is_of hd))) hd
private theorem sum4_3r {a b c d : F32} (ha : a.IsFin = true) (hb : b.IsFin = true) (hc : c.IsFin = true) (hd : d.IsFin = true) :
    (a * lit 0 + b * lit 0 + c * lit 0 + d == d) = true :=
  is_beq (is_zero_add (is_add_zero (is_add_zero (is_mul_zero (is_of ha)) (is_mul_zero (is_of hb))) (is_mul_zero (is_of hc))) (is_of hd)) hd

local macro "exact_id" : tactic => `(tactic|
  (first
   | (with_reducible (apply sum2_0l <;> assumption))
   | (with_reducible (apply sum2_0r <;> assumption))
   | (with_reducible (apply sum2_1l <;> assumption))
   | (with_reducible (apply sum2_1r <;> assumption))
   | (with_reducible (apply sum3_0l <;> assumption))
   | (with_reducible (apply sum3_0r <;> assumption))
   | (with_reducible (apply sum3_1l <;> assumption))
   | (with_reducible (apply sum3_1r <;> assumption))
   | (with_reducible (apply sum3_2l <;> assumption))
   | (with_reducible (apply sum3_2r <;> assumption))
   | (with_reducible (apply sum4_0l <;> assumption))
   | (with_reducible (apply sum4_0lp <;> assumption))
   | (with_reducible (apply sum4_0r <;> assumption))
   | (with_reducible (apply sum4_1l <;> assumption))
   | (with_reducible (apply sum4_1lp <;> assumption))
   | (with_reducible (apply sum4_1r <;> assumption))
   | (with_reducible (apply sum4_2l <;> assumption))
   | (with_reducible (apply sum4_2lp <;> assumption))
   | (with_reducible (apply sum4_2r <;> assumption))
   | (with_reducible (apply sum4_3l <;> assumption))
   | (with_reducible (apply sum4_3lp <;> assumption))
   | (with_reducible (apply sum4_3r <;> assumption))
   ))

private theorem mul2_00 (a b : M2 F32) : (a * b).c0.x = a.c0.x * b.c0.x + a.c1.x * b.c0.y := (rfl)
private theorem id2_00 : (M2.default : M2 F32).c0.x = lit 1 := (rfl)
private theorem mul2_01 (a b : M2 F32) : (a * b).c0.y = a.c0.y * b.c0.x + a.c1.y * b.c0.y := (rfl)
private theorem id2_01 : (M2.default : M2 F32).c0.y = lit 0 := (rfl)
private theorem mul2_10 (a b : M2 F32) : (a * b).c1.x = a.c0.x * b.c1.x + a.c1.x * b.c1.y := (rfl)
private theorem id2_10 : (M2.default : M2 F32).c1.x = lit 0 := (rfl)
private theorem mul2_11 (a b : M2 F32) : (a * b).c1.y = a.c0.y * b.c1.x + a.c1.y * b.c1.y := (rfl)
private theorem id2_11 : (M2.default : M2 F32).c1.y = lit 1 := (rfl)
private theorem mulV2_0 (a : M2 F32) (v : V2 F32) : (a * v).x = a.c0.x * v.x + a.c1.x * v.y := (rfl)
private theorem vMul2_0 (a : M2 F32) (v : V2 F32) : (v * a).x = v.x * a.c0.x + v.y * a.c0.y := (rfl)
private theorem mulV2_1 (a : M2 F32) (v : V2 F32) : (a * v).y = a.c0.y * v.x + a.c1.y * v.y := (rfl)
private theorem vMul2_1 (a : M2 F32) (v : V2 F32) : (v * a).y = v.x * a.c1.x + v.y * a.c1.y := (rfl)

/-- C77 for `mat2`: the identity is neutral for matrix-vector, vector-matrix and matrix-matrix products, with `==`. -/
theorem C77_mat2 (m : M2 F32) (v : V2 F32) (hm : ∀ c r, (entry m c r).IsFin = true)
    (hv : ∀ i, (coord v i).IsFin = true) :
    V2.eq ((M2.default : M2 F32) * v) v = true ∧ V2.eq (v * (M2.default : M2 F32)) v = true ∧
    M2.eq ((M2.default : M2 F32) * m) m = true ∧ M2.eq (m * (M2.default : M2 F32)) m = true := by
  have v0 : v.x.IsFin = true := hv 0
  have v1 : v.y.IsFin = true := hv 1
  have h00 : m.c0.x.IsFin = true := hm 0 0
  have h01 : m.c0.y.IsFin = true := hm 0 1
  have h10 : m.c1.x.IsFin = true := hm 1 0
  have h11 : m.c1.y.IsFin = true := hm 1 1
  clear hm hv
  simp only [M2.eq, V2.eq, Bool.and_eq_true, one_mul', mul_one', mul2_00, id2_00, mul2_01, id2_01, mul2_10, id2_10, mul2_11, id2_11, mulV2_0, vMul2_0, mulV2_1, vMul2_1]
  constructorm* _ ∧ _ <;> exact_id

/-- C77, `transpose(mat2)`: moves entries and never rounds. -/
theorem C77_transpose2 (m : M2 F32) (c r : Fin 2) :
    entry (M2.transpose m) c r = entry m r c ∧ M2.transpose (M2.transpose m) = m := C42_mat2 m c r

private theorem mul3_00 (a b : M3 F32) : (a * b).c0.x = a.c0.x * b.c0.x + a.c1.x * b.c0.y + a.c2.x * b.c0.z := (rfl)
private theorem id3_00 : (M3.default : M3 F32).c0.x = lit 1 := (rfl)
private theorem mul3_01 (a b : M3 F32) : (a * b).c0.y = a.c0.y * b.c0.x + a.c1.y * b.c0.y + a.c2.y * b.c0.z := (rfl)
private theorem id3_01 : (M3.default : M3 F32).c0.y = lit 0 := (rfl)
private theorem mul3_02 (a b : M3 F32) : (a * b).c0.z = a.c0.z * b.c0.x + a.c1.z * b.c0.y + a.c2.z * b.c0.z := (rfl)
private theorem id3_02 : (M3.default : M3 F32).c0.z = lit 0 := (rfl)
private theorem mul3_10 (a b : M3 F32) : (a * b).c1.x = a.c0.x * b.c1.x + a.c1.x * b.c1.y + a.c2.x * b.c1.z := (rfl)
private theorem id3_10 : (M3.default : M3 F32).c1.x = lit 0 := (rfl)
private theorem mul3_11 (a b : M3 F32) : (a * b).c1.y = a.c0.y * b.c1.x + a.c1.y * b.c1.y + a.c2.y * b.c1.z := (rfl)
private theorem id3_11 : (M3.default : M3 F32).c1.y = lit 1 := (rfl)
private theorem mul3_12 (a b : M3 F32) : (a * b).c1.z = a.c0.z * b.c1.x + a.c1.z * b.c1.y + a.c2.z * b.c1.z := (rfl)
private theorem id3_12 : (M3.default : M3 F32).c1.z = lit 0 := (rfl)
private theorem mul3_20 (a b : M3 F32) : (a * b).c2.x = a.c0.x * b.c2.x + a.c1.x * b.c2.y + a.c2.x * b.c2.z := (rfl)
private theorem id3_20 : (M3.default : M3 F32).c2.x = lit 0 := (rfl)
private theorem mul3_21 (a b : M3 F32) : (a * b).c2.y = a.c0.y * b.c2.x + a.c1.y * b.c2.y + a.c2.y * b.c2.z := (rfl)
private theorem id3_21 : (M3.default : M3 F32).c2.y = lit 0 := (rfl)
private theorem mul3_22 (a b : M3 F32) : (a * b).c2.z = a.c0.z * b.c2.x + a.c1.z * b.c2.y + a.c2.z * b.c2.z := (rfl)
private theorem id3_22 : (M3.default : M3 F32).c2.z = lit 1 := (rfl)
private theorem mulV3_0 (a : M3 F32) (v : V3 F32) : (a * v).x = a.c0.x * v.x + a.c1.x * v.y + a.c2.x * v.z := (rfl)
private theorem vMul3_0 (a : M3 F32) (v : V3 F32) : (v * a).x = a.c0.x * v.x + a.c0.y * v.y + a.c0.z * v.z := (rfl)
private theorem mulV3_1 (a : M3 F32) (v : V3 F32) : (a * v).y = a.c0.y * v.x + a.c1.y * v.y + a.c2.y * v.z := (rfl)
private theorem vMul3_1 (a : M3 F32) (v : V3 F32) : (v * a).y = a.c1.x * v.x + a.c1.y * v.y + a.c1.z * v.z := (rfl)
private theorem mulV3_2 (a : M3 F32) (v : V3 F32) : (a * v).z = a.c0.z * v.x + a.c1.z * v.y + a.c2.z * v.z := (rfl)
private theorem vMul3_2 (a : M3 F32) (v : V3 F32) : (v * a).z = a.c2.x * v.x + a.c2.y * v.y + a.c2.z * v.z := (rfl)

/-- C77 for `mat3`: the identity is neutral for matrix-vector, vector-matrix and matrix-matrix products, with `==`. -/
theorem C77_mat3 (m : M3 F32) (v : V3 F32) (hm : ∀ c r, (entry m c r).IsFin = true)
    (hv : ∀ i, (coord v i).IsFin = true) :
    V3.eq ((M3.default : M3 F32) * v) v = true ∧ V3.eq (v * (M3.default : M3 F32)) v = true ∧
    M3.eq ((M3.default : M3 F32) * m) m = true ∧ M3.eq (m * (M3.default : M3 F32)) m = true := by
  have v0 : v.x.IsFin = true := hv 0
  have v1 : v.y.IsFin = true := hv 1
  have v2 : v.z.IsFin = true := hv 2
  have h00 : m.c0.x.IsFin = true := hm 0 0
  have h01 : m.c0.y.IsFin = true := hm 0 1
  have h02 : m.c0.z.IsFin = true := hm 0 2
  have h10 : m.c1.x.IsFin = true := hm 1 0
  have h11 : m.c1.y.IsFin = true := hm 1 1
  have h12 : m.c1.z.IsFin = true := hm 1 2
  have h20 : m.c2.x.IsFin = true := hm 2 0
  have h21 : m.c2.y.IsFin = true := hm 2 1
  have h22 : m.c2.z.IsFin = true := hm 2 2
  clear hm hv
  simp only [M3.eq, V3.eq, Bool.and_eq_true, one_mul', mul_one', mul3_00, id3_00, mul3_01, id3_01, mul3_02, id3_02, mul3_10, id3_10, mul3_11, id3_11, mul3_12, id3_12, mul3_20, id3_20, mul3_21, id3_21, mul3_22, id3_22, mulV3_0, vMul3_0, mulV3_1, vMul3_1, mulV3_2, vMul3_2]
  constructorm* _ ∧ _ <;> exact_id

/-- C77, `transpose(mat3)`: moves entries and never rounds. -/
theorem C77_transpose3 (m : M3 F32) (c r : Fin 3) :
    entry (M3.transpose m) c r = entry m r c ∧ M3.transpose (M3.transpose m) = m := C42_mat3 m c r

private theorem mul4_00 (a b : M4 F32) : (a * b).c0.x = a.c0.x * b.c0.x + a.c1.x * b.c0.y + a.c2.x * b.c0.z + a.c3.x * b.c0.w := (rfl)
private theorem id4_00 : (M4.default : M4 F32).c0.x = lit 1 := (rfl)
private theorem mul4_01 (a b : M4 F32) : (a * b).c0.y = a.c0.y * b.c0.x + a.c1.y * b.c0.y + a.c2.y * b.c0.z + a.c3.y * b.c0.w := (rfl)
private theorem id4_01 : (M4.default : M4 F32).c0.y = lit 0 := (rfl)
private theorem mul4_02 (a b : M4 F32) : (a * b).c0.z = a.c0.z * b.c0.x + a.c1.z * b.c0.y + a.c2.z * b.c0.z + a.c3.z * b.c0.w := (rfl)
private theorem id4_02 : (M4.default : M4 F32).c0.z = lit 0 := (rfl)
private theorem mul4_03 (a b : M4 F32) : (a * b).c0.w = a.c0.w * b.c0.x + a.c1.w * b.c0.y + a.c2.w * b.c0.z + a.c3.w * b.c0.w := (rfl)
private theorem id4_03 : (M4.default : M4 F32).c0.w = lit 0 := (rfl)
private theorem mul4_10 (a b : M4 F32) : (a * b).c1.x = a.c0.x * b.c1.x + a.c1.x * b.c1.y + a.c2.x * b.c1.z + a.c3.x * b.c1.w := (rfl)
private theorem id4_10 : (M4.default : M4 F32).c1.x = lit 0 := (rfl)
private theorem mul4_11 (a b : M4 F32) : (a * b).c1.y = a.c0.y * b.c1.x + a.c1.y * b.c1.y + a.c2.y * b.c1.z + a.c3.y * b.c1.w := (rfl)
private theorem id4_11 : (M4.default : M4 F32).c1.y = lit 1 := (rfl)
private theorem mul4_12 (a b : M4 F32) : (a * b).c1.z = a.c0.z * b.c1.x + a.c1.z * b.c1.y + a.c2.z * b.c1.z + a.c3.z * b.c1.w := (rfl)
private theorem id4_12 : (M4.default : M4 F32).c1.z = lit 0 := (rfl)
private theorem mul4_13 (a b : M4 F32) : (a * b).c1.w = a.c0.w * b.c1.x + a.c1.w * b.c1.y + a.c2.w * b.c1.z + a.c3.w * b.c1.w := (rfl)
private theorem id4_13 : (M4.default : M4 F32).c1.w = lit 0 := (rfl)
private theorem mul4_20 (a b : M4 F32) : (a * b).c2.x = a.c0.x * b.c2.x + a.c1.x * b.c2.y + a.c2.x * b.c2.z + a.c3.x * b.c2.w := (rfl)
private theorem id4_20 : (M4.default : M4 F32).c2.x = lit 0 := (rfl)
private theorem mul4_21 (a b : M4 F32) : (a * b).c2.y = a.c0.y * b.c2.x + a.c1.y * b.c2.y + a.c2.y * b.c2.z + a.c3.y * b.c2.w := (rfl)
private theorem id4_21 : (M4.default : M4 F32).c2.y = lit 0 := (rfl)
private theorem mul4_22 (a b : M4 F32) : (a * b).c2.z = a.c0.z * b.c2.x + a.c1.z * b.c2.y + a.c2.z * b.c2.z + a.c3.z * b.c2.w := (rfl)
private theorem id4_22 : (M4.default : M4 F32).c2.z = lit 1 := (rfl)
private theorem mul4_23 (a b : M4 F32) : (a * b).c2.w = a.c0.w * b.c2.x + a.c1.w * b.c2.y + a.c2.w * b.c2.z + a.c3.w * b.c2.w := (rfl)
private theorem id4_23 : (M4.default : M4 F32).c2.w = lit 0 := (rfl)
private theorem mul4_30 (a b : M4 F32) : (a * b).c3.x = a.c0.x * b.c3.x + a.c1.x * b.c3.y + a.c2.x * b.c3.z + a.c3.x * b.c3.w := (rfl)
private theorem id4_30 : (M4.default : M4 F32).c3.x = lit 0 := (rfl)
private theorem mul4_31 (a b : M4 F32) : (a * b).c3.y = a.c0.y * b.c3.x + a.c1.y * b.c3.y + a.c2.y * b.c3.z + a.c3.y * b.c3.w := (rfl)
private theorem id4_31 : (M4.default : M4 F32).c3.y = lit 0 := (rfl)
private theorem mul4_32 (a b : M4 F32) : (a * b).c3.z = a.c0.z * b.c3.x + a.c1.z * b.c3.y + a.c2.z * b.c3.z + a.c3.z * b.c3.w := (rfl)
private theorem id4_32 : (M4.default : M4 F32).c3.z = lit 0 := (rfl)
private theorem mul4_33 (a b : M4 F32) : (a * b).c3.w = a.c0.w * b.c3.x + a.c1.w * b.c3.y + a.c2.w * b.c3.z + a.c3.w * b.c3.w := (rfl)
private theorem id4_33 : (M4.default : M4 F32).c3.w = lit 1 := (rfl)
private theorem mulV4_0 (a : M4 F32) (v : V4 F32) : (a * v).x = (a.c0.x * v.x + a.c1.x * v.y) + (a.c2.x * v.z + a.c3.x * v.w) := (rfl)
private theorem vMul4_0 (a : M4 F32) (v : V4 F32) : (v * a).x = a.c0.x * v.x + a.c0.y * v.y + a.c0.z * v.z + a.c0.w * v.w := (rfl)
private theorem mulV4_1 (a : M4 F32) (v : V4 F32) : (a * v).y = (a.c0.y * v.x + a.c1.y * v.y) + (a.c2.y * v.z + a.c3.y * v.w) := (rfl)
private theorem vMul4_1 (a : M4 F32) (v : V4 F32) : (v * a).y = a.c1.x * v.x + a.c1.y * v.y + a.c1.z * v.z + a.c1.w * v.w := (rfl)
private theorem mulV4_2 (a : M4 F32) (v : V4 F32) : (a * v).z = (a.c0.z * v.x + a.c1.z * v.y) + (a.c2.z * v.z + a.c3.z * v.w) := (rfl)
private theorem vMul4_2 (a : M4 F32) (v : V4 F32) : (v * a).z = a.c2.x * v.x + a.c2.y * v.y + a.c2.z * v.z + a.c2.w * v.w := (rfl)
private theorem mulV4_3 (a : M4 F32) (v : V4 F32) : (a * v).w = (a.c0.w * v.x + a.c1.w * v.y) + (a.c2.w * v.z + a.c3.w * v.w) := (rfl)
private theorem vMul4_3 (a : M4 F32) (v : V4 F32) : (v * a).w = a.c3.x * v.x + a.c3.y * v.y + a.c3.z * v.z + a.c3.w * v.w := (rfl)

/-- C77 for `mat4`: the identity is neutral for matrix-vector, vector-matrix and matrix-matrix products, with `==`. -/
theorem C77_mat4 (m : M4 F32) (v : V4 F32) (hm : ∀ c r, (entry m c r).IsFin = true)
    (hv : ∀ i, (coord v i).IsFin = true) :
    V4.eq ((M4.default : M4 F32) * v) v = true ∧ V4.eq (v * (M4.default : M4 F32)) v = true ∧
    M4.eq ((M4.default : M4 F32) * m) m = true ∧ M4.eq (m * (M4.default : M4 F32)) m = true := by
  have v0 : v.x.IsFin = true := hv 0
  have v1 : v.y.IsFin = true := hv 1
  have v2 : v.z.IsFin = true := hv 2
  have v3 : v.w.IsFin = true := hv 3
  have h00 : m.c0.x.IsFin = true := hm 0 0
  have h01 : m.c0.y.IsFin = true := hm 0 1
  have h02 : m.c0.z.IsFin = true := hm 0 2
  have h03 : m.c0.w.IsFin = true := hm 0 3
  have h10 : m.c1.x.IsFin = true := hm 1 0
  have h11 : m.c1.y.IsFin = true := hm 1 1
  have h12 : m.c1.z.IsFin = true := hm 1 2
  have h13 : m.c1.w.IsFin = true := hm 1 3
  have h20 : m.c2.x.IsFin = true := hm 2 0
  have h21 : m.c2.y.IsFin = true := hm 2 1
  have h22 : m.c2.z.IsFin = true := hm 2 2
  have h23 : m.c2.w.IsFin = true := hm 2 3
  have h30 : m.c3.x.IsFin = true := hm 3 0
  have h31 : m.c3.y.IsFin = true := hm 3 1
  have h32 : m.c3.z.IsFin = true := hm 3 2
  have h33 : m.c3.w.IsFin = true := hm 3 3
  clear hm hv
  simp only [M4.eq, V4.eq, Bool.and_eq_true, one_mul', mul_one', mul4_00, id4_00, mul4_01, id4_01, mul4_02, id4_02, mul4_03, id4_03, mul4_10, id4_10, mul4_11, id4_11, mul4_12, id4_12, mul4_13, id4_13, mul4_20, id4_20, mul4_21, id4_21, mul4_22, id4_22, mul4_23, id4_23, mul4_30, id4_30, mul4_31, id4_31, mul4_32, id4_32, mul4_33, id4_33, mulV4_0, vMul4_0, mulV4_1, vMul4_1, mulV4_2, vMul4_2, mulV4_3, vMul4_3]
  constructorm* _ ∧ _ <;> exact_id

/-- C77, `transpose(mat4)`: moves entries and never rounds. -/
theorem C77_transpose4 (m : M4 F32) (c r : Fin 4) :
    entry (M4.transpose m) c r = entry m r c ∧ M4.transpose (M4.transpose m) = m := C42_mat4 m c r

/-- C77, the conversions `mat4(mat3)`, `mat3(mat4)`, `mat2(mat3)` copy bits: the round trip is the identity for every
bit pattern, and the identity converts to the identity. -/
theorem C77_casts (m : M3 F32) (k : M4 F32) :
    M4.toMat3 (M4.ofMat3 m) = m ∧
    (∀ c r : Fin 3, entry (M4.toMat3 k) c r = entry k c.castSucc r.castSucc) ∧
    (∀ c r : Fin 2, entry (M3.toMat2 m) c r = entry m c.castSucc r.castSucc) ∧
    M4.ofMat3 (M3.default : M3 F32) = M4.default ∧ M4.toMat3 (M4.default : M4 F32) = M3.default ∧
    M3.toMat2 (M3.default : M3 F32) = M2.default := by
  refine ⟨rfl, ?_, ?_, rfl, rfl, rfl⟩ <;> intro c r <;> fin_cases c <;> fin_cases r <;> rfl

/-- Non-vacuity: a finite matrix with rounded entries, a denormal and a huge one; the zero signs may change (so the
statement uses `==`), and an infinite component breaks the claim. -/
example : (∀ c r : Fin 2, (entry (⟨⟨lit (1/10), .fin false 1 (by decide +kernel)⟩, ⟨lit (3*10^30), lit (-7)⟩⟩ : M2 F32) c r).IsFin = true) := by
  intro c r; fin_cases c <;> fin_cases r <;> decide +kernel
example : (M2.default : M2 F32) * (⟨-lit 0, lit 1⟩ : V2 F32) ≠ ⟨-lit 0, lit 1⟩ ∧
    V2.eq ((M2.default : M2 F32) * (⟨-lit 0, lit 1⟩ : V2 F32)) ⟨-lit 0, lit 1⟩ = true ∧
    V2.eq ((M2.default : M2 F32) * (⟨.inf false, lit 1⟩ : V2 F32)) ⟨.inf false, lit 1⟩ = false := by decide +kernel

end Zcm
