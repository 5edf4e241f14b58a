import Verif.Lemmas.F32Close
import Verif.Spec.HamiltonF32
import Verif.Lemmas.Hamilton

/-!
# Rounding errors of the quaternion functions
-/

set_option exponentiation.threshold 300

namespace Zcm

open Quaternion F32

theorem norm_sq_quat (a : ℍ[ℝ]) : ‖a‖ ^ 2 = a.re ^ 2 + a.imI ^ 2 + a.imJ ^ 2 + a.imK ^ 2 := by
  rw [sq, ← normSq_eq_norm_mul_self, normSq_def']

theorem quat_norm_le {a : ℍ[ℝ]} {e : ℝ} (h0 : 0 ≤ e) (h1 : |a.re| ≤ e) (h2 : |a.imI| ≤ e) (h3 : |a.imJ| ≤ e)
    (h4 : |a.imK| ≤ e) : ‖a‖ ≤ 2 * e := by
  apply le_of_sq_le_sq _ (by positivity)
  rw [norm_sq_quat]
  have := sq_le_sq' (abs_le.1 h1).1 (abs_le.1 h1).2
  have := sq_le_sq' (abs_le.1 h2).1 (abs_le.1 h2).2
  have := sq_le_sq' (abs_le.1 h3).1 (abs_le.1 h3).2
  have := sq_le_sq' (abs_le.1 h4).1 (abs_le.1 h4).2
  linarith

/-- a computed sum or difference of two coordinates of a vector of length `P` -/
structure Pair (x : F32) (r P : ℝ) : Prop where
  close : Close x r P 2 (2 / 2 ^ 24)
  le : |r| ≤ 1.4143 * P

theorem sq_le_of_pair {a b P : ℝ} (h0 : 0 ≤ P) (h : a ^ 2 + b ^ 2 ≤ P ^ 2) :
    |a| ≤ P ∧ |b| ≤ P ∧ |a + b| ≤ 1.4143 * P ∧ |a - b| ≤ 1.4143 * P := by
  have : 0 ≤ P ^ 2 := by positivity
  refine ⟨?_, ?_, ?_, ?_⟩ <;> apply abs_le_of_sq_le_sq _ (by positivity) <;>
    nlinarith [sq_nonneg (a + b), sq_nonneg (a - b), sq_nonneg a, sq_nonneg b]

theorem Pair.add {x y : F32} {P : ℝ} (hx : x.IsFin = true) (hy : y.IsFin = true) (p0 : 0 ≤ P) (hP : P ≤ 2 ^ 120)
    (h : (x.val : ℝ) ^ 2 + (y.val : ℝ) ^ 2 ≤ P ^ 2) : Pair (x + y) (x.val + y.val) P := by
  obtain ⟨h1, h2, h3, -⟩ := sq_le_of_pair p0 h
  refine ⟨((Close.exact hx h1).add (Close.exact hy h2) p0 hP ?_).weaken p0 ?_ ?_, h3⟩ <;> norm_num

theorem Pair.sub {x y : F32} {P : ℝ} (hx : x.IsFin = true) (hy : y.IsFin = true) (p0 : 0 ≤ P) (hP : P ≤ 2 ^ 120)
    (h : (x.val : ℝ) ^ 2 + (y.val : ℝ) ^ 2 ≤ P ^ 2) : Pair (x - y) (x.val - y.val) P := by
  obtain ⟨h1, h2, -, h3⟩ := sq_le_of_pair p0 h
  refine ⟨((Close.exact hx h1).sub (Close.exact hy h2) p0 hP ?_).weaken p0 ?_ ?_, h3⟩ <;> norm_num

/-- the product of two sums (or differences) of two coordinates -/
theorem Pair.mul {x y : F32} {r s P Q : ℝ} (hx : Pair x r P) (hy : Pair y s Q) (hp : 0 ≤ P) (hq : 0 ≤ Q)
    (hP : P * Q ≤ 2 ^ 120) (hl : 1 / 2 ^ 100 ≤ P * Q) : Close (x * y) (r * s) (P * Q) 2.001 (8 / 2 ^ 24) := by
  refine ((hx.close.tighten hx.le).mul (hy.close.tighten hy.le) hp hq ?_ ?_ ?_ ?_ hP hl ?_).weaken
    (by positivity) ?_ ?_ <;> norm_num

theorem val_lit_half : (lit 0.5 : F32).IsFin = true ∧ (((lit 0.5 : F32).val : ℚ) : ℝ) = 1 / 2 := by
  have h : (lit 0.5 : F32).IsFin = true ∧ (lit 0.5 : F32).val = 1 / 2 := by
    refine ⟨by decide +kernel, ?_⟩
    decide +kernel
  exact ⟨h.1, by rw [h.2]; norm_num⟩

/-- `qq - t + f` -/
theorem F32.Close.last {c t f : F32} {a b d P M E : ℝ} (hc : Close c a P 4.002 (29.3 / 2 ^ 24)) (ht : Close t b P M E)
    (hf : Close f d P 2.001 (8 / 2 ^ 24)) (p0 : 0 ≤ P) (hP : P ≤ 2 ^ 120) (hM : M ≤ 6.003) (hE : E ≤ 34.2 / 2 ^ 24) :
    Close (c - t + f) (a - b + d) P 13 (1 / 2 ^ 17) := by
  have ht' := ht.weaken p0 hM hE
  refine ((hc.sub ht' p0 hP ?_).add hf p0 hP ?_).weaken p0 ?_ ?_ <;> norm_num

theorem quat_mul_def {α : Type} [Add α] [Sub α] [Mul α] [FloatOps α] (p q : Quat α) : p * q =
    (let ww := (p.z + p.x) * (q.x + q.y)
     let yy := (p.w - p.y) * (q.w + q.z)
     let zz := (p.w + p.y) * (q.w - q.z)
     let xx := ww + yy + zz
     let qq := lit 0.5 * (xx + (p.z - p.x) * (q.x - q.y))
     Quat.ofFloats
       (qq - ww + (p.z - p.y) * (q.y - q.z))
       (qq - xx + (p.x + p.w) * (q.x + q.w))
       (qq - yy + (p.w - p.x) * (q.y + q.z))
       (qq - zz + (p.z + p.y) * (q.w - q.x))) := rfl

/-- every component of the float product is within `2^-17 |p| |q|` of the Hamilton product -/
theorem Quat.mul_close (p q : Quat F32) (hp : p.Finite) (hq : q.Finite) (h1 : ‖exactQ p‖ ≤ 2 ^ 60)
    (h2 : ‖exactQ q‖ ≤ 2 ^ 60) (hl : 1 / 2 ^ 100 ≤ ‖exactQ p‖ * ‖exactQ q‖) :
    Close (p * q).x (exactQ p * exactQ q).imI (‖exactQ p‖ * ‖exactQ q‖) 13 (1 / 2 ^ 17) ∧
    Close (p * q).y (exactQ p * exactQ q).imJ (‖exactQ p‖ * ‖exactQ q‖) 13 (1 / 2 ^ 17) ∧
    Close (p * q).z (exactQ p * exactQ q).imK (‖exactQ p‖ * ‖exactQ q‖) 13 (1 / 2 ^ 17) ∧
    Close (p * q).w (exactQ p * exactQ q).re (‖exactQ p‖ * ‖exactQ q‖) 13 (1 / 2 ^ 17) := by
  have P0 : 0 ≤ ‖exactQ p‖ := norm_nonneg _
  have Q0 : 0 ≤ ‖exactQ q‖ := norm_nonneg _
  have hPQ : ‖exactQ p‖ * ‖exactQ q‖ ≤ 2 ^ 120 := by
    calc ‖exactQ p‖ * ‖exactQ q‖ ≤ 2 ^ 60 * 2 ^ 60 := by gcongr
      _ = _ := by norm_num
  have sp : ‖exactQ p‖ ^ 2 = (p.w.val : ℝ) ^ 2 + (p.x.val : ℝ) ^ 2 + (p.y.val : ℝ) ^ 2 + (p.z.val : ℝ) ^ 2 :=
    norm_sq_quat _
  have sq : ‖exactQ q‖ ^ 2 = (q.w.val : ℝ) ^ 2 + (q.x.val : ℝ) ^ 2 + (q.y.val : ℝ) ^ 2 + (q.z.val : ℝ) ^ 2 :=
    norm_sq_quat _
  have Rx : (exactQ p * exactQ q).imI = (p.w.val : ℝ) * q.x.val + p.x.val * q.w.val + p.y.val * q.z.val -
      p.z.val * q.y.val := by rw [imI_mul]; rfl
  have Ry : (exactQ p * exactQ q).imJ = (p.w.val : ℝ) * q.y.val - p.x.val * q.z.val + p.y.val * q.w.val +
      p.z.val * q.x.val := by rw [imJ_mul]; rfl
  have Rz : (exactQ p * exactQ q).imK = (p.w.val : ℝ) * q.z.val + p.x.val * q.y.val - p.y.val * q.x.val +
      p.z.val * q.w.val := by rw [imK_mul]; rfl
  have Rw : (exactQ p * exactQ q).re = (p.w.val : ℝ) * q.w.val - p.x.val * q.x.val - p.y.val * q.y.val -
      p.z.val * q.z.val := by rw [re_mul]; rfl
  rw [Rx, Ry, Rz, Rw, quat_mul_def]
  have PQ0 : 0 ≤ ‖exactQ p‖ * ‖exactQ q‖ := by positivity
  generalize ‖exactQ p‖ = P at *
  generalize ‖exactQ q‖ = Q at *
  have P1 : P ≤ 2 ^ 120 := h1.trans (by norm_num)
  have Q1 : Q ≤ 2 ^ 120 := h2.trans (by norm_num)
  obtain ⟨fpx, fpy, fpz, fpw⟩ : p.x.IsFin = true ∧ p.y.IsFin = true ∧ p.z.IsFin = true ∧ p.w.IsFin = true :=
    ⟨hp 0, hp 1, hp 2, hp 3⟩
  obtain ⟨fqx, fqy, fqz, fqw⟩ : q.x.IsFin = true ∧ q.y.IsFin = true ∧ q.z.IsFin = true ∧ q.w.IsFin = true :=
    ⟨hq 0, hq 1, hq 2, hq 3⟩
  have px := sq_nonneg (p.x.val : ℝ)
  have py := sq_nonneg (p.y.val : ℝ)
  have pz := sq_nonneg (p.z.val : ℝ)
  have pw := sq_nonneg (p.w.val : ℝ)
  have qx := sq_nonneg (q.x.val : ℝ)
  have qy := sq_nonneg (q.y.val : ℝ)
  have qz := sq_nonneg (q.z.val : ℝ)
  have qw := sq_nonneg (q.w.val : ℝ)
  have ww := (Pair.add fpz fpx P0 P1 (by linarith)).mul (Pair.add fqx fqy Q0 Q1 (by linarith)) P0 Q0 hPQ hl
  have yy := (Pair.sub fpw fpy P0 P1 (by linarith)).mul (Pair.add fqw fqz Q0 Q1 (by linarith)) P0 Q0 hPQ hl
  have zz := (Pair.add fpw fpy P0 P1 (by linarith)).mul (Pair.sub fqw fqz Q0 Q1 (by linarith)) P0 Q0 hPQ hl
  have vv := (Pair.sub fpz fpx P0 P1 (by linarith)).mul (Pair.sub fqx fqy Q0 Q1 (by linarith)) P0 Q0 hPQ hl
  have fw := (Pair.sub fpz fpy P0 P1 (by linarith)).mul (Pair.sub fqy fqz Q0 Q1 (by linarith)) P0 Q0 hPQ hl
  have fx := (Pair.add fpx fpw P0 P1 (by linarith)).mul (Pair.add fqx fqw Q0 Q1 (by linarith)) P0 Q0 hPQ hl
  have fy := (Pair.sub fpw fpx P0 P1 (by linarith)).mul (Pair.add fqy fqz Q0 Q1 (by linarith)) P0 Q0 hPQ hl
  have fz := (Pair.add fpz fpy P0 P1 (by linarith)).mul (Pair.sub fqw fqx Q0 Q1 (by linarith)) P0 Q0 hPQ hl
  have xx := ((ww.add yy PQ0 hPQ (by norm_num)).add zz PQ0 hPQ (by norm_num)).weaken PQ0
    (M' := 6.003) (E' := 34.2 / 2 ^ 24) (by norm_num) (by norm_num)
  have qq := (Close.lit_mul val_lit_half.1 val_lit_half.2 (by norm_num) (xx.add vv PQ0 hPQ (by norm_num)) PQ0
    (by norm_num) (by norm_num) hPQ hl (by norm_num)).weaken PQ0
    (M' := 4.002) (E' := 29.3 / 2 ^ 24) (by norm_num) (by norm_num)
  refine ⟨?_, ?_, ?_, ?_⟩
  · exact (qq.last xx fx PQ0 hPQ le_rfl le_rfl).congr (by ring)
  · exact (qq.last yy fy PQ0 hPQ (by norm_num) (by norm_num)).congr (by ring)
  · exact (qq.last zz fz PQ0 hPQ (by norm_num) (by norm_num)).congr (by ring)
  · exact (qq.last ww fw PQ0 hPQ (by norm_num) (by norm_num)).congr (by ring)

theorem Quat.mul_norm (p q : Quat F32) (hp : p.Finite) (hq : q.Finite) (h1 : ‖exactQ p‖ ≤ 2 ^ 60)
    (h2 : ‖exactQ q‖ ≤ 2 ^ 60) (hl : 1 / 2 ^ 100 ≤ ‖exactQ p‖ * ‖exactQ q‖) :
    (p * q).Finite ∧ ‖exactQ (p * q) - exactQ p * exactQ q‖ ≤ 1 / 2 ^ 16 * (‖exactQ p‖ * ‖exactQ q‖) := by
  obtain ⟨cx, cy, cz, cw⟩ := Quat.mul_close p q hp hq h1 h2 hl
  refine ⟨fun i => by fin_cases i <;> [exact cx.fin; exact cy.fin; exact cz.fin; exact cw.fin], ?_⟩
  have PQ0 : 0 ≤ ‖exactQ p‖ * ‖exactQ q‖ := by positivity
  have := quat_norm_le (a := exactQ (p * q) - exactQ p * exactQ q)
    (e := 1 / 2 ^ 17 * (‖exactQ p‖ * ‖exactQ q‖)) (by positivity) (by rw [re_sub]; exact cw.err)
    (by rw [imI_sub]; exact cx.err) (by rw [imJ_sub]; exact cy.err) (by rw [imK_sub]; exact cz.err)
  refine this.trans (le_of_eq ?_)
  ring

end Zcm
