import Verif.Model.MatrixTransform
import Verif.Lemmas.F32Length
import Verif.Lemmas.F32Rotate
import Verif.Spec.Turn

/-!
# Rotations from angles in binary32, given a good `sinf` and `cosf`
-/

set_option exponentiation.threshold 300

namespace Zcm

open Quaternion F32

section Generic

variable {α : Type} [Add α] [Sub α] [Mul α] [Div α] [Neg α] [FloatOps α] [Libm α]
  [LT α] [DecidableLT α] [LE α] [DecidableLE α] [BEq α]

/-- the 3x3 matrix `rotate(mat4, float, vec3)` multiplies with -/
def rotM (c s : α) (n : V3 α) : M3 α :=
  ⟨⟨c + (lit 1 - c) * n.x * n.x, (lit 1 - c) * n.x * n.y + s * n.z, (lit 1 - c) * n.x * n.z - s * n.y⟩,
   ⟨(lit 1 - c) * n.y * n.x - s * n.z, c + (lit 1 - c) * n.y * n.y, (lit 1 - c) * n.y * n.z + s * n.x⟩,
   ⟨(lit 1 - c) * n.z * n.x + s * n.y, (lit 1 - c) * n.z * n.y - s * n.x, c + (lit 1 - c) * n.z * n.z⟩⟩

omit [Neg α] [LT α] [DecidableLT α] [LE α] [DecidableLE α] [BEq α] in
theorem rotate_def (m : M4 α) (a : α) (v : V3 α) :
    M4.rotate m a v = (let R := rotM (Libm.cosf a) (Libm.sinf a) (V3.normalize v)
      (⟨m.c0 * R.c0.x + m.c1 * R.c0.y + m.c2 * R.c0.z, m.c0 * R.c1.x + m.c1 * R.c1.y + m.c2 * R.c1.z,
        m.c0 * R.c2.x + m.c1 * R.c2.y + m.c2 * R.c2.z, m.c3⟩ : M4 α)) := rfl

omit [Sub α] [Div α] [Neg α] [FloatOps α] [Libm α] [LT α] [DecidableLT α] [LE α] [DecidableLE α] [BEq α] in
theorem combine_entry (m : M4 α) (R : M3 α) (c : Fin 3) (r : Fin 4) :
    entry (⟨m.c0 * R.c0.x + m.c1 * R.c0.y + m.c2 * R.c0.z, m.c0 * R.c1.x + m.c1 * R.c1.y + m.c2 * R.c1.z,
        m.c0 * R.c2.x + m.c1 * R.c2.y + m.c2 * R.c2.z, m.c3⟩ : M4 α) c.castSucc r =
      entry m 0 r * entry R c 0 + entry m 1 r * entry R c 1 + entry m 2 r * entry R c 2 := by
  fin_cases c <;> fin_cases r <;> rfl

omit [Neg α] [LT α] [DecidableLT α] [LE α] [DecidableLE α] [BEq α] in
theorem rotate_entry (m : M4 α) (a : α) (v : V3 α) (c : Fin 3) (r : Fin 4) :
    entry (M4.rotate m a v) c.castSucc r =
      entry m 0 r * entry (rotM (Libm.cosf a) (Libm.sinf a) (V3.normalize v)) c 0 +
      entry m 1 r * entry (rotM (Libm.cosf a) (Libm.sinf a) (V3.normalize v)) c 1 +
      entry m 2 r * entry (rotM (Libm.cosf a) (Libm.sinf a) (V3.normalize v)) c 2 := by
  rw [rotate_def]
  exact combine_entry _ _ c r

omit [Neg α] [LT α] [DecidableLT α] [LE α] [DecidableLE α] [BEq α] in
theorem rotate_last (m : M4 α) (a : α) (v : V3 α) (r : Fin 4) : entry (M4.rotate m a v) 3 r = entry m 3 r := by
  have h : (M4.rotate m a v).c3 = m.c3 := rfl
  exact congrArg (fun c => coord c r) h

omit [Add α] [Sub α] [Div α] [Neg α] [LT α] [DecidableLT α] [LE α] [DecidableLE α] [BEq α] in
theorem angleAxis_def (a : α) (n : V3 α) :
    Quat.angleAxis a n = (let s := Libm.sinf (a * lit 0.5)
      (⟨n.x * s, n.y * s, n.z * s, Libm.cosf (a * lit 0.5)⟩ : Quat α)) := rfl

omit [Neg α] [LT α] [DecidableLT α] [LE α] [DecidableLE α] [BEq α] in
theorem quatRotate_def (q : Quat α) (a : α) (v : V3 α) :
    Quat.rotate q a v = q * Quat.angleAxis a (V3.normalize v) := rfl

end Generic

/-- what the proofs use of the computed sine, cosine and axis -/
structure Turn (c s : F32) (n : V3 F32) (C S X Y Z : ℝ) : Prop where
  c : Close c C 1 1 (2 / 2 ^ 24)
  s : Close s S 1 1 (2 / 2 ^ 24)
  x : Close n.x X 1 1 (6.1 / 2 ^ 24)
  y : Close n.y Y 1 1 (6.1 / 2 ^ 24)
  z : Close n.z Z 1 1 (6.1 / 2 ^ 24)

theorem F32.Close.mul1 {x y : F32} {r s M E N F : ℝ} (hx : Close x r 1 M E) (hy : Close y s 1 N F) (hE : 0 ≤ E)
    (hM : 0 ≤ M) (hN : 0 ≤ N) (hF : 0 ≤ F) (hb : (M + E) * (N + F) ≤ 2 ^ 7) :
    Close (x * y) (r * s) 1 (M * N) (M * F + N * E + E * F + (M + E) * (N + F) / 2 ^ 24 + 1 / 2 ^ 50) := by
  have := hx.mul hy zero_le_one zero_le_one hE hM hN hF (by norm_num) (by norm_num) hb
  rwa [one_mul] at this

theorem F32.Close.one : Close (lit 1) 1 1 1 0 :=
  ⟨lit_one_real.1, by simp, by rw [lit_one_real.2]; simp⟩

theorem turn_temp {c n : F32} {C X : ℝ} (hc : Close c C 1 1 (2 / 2 ^ 24)) (hn : Close n X 1 1 (6.1 / 2 ^ 24)) :
    Close ((lit 1 - c) * n) ((1 - C) * X) 1 2 (18.3 / 2 ^ 24) :=
  (((Close.one.sub hc zero_le_one (by norm_num) (by norm_num)).weaken (M' := 2) (E' := 4.001 / 2 ^ 24) zero_le_one
    (by norm_num) (by norm_num)).mul1 hn (by norm_num) (by norm_num) (by norm_num) (by norm_num)
    (by norm_num)).weaken zero_le_one (by norm_num) (by norm_num)

theorem turn_temp2 {t n : F32} {T X : ℝ} (ht : Close t T 1 2 (18.3 / 2 ^ 24)) (hn : Close n X 1 1 (6.1 / 2 ^ 24)) :
    Close (t * n) (T * X) 1 2 (32.6 / 2 ^ 24) :=
  (ht.mul1 hn (by norm_num) (by norm_num) (by norm_num) (by norm_num) (by norm_num)).weaken zero_le_one
    (by norm_num) (by norm_num)

theorem turn_sin {s n : F32} {S X : ℝ} (hs : Close s S 1 1 (2 / 2 ^ 24)) (hn : Close n X 1 1 (6.1 / 2 ^ 24)) :
    Close (s * n) (S * X) 1 1 (9.2 / 2 ^ 24) :=
  (hs.mul1 hn (by norm_num) (by norm_num) (by norm_num) (by norm_num) (by norm_num)).weaken zero_le_one
    (by norm_num) (by norm_num)

theorem turn_diag {c t n : F32} {C T X : ℝ} (hc : Close c C 1 1 (2 / 2 ^ 24)) (ht : Close t T 1 2 (18.3 / 2 ^ 24))
    (hn : Close n X 1 1 (6.1 / 2 ^ 24)) : Close (c + t * n) (C + T * X) 1 3 (45 / 2 ^ 24) :=
  (hc.add (turn_temp2 ht hn) zero_le_one (by norm_num) (by norm_num)).weaken zero_le_one (by norm_num) (by norm_num)

theorem turn_add {t n s k : F32} {T X S K : ℝ} (ht : Close t T 1 2 (18.3 / 2 ^ 24)) (hn : Close n X 1 1 (6.1 / 2 ^ 24))
    (hs : Close s S 1 1 (2 / 2 ^ 24)) (hk : Close k K 1 1 (6.1 / 2 ^ 24)) :
    Close (t * n + s * k) (T * X + S * K) 1 3 (45 / 2 ^ 24) :=
  ((turn_temp2 ht hn).add (turn_sin hs hk) zero_le_one (by norm_num) (by norm_num)).weaken zero_le_one
    (by norm_num) (by norm_num)

theorem turn_sub {t n s k : F32} {T X S K : ℝ} (ht : Close t T 1 2 (18.3 / 2 ^ 24)) (hn : Close n X 1 1 (6.1 / 2 ^ 24))
    (hs : Close s S 1 1 (2 / 2 ^ 24)) (hk : Close k K 1 1 (6.1 / 2 ^ 24)) :
    Close (t * n - s * k) (T * X - S * K) 1 3 (45 / 2 ^ 24) :=
  ((turn_temp2 ht hn).sub (turn_sin hs hk) zero_le_one (by norm_num) (by norm_num)).weaken zero_le_one
    (by norm_num) (by norm_num)

theorem rodrigues_apply (θ : ℝ) (n p : Fin 3 → ℝ) :
    rodrigues θ n p 0 = Real.cos θ * p 0 + Real.sin θ * (n 1 * p 2 - n 2 * p 1) +
      (1 - Real.cos θ) * (n 0 * p 0 + n 1 * p 1 + n 2 * p 2) * n 0 ∧
    rodrigues θ n p 1 = Real.cos θ * p 1 + Real.sin θ * (n 2 * p 0 - n 0 * p 2) +
      (1 - Real.cos θ) * (n 0 * p 0 + n 1 * p 1 + n 2 * p 2) * n 1 ∧
    rodrigues θ n p 2 = Real.cos θ * p 2 + Real.sin θ * (n 0 * p 1 - n 1 * p 0) +
      (1 - Real.cos θ) * (n 0 * p 0 + n 1 * p 1 + n 2 * p 2) * n 2 := by
  unfold rodrigues
  rw [Matrix.vec3_dotProduct, cross_apply]
  exact ⟨rfl, rfl, rfl⟩

theorem rodrigues_entry (θ : ℝ) (n : Fin 3 → ℝ) (c r : Fin 3) : rodrigues θ n (Pi.single c 1) r =
    entry (⟨⟨Real.cos θ + (1 - Real.cos θ) * n 0 * n 0, (1 - Real.cos θ) * n 0 * n 1 + Real.sin θ * n 2,
        (1 - Real.cos θ) * n 0 * n 2 - Real.sin θ * n 1⟩,
      ⟨(1 - Real.cos θ) * n 1 * n 0 - Real.sin θ * n 2, Real.cos θ + (1 - Real.cos θ) * n 1 * n 1,
        (1 - Real.cos θ) * n 1 * n 2 + Real.sin θ * n 0⟩,
      ⟨(1 - Real.cos θ) * n 2 * n 0 + Real.sin θ * n 1, (1 - Real.cos θ) * n 2 * n 1 - Real.sin θ * n 0,
        Real.cos θ + (1 - Real.cos θ) * n 2 * n 2⟩⟩ : M3 ℝ) c r := by
  obtain ⟨h0, h1, h2⟩ := rodrigues_apply θ n (Pi.single c 1)
  fin_cases r
  · refine h0.trans ?_
    fin_cases c <;> simp [entry, coord] <;> ring
  · refine h1.trans ?_
    fin_cases c <;> simp [entry, coord] <;> ring
  · refine h2.trans ?_
    fin_cases c <;> simp [entry, coord] <;> ring

theorem entry_rel {β γ : Type} (P : β → γ → Prop) {A : M3 β} {B : M3 γ} (h00 : P A.c0.x B.c0.x) (h01 : P A.c0.y B.c0.y)
    (h02 : P A.c0.z B.c0.z) (h10 : P A.c1.x B.c1.x) (h11 : P A.c1.y B.c1.y) (h12 : P A.c1.z B.c1.z)
    (h20 : P A.c2.x B.c2.x) (h21 : P A.c2.y B.c2.y) (h22 : P A.c2.z B.c2.z) (i j : Fin 3) :
    P (entry A i j) (entry B i j) := by
  fin_cases i <;> fin_cases j <;> assumption

theorem Turn.entry {c s : F32} {n : V3 F32} {θ : ℝ} {N : Fin 3 → ℝ}
    (h : Turn c s n (Real.cos θ) (Real.sin θ) (N 0) (N 1) (N 2)) (i j : Fin 3) :
    Close (Entries.entry (rotM c s n) i j) (rodrigues θ N (Pi.single i 1) j) 1 3 (45 / 2 ^ 24) := by
  rw [rodrigues_entry]
  have tx := turn_temp h.c h.x
  have ty := turn_temp h.c h.y
  have tz := turn_temp h.c h.z
  exact entry_rel (fun x r => Close x r 1 3 (45 / 2 ^ 24)) (turn_diag h.c tx h.x) (turn_add tx h.y h.s h.z)
    (turn_sub tx h.z h.s h.y) (turn_sub ty h.x h.s h.z) (turn_diag h.c ty h.y) (turn_add ty h.z h.s h.x)
    (turn_add tz h.x h.s h.y) (turn_sub tz h.y h.s h.x) (turn_diag h.c tz h.z) i j

theorem direction_unit {v : V3 F32} (hv : Medium (coord v)) : ∑ i, direction v i ^ 2 = 1 := by
  unfold direction
  exact sum_sq_div (fun i => ((coord v i).val : ℝ)) (Real.sqrt_pos.1 hv.pos)

theorem direction_le {v : V3 F32} (hv : Medium (coord v)) (i : Fin 3) : |direction v i| ≤ 1 := by
  unfold direction
  rw [abs_div, abs_of_pos hv.pos, div_le_one hv.pos]
  exact abs_le_length (fun i => ((coord v i).val : ℝ)) i

theorem normalize_almost {v : V3 F32} (hv : Medium (coord v)) : AlmostUnit (coord v) (coord (V3.normalize v)) :=
  (sqLen3 hv).normalize hv fun i => by fin_cases i <;> rfl

theorem normalize_close {v : V3 F32} (hv : Medium (coord v)) (i : Fin 3) :
    Close (coord (V3.normalize v) i) (direction v i) 1 1 (6.1 / 2 ^ 24) := by
  have a := normalize_almost hv i
  refine ⟨a.1, by rw [one_mul]; exact direction_le hv i, a.2.trans ?_⟩
  have := direction_le hv i
  unfold direction at this
  rw [abs_div, abs_of_pos hv.pos] at this
  calc (6 : ℝ) / 2 ^ 24 * (|((coord v i).val : ℝ)| / exactLength (coord v)) + 1 / 2 ^ 150
      ≤ 6 / 2 ^ 24 * 1 + 1 / 2 ^ 150 := by gcongr
    _ ≤ _ := by norm_num

/-- one entry of `m * R`, with `R` slightly wrong -/
theorem row_close {a0 a1 a2 x0 x1 x2 : F32} {r0 r1 r2 : ℝ} (f0 : a0.IsFin = true) (f1 : a1.IsFin = true)
    (f2 : a2.IsFin = true) (h0 : Close x0 r0 1 3 (45 / 2 ^ 24)) (h1 : Close x1 r1 1 3 (45 / 2 ^ 24))
    (h2 : Close x2 r2 1 3 (45 / 2 ^ 24)) (b0 : |r0| ≤ 1) (b1 : |r1| ≤ 1) (b2 : |r2| ≤ 1)
    (hs : |(a0.val : ℝ)| + |(a1.val : ℝ)| + |(a2.val : ℝ)| ≤ 2 ^ 125) :
    (a0 * x0 + a1 * x1 + a2 * x2).IsFin = true ∧
    |((a0 * x0 + a1 * x1 + a2 * x2).val : ℝ) - (a0.val * r0 + a1.val * r1 + a2.val * r2)| ≤
      49 / 2 ^ 24 * (|(a0.val : ℝ)| + |(a1.val : ℝ)| + |(a2.val : ℝ)|) + 3 / 2 ^ 149 := by
  have ab : ∀ {x : F32} {r : ℝ}, Close x r 1 3 (45 / 2 ^ 24) → |r| ≤ 1 → |(x.val : ℝ)| ≤ 1 + 45 / 2 ^ 24 := by
    intro x r h b
    have := (h.tighten (M' := 1) (by rwa [one_mul])).abs_le
    rwa [mul_one] at this
  have c0 := ab h0 b0
  have c1 := ab h1 b1
  have c2 := ab h2 b2
  have A := accurate3 a0 x0 a1 x1 a2 x2
  simp only [AccurateSum, Fin.sum_univ_three] at A
  obtain ⟨A1, A2⟩ := A
  have p : ∀ {a x : F32}, |(x.val : ℝ)| ≤ 1 + 45 / 2 ^ 24 → |(a.val : ℝ) * x.val| ≤ (1 + 45 / 2 ^ 24) * |(a.val : ℝ)| := by
    intro a x h
    rw [abs_mul, mul_comm]
    gcongr
  have p0 := p (a := a0) c0
  have p1 := p (a := a1) c1
  have p2 := p (a := a2) c2
  have sr : |(a0.val : ℝ) * x0.val| + |(a1.val : ℝ) * x1.val| + |(a2.val : ℝ) * x2.val| ≤
      (1 + 45 / 2 ^ 24) * (|(a0.val : ℝ)| + |(a1.val : ℝ)| + |(a2.val : ℝ)|) := by linarith
  have sq : |a0.val * x0.val| + |a1.val * x1.val| + |a2.val * x2.val| ≤ 2 ^ 126 := by
    have : |(a0.val : ℝ) * x0.val| + |(a1.val : ℝ) * x1.val| + |(a2.val : ℝ) * x2.val| ≤ 2 ^ 126 := by
      refine sr.trans ((mul_le_mul_of_nonneg_left hs (by norm_num)).trans ?_)
      norm_num
    exact_mod_cast this
  have f : (a0 * x0 + a1 * x1 + a2 * x2).IsFin = true := A1 (fun i => by
    fin_cases i <;> [exact ⟨f0, h0.fin⟩; exact ⟨f1, h1.fin⟩; exact ⟨f2, h2.fin⟩]) sq
  refine ⟨f, ?_⟩
  have e : |((a0 * x0 + a1 * x1 + a2 * x2).val : ℝ) - (a0.val * x0.val + a1.val * x1.val + a2.val * x2.val)| ≤
      ((1 + 1 / 2 ^ 24) ^ 3 - 1) * (|(a0.val : ℝ) * x0.val| + |(a1.val : ℝ) * x1.val| + |(a2.val : ℝ) * x2.val|) +
        3 / 2 ^ 149 := by
    have := A2 f
    have h : ((|(a0 * x0 + a1 * x1 + a2 * x2).val - (a0.val * x0.val + a1.val * x1.val + a2.val * x2.val)| : ℚ) : ℝ) ≤ 
      ((((1 + 1 / 2 ^ 24) ^ 3 - 1) * (|a0.val * x0.val| + |a1.val * x1.val| + |a2.val * x2.val|) +
        3 / 2 ^ 149 : ℚ) : ℝ) := Rat.cast_le.2 this
    push_cast at h
    exact h
  have d : ∀ {a x : F32} {r : ℝ}, Close x r 1 3 (45 / 2 ^ 24) → |(a.val : ℝ) * x.val - a.val * r| ≤ 45 / 2 ^ 24 * |(a.val : ℝ)| := by
    intro a x r h
    rw [← mul_sub, abs_mul, mul_comm]
    have := h.err
    rw [mul_one] at this
    gcongr
  have d0 := d (a := a0) h0
  have d1 := d (a := a1) h1
  have d2 := d (a := a2) h2
  have d012 : |((a0.val : ℝ) * x0.val + a1.val * x1.val + a2.val * x2.val) - (a0.val * r0 + a1.val * r1 + a2.val * r2)| ≤
      45 / 2 ^ 24 * (|(a0.val : ℝ)| + |(a1.val : ℝ)| + |(a2.val : ℝ)|) := by
    calc _ = |((a0.val : ℝ) * x0.val - a0.val * r0) + (a1.val * x1.val - a1.val * r1) + (a2.val * x2.val - a2.val * r2)| := by
          congr 1; ring
      _ ≤ _ := (abs_add_three _ _ _).trans (by linarith)
  have t := abs_sub_le ((a0 * x0 + a1 * x1 + a2 * x2).val : ℝ) (a0.val * x0.val + a1.val * x1.val + a2.val * x2.val)
    (a0.val * r0 + a1.val * r1 + a2.val * r2)
  have m : ((1 + 1 / 2 ^ 24) ^ 3 - 1) * (|(a0.val : ℝ) * x0.val| + |(a1.val : ℝ) * x1.val| + |(a2.val : ℝ) * x2.val|) ≤
      4 / 2 ^ 24 * (|(a0.val : ℝ)| + |(a1.val : ℝ)| + |(a2.val : ℝ)|) := by
    calc _ ≤ ((1 + 1 / 2 ^ 24) ^ 3 - 1 : ℝ) * ((1 + 45 / 2 ^ 24) * (|(a0.val : ℝ)| + |(a1.val : ℝ)| + |(a2.val : ℝ)|)) := by
          gcongr
      _ = (((1 + 1 / 2 ^ 24) ^ 3 - 1 : ℝ) * (1 + 45 / 2 ^ 24)) * (|(a0.val : ℝ)| + |(a1.val : ℝ)| + |(a2.val : ℝ)|) := by ring
      _ ≤ _ := by gcongr; norm_num
  have w0 : 0 ≤ |(a0.val : ℝ)| + |(a1.val : ℝ)| + |(a2.val : ℝ)| := by positivity
  linarith

/-- rotations keep the length -/
theorem rodrigues_norm {θ : ℝ} {n : Fin 3 → ℝ} (hn : ∑ i, n i ^ 2 = 1) (p : Fin 3 → ℝ) :
    ∑ i, rodrigues θ n p i ^ 2 = ∑ i, p i ^ 2 := by
  obtain ⟨h0, h1, h2⟩ := rodrigues_apply θ n p
  rw [Fin.sum_univ_three] at hn ⊢
  rw [Fin.sum_univ_three, h0, h1, h2]
  have cs := Real.sin_sq_add_cos_sq θ
  generalize Real.cos θ = c at *
  generalize Real.sin θ = s at *
  clear h0 h1 h2
  generalize n 0 = x at *
  generalize n 1 = y at *
  generalize n 2 = z at *
  generalize p 0 = u at *
  generalize p 1 = v at *
  generalize p 2 = w at *
  grind

theorem rodrigues_col {θ : ℝ} {n : Fin 3 → ℝ} (hn : ∑ i, n i ^ 2 = 1) (c r : Fin 3) :
    |rodrigues θ n (Pi.single c 1) r| ≤ 1 := by
  have h := rodrigues_norm (θ := θ) hn (Pi.single c 1)
  have e : ∑ i, (Pi.single c 1 : Fin 3 → ℝ) i ^ 2 = 1 := by
    fin_cases c <;> simp [Fin.sum_univ_three]
  rw [e] at h
  apply abs_le_of_sq_le_sq _ zero_le_one
  rw [one_pow]
  refine le_of_le_of_eq ?_ h
  exact Finset.single_le_sum (f := fun i => rodrigues θ n (Pi.single c 1) i ^ 2) (fun i _ => sq_nonneg _) (Finset.mem_univ r)

variable [Libm F32]

theorem GoodTrig.cos (h : GoodTrig) {x : F32} (hx : x.IsFin = true) :
    Close (Libm.cosf x) (Real.cos x.val) 1 1 (2 / 2 ^ 24) :=
  ⟨(h x hx).2.1, by rw [one_mul]; exact Real.abs_cos_le_one _, (h x hx).2.2.trans (by norm_num)⟩

theorem GoodTrig.sin (h : GoodTrig) {x : F32} (hx : x.IsFin = true) :
    Close (Libm.sinf x) (Real.sin x.val) 1 1 (2 / 2 ^ 24) :=
  ⟨(h x hx).1.1, by rw [one_mul]; exact Real.abs_sin_le_one _, (h x hx).1.2.trans (by norm_num)⟩

theorem turn_of (h : GoodTrig) {a : F32} (ha : a.IsFin = true) {v : V3 F32} (hv : Medium (coord v)) :
    Turn (Libm.cosf a) (Libm.sinf a) (V3.normalize v) (Real.cos a.val) (Real.sin a.val) (direction v 0) (direction v 1)
      (direction v 2) :=
  ⟨h.cos ha, h.sin ha, normalize_close hv 0, normalize_close hv 1, normalize_close hv 2⟩

end Zcm
