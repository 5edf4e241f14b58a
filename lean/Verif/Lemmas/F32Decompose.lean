import Verif.Lemmas.F32LookAt
import Verif.Model.MatrixTransform

/-!
# `decompose_orthogonal` in binary32: running error analysis
-/

set_option exponentiation.threshold 300

namespace Zcm

open Quaternion F32 InnerProductGeometry NormedSpace RealInnerProductSpace

/-! ## The orientation -/

private theorem Near.cg {x : F32} {r s e : ℝ} (h : Near x r e) (hs : r = s) : Near x s e := hs ▸ h

/-- the factor of the other components -/
theorem near_half_root {b : F32} {B e : ℝ} (h : Near b (2 * B) e) (hB : 0.48 ≤ B) (hB' : B ≤ 1) (h0 : 0 ≤ e) (he : e ≤ 0.028) :
    Near (lit 0.5 / b) (0.25 / B) (0.56 * e + 0.55 / 2 ^ 24) := by
  obtain ⟨f, er⟩ := h
  obtain ⟨v, hv⟩ : ∃ v : ℝ, v = b.val := ⟨_, rfl⟩
  rw [← hv] at er
  have e' := abs_le.1 er
  have v0 : 0.932 ≤ v := by linarith
  have v1 : v ≤ 2.028 := by linarith
  have c := div_correct lit_half_val.1 f (by intro h; rw [h] at hv; norm_num at hv; linarith)
  rw [← hv, lit_half_val.2] at c
  have q0 : 0.2 ≤ 0.5 / v := by rw [le_div_iff₀ (by linarith)]; linarith
  have q1 : 0.5 / v ≤ 0.54 := by rw [div_le_iff₀ (by linarith)]; linarith
  have k : |0.5 / v - 0.25 / B| ≤ 0.56 * e := by
    rw [div_sub_div _ _ (by linarith) (by linarith), abs_div, abs_of_nonneg (show 0 ≤ v * B by nlinarith),
      div_le_iff₀ (by nlinarith)]
    have m : |0.5 * B - v * 0.25| = 0.25 * |v - 2 * B| := by
      rw [abs_sub_comm, show v * 0.25 - 0.5 * B = 0.25 * (v - 2 * B) by ring, abs_mul, abs_of_nonneg (by norm_num : (0 : ℝ) ≤ 0.25)]
    rw [m]
    have : 0.932 * 0.48 ≤ v * B := by gcongr
    nlinarith
  generalize 0.5 / v = r at *
  obtain ⟨fr, er⟩ := c.rel (by rw [abs_of_nonneg (by linarith)]; norm_num at *; linarith)
    (by rw [abs_of_nonneg (by linarith)]; norm_num at *; linarith)
  refine ⟨fr, ?_⟩
  rw [abs_of_nonneg (show 0 ≤ r by linarith)] at er
  have := abs_sub_le ((lit 0.5 / b).val : ℝ) r (0.25 / B)
  linarith

/-- all four components when a large one has been found -/
theorem orient_branch {f d1 d2 d3 : F32} {B X Y Z δ : ℝ} (hf : Near f (4 * B ^ 2 - 1) (3 * δ + 5.2 / 2 ^ 24))
    (h1 : Near d1 (4 * B * X) (2 * δ + 2.1 / 2 ^ 24)) (h2 : Near d2 (4 * B * Y) (2 * δ + 2.1 / 2 ^ 24))
    (h3 : Near d3 (4 * B * Z) (2 * δ + 2.1 / 2 ^ 24)) (hB : 0.48 ≤ B) (hn : B ^ 2 + X ^ 2 + Y ^ 2 + Z ^ 2 = 1)
    (h0 : 0 ≤ δ) (hd : δ ≤ 1 / 64) :
    Near (lit 0.5 * F.sqrt (f + lit 1)) B (3 * δ + 15 / 2 ^ 24) ∧
    Near (lit 0.5 / F.sqrt (f + lit 1) * d1) X (3 * δ + 15 / 2 ^ 24) ∧
    Near (lit 0.5 / F.sqrt (f + lit 1) * d2) Y (3 * δ + 15 / 2 ^ 24) ∧
    Near (lit 0.5 / F.sqrt (f + lit 1) * d3) Z (3 * δ + 15 / 2 ^ 24) := by
  have B1 : B ≤ 1 := by nlinarith [sq_nonneg X, sq_nonneg Y, sq_nonneg Z]
  have b := near_biggest hf hB B1 h0 hd
  have B2 : 0.2304 ≤ B ^ 2 := by nlinarith
  have B3 : B ^ 2 ≤ 1 := by nlinarith
  have c := near_close hf (M := 3) (by rw [abs_le]; constructor <;> linarith)
  have one : Close (lit 1 : F32) 1 1 1 0 := ⟨lit_one_real.1, by norm_num, by rw [lit_one_real.2]; norm_num⟩
  have a := close_near (c.add one zero_le_one (by norm_num) (by linarith))
  rw [sub_add_cancel] at a
  have a' := a.mono (f := 3 * δ + 9.4 / 2 ^ 24) (by linarith)
  have u := (near_half_root (near_sqrt a' hB B1 (by linarith)) hB B1 (by linarith) (by linarith)).mono
    (f := 0.92 * δ + 6.2 / 2 ^ 24) (by linarith)
  rw [F32.mul_comm' (lit 0.5), F32.mul_comm' _ d1, F32.mul_comm' _ d2, F32.mul_comm' _ d3]
  exact ⟨b.mono (by linarith), near_other h1 u hB (by nlinarith [sq_nonneg Y, sq_nonneg Z]) h0 hd,
    near_other h2 u hB (by nlinarith [sq_nonneg X, sq_nonneg Z]) h0 hd,
    near_other h3 u hB (by nlinarith [sq_nonneg X, sq_nonneg Y]) h0 hd⟩

/-- `orient_branch` whichever sign the large component has -/
theorem orient_signed {f d1 d2 d3 : F32} {B X Y Z δ : ℝ} (hf : Near f (4 * B ^ 2 - 1) (3 * δ + 5.2 / 2 ^ 24))
    (h1 : Near d1 (4 * B * X) (2 * δ + 2.1 / 2 ^ 24)) (h2 : Near d2 (4 * B * Y) (2 * δ + 2.1 / 2 ^ 24))
    (h3 : Near d3 (4 * B * Z) (2 * δ + 2.1 / 2 ^ 24)) (hB : 0.2304 ≤ B ^ 2) (hn : B ^ 2 + X ^ 2 + Y ^ 2 + Z ^ 2 = 1)
    (h0 : 0 ≤ δ) (hd : δ ≤ 1 / 64) : ∃ s : ℝ, (s = 1 ∨ s = -1) ∧
    Near (lit 0.5 * F.sqrt (f + lit 1)) (s * B) (3 * δ + 15 / 2 ^ 24) ∧
    Near (lit 0.5 / F.sqrt (f + lit 1) * d1) (s * X) (3 * δ + 15 / 2 ^ 24) ∧
    Near (lit 0.5 / F.sqrt (f + lit 1) * d2) (s * Y) (3 * δ + 15 / 2 ^ 24) ∧
    Near (lit 0.5 / F.sqrt (f + lit 1) * d3) (s * Z) (3 * δ + 15 / 2 ^ 24) := by
  have hB : 0.48 ≤ |B| := by
    rw [← abs_of_nonneg (by norm_num : (0 : ℝ) ≤ 0.48)]
    exact sq_le_sq.1 (by norm_num; linarith)
  rcases le_total 0 B with b | b
  · rw [abs_of_nonneg b] at hB
    refine ⟨1, Or.inl rfl, ?_⟩
    simp only [one_mul]
    exact orient_branch hf h1 h2 h3 hB hn h0 hd
  · rw [abs_of_nonpos b] at hB
    refine ⟨-1, Or.inr rfl, ?_⟩
    simp only [neg_one_mul]
    have e : ∀ T : ℝ, 4 * B * T = 4 * -B * -T := fun T => by ring
    rw [e] at h1 h2 h3
    exact orient_branch (by rwa [neg_sq]) h1 h2 h3 hB (by simpa only [neg_sq] using hn) h0 hd

/-- the orientation part of `decompose_orthogonal` as a function of the normalised columns -/
def orient32 (Row : M3 F32) (orientation0 : Quat F32) : Quat F32 :=
  let trace : F32 := Row.c0.x + Row.c1.y + Row.c2.z
  if trace > lit 0 then
    let root : F32 := F.sqrt (trace + lit 1)
    let o : Quat F32 := { orientation0 with w := lit 0.5 * root }
    let root : F32 := lit 0.5 / root
    let o : Quat F32 := { o with x := root * (Row.c1.z - Row.c2.y) }
    let o : Quat F32 := { o with y := root * (Row.c2.x - Row.c0.z) }
    let o : Quat F32 := { o with z := root * (Row.c0.y - Row.c1.x) }
    o
  else
    let i : Fin 3 := 0
    let i : Fin 3 := if Row.c1.y > Row.c0.x then 1 else i
    let i : Fin 3 := if Row.c2.z > (Row.row i).idx i then 2 else i
    let j : Fin 3 := Next i
    let k : Fin 3 := Next j
    let root : F32 := F.sqrt ((Row.row i).idx i - (Row.row j).idx j - (Row.row k).idx k + lit 1)
    let o : Quat F32 := orientation0.setIdx i (lit 0.5 * root)
    let root : F32 := lit 0.5 / root
    let o : Quat F32 := o.setIdx j (root * ((Row.row i).idx j + (Row.row j).idx i))
    let o : Quat F32 := o.setIdx k (root * ((Row.row i).idx k + (Row.row k).idx i))
    let o : Quat F32 := { o with w := root * ((Row.row j).idx k - (Row.row k).idx j) }
    o

theorem lit_zero_val : (lit 0 : F32).IsFin = true ∧ (((lit 0 : F32).val : ℚ) : ℝ) = 0 := by
  have h : (lit 0 : F32).IsFin = true ∧ (lit 0 : F32).val = 0 := ⟨by decide +kernel, by decide +kernel⟩
  exact ⟨h.1, by rw [h.2]; norm_num⟩

/-- the four cases of the orientation -/
theorem orient32_cases (m : M3 F32) (o : Quat F32) {P : Quat F32 → Prop}
    (fW : (m.c0.x + m.c1.y + m.c2.z).IsFin = true) (fx : m.c0.x.IsFin = true) (fy : m.c1.y.IsFin = true) (fz : m.c2.z.IsFin = true)
    (h0 : (0 : ℝ) ≤ (m.c0.x + m.c1.y + m.c2.z).val →
      P (let r := F.sqrt (m.c0.x + m.c1.y + m.c2.z + lit 1)
         ⟨lit 0.5 / r * (m.c1.z - m.c2.y), lit 0.5 / r * (m.c2.x - m.c0.z), lit 0.5 / r * (m.c0.y - m.c1.x), lit 0.5 * r⟩))
    (h1 : ((m.c0.x + m.c1.y + m.c2.z).val : ℝ) ≤ 0 → (m.c1.y.val : ℝ) ≤ m.c0.x.val → (m.c2.z.val : ℝ) ≤ m.c0.x.val →
      P (let r := F.sqrt (m.c0.x - m.c1.y - m.c2.z + lit 1)
         ⟨lit 0.5 * r, lit 0.5 / r * (m.c0.y + m.c1.x), lit 0.5 / r * (m.c0.z + m.c2.x), lit 0.5 / r * (m.c1.z - m.c2.y)⟩))
    (h2 : ((m.c0.x + m.c1.y + m.c2.z).val : ℝ) ≤ 0 → (m.c0.x.val : ℝ) ≤ m.c1.y.val → (m.c2.z.val : ℝ) ≤ m.c1.y.val →
      P (let r := F.sqrt (m.c1.y - m.c2.z - m.c0.x + lit 1)
         ⟨lit 0.5 / r * (m.c1.x + m.c0.y), lit 0.5 * r, lit 0.5 / r * (m.c1.z + m.c2.y), lit 0.5 / r * (m.c2.x - m.c0.z)⟩))
    (h3 : ((m.c0.x + m.c1.y + m.c2.z).val : ℝ) ≤ 0 → (m.c0.x.val : ℝ) ≤ m.c2.z.val → (m.c1.y.val : ℝ) ≤ m.c2.z.val →
      P (let r := F.sqrt (m.c2.z - m.c0.x - m.c1.y + lit 1)
         ⟨lit 0.5 / r * (m.c2.x + m.c0.z), lit 0.5 / r * (m.c2.y + m.c1.z), lit 0.5 * r, lit 0.5 / r * (m.c0.y - m.c1.x)⟩)) :
    P (orient32 m o) := by
  unfold orient32
  dsimp only
  by_cases c0 : m.c0.x + m.c1.y + m.c2.z > lit 0
  · rw [if_pos c0]
    have := lt_val_of_lt c0
    rw [lit_zero_val.2] at this
    exact h0 this.le
  · rw [if_neg c0]
    have l0 := le_val_of_not_lt lit_zero_val.1 fW c0
    rw [lit_zero_val.2] at l0
    by_cases c1 : m.c1.y > m.c0.x
    · have l1 := lt_val_of_lt c1
      rw [if_pos c1]
      by_cases c2 : m.c2.z > (m.row 1).idx 1
      · have l2 : (m.c1.y.val : ℝ) < m.c2.z.val := lt_val_of_lt c2
        rw [if_pos c2]
        exact h3 l0 (by linarith) l2.le
      · have l2 : (m.c2.z.val : ℝ) ≤ m.c1.y.val := le_val_of_not_lt fy fz c2
        rw [if_neg c2]
        exact h2 l0 l1.le l2
    · have l1 := le_val_of_not_lt fx fy c1
      rw [if_neg c1]
      by_cases c2 : m.c2.z > (m.row 0).idx 0
      · have l2 : (m.c0.x.val : ℝ) < m.c2.z.val := lt_val_of_lt c2
        rw [if_pos c2]
        exact h3 l0 l2.le (by linarith)
      · have l2 : (m.c2.z.val : ℝ) ≤ m.c0.x.val := le_val_of_not_lt fx fz c2
        rw [if_neg c2]
        exact h1 l0 l1 l2

/-- the largest diagonal entry belongs to a large component when the trace is not positive -/
theorem orient_largest {w a b c t X Y Z e δ : ℝ} (n : w ^ 2 + a ^ 2 + b ^ 2 + c ^ 2 = 1) (ht : |t - (4 * w ^ 2 - 1)| ≤ e)
    (hX : |X - (w ^ 2 + a ^ 2 - b ^ 2 - c ^ 2)| ≤ δ) (hY : |Y - (w ^ 2 - a ^ 2 + b ^ 2 - c ^ 2)| ≤ δ)
    (hZ : |Z - (w ^ 2 - a ^ 2 - b ^ 2 + c ^ 2)| ≤ δ) (h0 : t ≤ 0) (h1 : Y ≤ X) (h2 : Z ≤ X) (he : e ≤ 0.0475) (hd : δ ≤ 1 / 64) :
    0.2304 ≤ a ^ 2 := by
  rw [abs_le] at ht hX hY hZ
  linarith

theorem orient32_near {m : M3 F32} (o : Quat F32) {Q : ℍ[ℝ]} {δ : ℝ} (hQ : ‖Q‖ = 1) (hf : ∀ c r, (entry m c r).IsFin = true)
    (hm : ∀ c, ‖exactColumn m c - Q * axisQ c * Q⁻¹‖ ≤ δ) (hd : δ ≤ 1 / 64) :
    (orient32 m o).Finite ∧
    (‖exactQ (orient32 m o) - Q‖ ≤ 2 * (3 * δ + 15 / 2 ^ 24) ∨ ‖exactQ (orient32 m o) + Q‖ ≤ 2 * (3 * δ + 15 / 2 ^ 24)) := by
  have d0 : 0 ≤ δ := (norm_nonneg _).trans (hm 0)
  have n : Q.re ^ 2 + Q.imI ^ 2 + Q.imJ ^ 2 + Q.imK ^ 2 = 1 := by rw [← norm_sq_quat, hQ]; norm_num
  obtain ⟨a0, a1, a2⟩ := near_entries hf hm 0
  obtain ⟨b0, b1, b2⟩ := near_entries hf hm 1
  obtain ⟨c0, c1, c2⟩ := near_entries hf hm 2
  obtain ⟨-, p0, p1, p2⟩ := abs_part_le (Q * axisQ 0 * Q⁻¹)
  obtain ⟨-, q0, q1, q2⟩ := abs_part_le (Q * axisQ 1 * Q⁻¹)
  obtain ⟨-, r0, r1, r2⟩ := abs_part_le (Q * axisQ 2 * Q⁻¹)
  rw [norm_turned hQ] at p0 p1 p2 q0 q1 q2 r0 r1 r2
  obtain ⟨x0, x1, x2⟩ := col0 hQ
  obtain ⟨y0, y1, y2⟩ := col1 hQ
  obtain ⟨z0, z1, z2⟩ := col2 hQ
  rw [x0] at a0 p0
  rw [x1] at a1 p1
  rw [x2] at a2 p2
  rw [y0] at b0 q0
  rw [y1] at b1 q1
  rw [y2] at b2 q2
  rw [z0] at c0 r0
  rw [z1] at c1 r1
  rw [z2] at c2 r2
  clear x0 x1 x2 y0 y1 y2 z0 z1 z2 hm hf
  change Near m.c0.x _ δ at a0
  change Near m.c0.y _ δ at a1
  change Near m.c0.z _ δ at a2
  change Near m.c1.x _ δ at b0
  change Near m.c1.y _ δ at b1
  change Near m.c1.z _ δ at b2
  change Near m.c2.x _ δ at c0
  change Near m.c2.y _ δ at c1
  change Near m.c2.z _ δ at c2
  have W : Near (m.c0.x + m.c1.y + m.c2.z) (4 * Q.re ^ 2 - 1) _ := (near_add3 a0 b1 c2 p0 q1 r2 hd).cg (by linear_combination -n)
  have X : Near (m.c0.x - m.c1.y - m.c2.z) (4 * Q.imI ^ 2 - 1) _ := (near_sub3 a0 b1 c2 p0 q1 r2 hd).cg (by linear_combination -n)
  have Y : Near (m.c1.y - m.c2.z - m.c0.x) (4 * Q.imJ ^ 2 - 1) _ := (near_sub3 b1 c2 a0 q1 r2 p0 hd).cg (by linear_combination -n)
  have Z : Near (m.c2.z - m.c0.x - m.c1.y) (4 * Q.imK ^ 2 - 1) _ := (near_sub3 c2 a0 b1 r2 p0 q1 hd).cg (by linear_combination -n)
  have wx := near_sub2 b2 c1 q2 r1 hd
  have wy := near_sub2 c0 a2 r0 p2 hd
  have wz := near_sub2 a1 b0 p1 q0 hd
  have xy := near_add2 a1 b0 p1 q0 hd
  have yx := near_add2 b0 a1 q0 p1 hd
  have xz := near_add2 a2 c0 p2 r0 hd
  have zx := near_add2 c0 a2 r0 p2 hd
  have yz := near_add2 b2 c1 q2 r1 hd
  have zy := near_add2 c1 b2 r1 q2 hd
  have e1 : 3 * δ + 5.2 / 2 ^ 24 ≤ 0.0475 := by linarith
  refine orient32_cases m o (P := fun q => q.Finite ∧ (‖exactQ q - Q‖ ≤ _ ∨ ‖exactQ q + Q‖ ≤ _)) W.1 a0.1 b1.1 c2.1 ?_ ?_ ?_ ?_
  · intro l0
    have l : 0.2304 ≤ Q.re ^ 2 := by
      have := abs_le.1 W.2
      linarith
    obtain ⟨s, hs, A, B, C, D⟩ := orient_signed (X := Q.imI) (Y := Q.imJ) (Z := Q.imK) W (wx.cg (by ring)) (wy.cg (by ring))
      (wz.cg (by ring)) l n d0 hd
    exact norm_sub_le_of_near hs A B C D
  · intro l0 l1 l2
    have l := orient_largest n W.2 a0.2 b1.2 c2.2 l0 l1 l2 e1 hd
    obtain ⟨s, hs, A, B, C, D⟩ := orient_signed (X := Q.re) (Y := Q.imJ) (Z := Q.imK) X (wx.cg (by ring)) (xy.cg (by ring))
      (xz.cg (by ring)) l (by linarith) d0 hd
    exact norm_sub_le_of_near hs B A C D
  · intro l0 l1 l2
    have l := orient_largest (w := Q.re) (a := Q.imJ) (b := Q.imI) (c := Q.imK) (by linarith) W.2 (b1.cg (by ring)).2 (a0.cg (by ring)).2
      (c2.cg (by ring)).2 l0 l1 l2 e1 hd
    obtain ⟨s, hs, A, B, C, D⟩ := orient_signed (X := Q.re) (Y := Q.imI) (Z := Q.imK) Y (wy.cg (by ring)) (yx.cg (by ring))
      (yz.cg (by ring)) l (by linarith) d0 hd
    exact norm_sub_le_of_near hs B C A D
  · intro l0 l1 l2
    have l := orient_largest (w := Q.re) (a := Q.imK) (b := Q.imI) (c := Q.imJ) (by linarith) W.2 (c2.cg (by ring)).2 (a0.cg (by ring)).2
      (b1.cg (by ring)).2 l0 l1 l2 e1 hd
    obtain ⟨s, hs, A, B, C, D⟩ := orient_signed (X := Q.re) (Y := Q.imI) (Z := Q.imJ) Z (wz.cg (by ring)) (zx.cg (by ring))
      (zy.cg (by ring)) l (by linarith) d0 hd
    exact norm_sub_le_of_near hs B C D A

/-! ## The columns -/

/-- a column divided by its computed length -/
theorem near_row {v : V3 F32} {U : Space} {s δ : ℝ} (hv : ∀ i, (coord v i).IsFin = true) (hU : ‖U‖ = 1) (s1 : 1 / 2 ^ 49 ≤ s)
    (s2 : s ≤ 2 ^ 62) (h : ‖exactly v - s • U‖ ≤ δ * s) (hd : δ ≤ 1 / 4) :
    NearV (V3.divAssignS v (V3.length v)) U (6.001 / 2 ^ 24 + 2 * δ) ∧ Near (V3.length v) s ((δ + 5 / 2 ^ 24) * s) := by
  have s0 : 0 < s := lt_of_lt_of_le (by norm_num) s1
  have n : ‖s • U‖ = s := by rw [norm_smul, hU, mul_one, Real.norm_of_nonneg s0.le]
  have r0 : s • U ≠ 0 := norm_pos_iff.1 (by rw [n]; exact s0)
  have l := norm_sub_norm_le (s • U) (exactly v)
  rw [norm_sub_rev, n] at l
  have u := norm_sub_norm_le (exactly v) (s • U)
  rw [n] at u
  have ds : δ * s ≤ 1 / 4 * s := by gcongr
  have l1 : 1 / 2 ^ 50 ≤ ‖exactly v‖ := by linarith
  have l2 : ‖exactly v‖ ≤ 2 ^ 63 := by linarith
  have m : Medium (coord v) := ⟨hv, by rw [← norm_exactly]; exact l1, by rw [← norm_exactly]; exact l2⟩
  have n0 : 0 < ‖exactly v‖ := by linarith
  have a : AlmostUnit (coord v) (coord (V3.divAssignS v (V3.length v))) := (sqLen3 m).quotient m fun i => by fin_cases i <;> rfl
  constructor
  · refine ⟨fun i => (a i).1, ?_⟩
    have ne : ∀ i, normalize (exactly v) i = (coord v i).val / exactLength (coord v) := fun i => by
      unfold NormedSpace.normalize
      rw [PiLp.smul_apply, smul_eq_mul, exactly_apply, norm_exactly, inv_mul_eq_div]
    have e := norm_le_of_abs (x := exactly (V3.divAssignS v (V3.length v)) - normalize (exactly v)) (y := normalize (exactly v))
      (c := 6 / 2 ^ 24) (t := 1 / 2 ^ 150) (by positivity) (by positivity) fun i => by
        rw [PiLp.sub_apply, ne, exactly_apply]
        refine (a i).2.trans (le_of_eq ?_)
        rw [abs_div, abs_of_pos m.pos]
    rw [norm_normalize (norm_pos_iff.1 n0)] at e
    have nU : normalize (s • U) = U := by
      unfold NormedSpace.normalize
      rw [n, smul_smul, inv_mul_cancel₀ s0.ne', one_smul]
    have lip := normalize_lipschitz (a := exactly v) r0
    rw [nU, n] at lip
    have t := norm_sub_le_norm_sub_add_norm_sub (exactly (V3.divAssignS v (V3.length v))) (normalize (exactly v)) U
    have k : 2 * ‖exactly v - s • U‖ / s ≤ 2 * δ := by
      rw [div_le_iff₀ s0]
      linarith
    refine t.trans (add_le_add (e.trans (by norm_num)) (lip.trans k))
  · obtain ⟨f, e⟩ := (sqLen3 m).sqrt m
    refine ⟨f, ?_⟩
    change |((V3.length v).val : ℝ) - _| ≤ _ at e
    rw [← norm_exactly] at e
    have b : |‖exactly v‖ - s| ≤ δ * s := by
      rw [abs_le]
      constructor <;> linarith
    have t := abs_sub_le ((V3.length v).val : ℝ) ‖exactly v‖ s
    nlinarith

/-- a unit quaternion turns the axes into a right-handed frame -/
theorem frame_of_unit {Q : ℍ[ℝ]} (hQ : ‖Q‖ = 1) : ∃ E : Fin 3 → Space, (∀ c, vecQ (E c) = Q * axisQ c * Q⁻¹) ∧ (∀ c, ‖E c‖ = 1) ∧
    ⟪E 0, cross3 (E 1) (E 2)⟫ = 1 := by
  have n : Q.re ^ 2 + Q.imI ^ 2 + Q.imJ ^ 2 + Q.imK ^ 2 = 1 := by rw [← norm_sq_quat, hQ]; norm_num
  have re : ∀ c, (Q * axisQ c * Q⁻¹).re = 0 := fun c => by rw [unit_columns hQ]; fin_cases c <;> rfl
  obtain ⟨E, hE⟩ : ∃ E : Fin 3 → Space, ∀ c, vecQ (E c) = Q * axisQ c * Q⁻¹ :=
    ⟨fun c => !₂[(Q * axisQ c * Q⁻¹).imI, (Q * axisQ c * Q⁻¹).imJ, (Q * axisQ c * Q⁻¹).imK], fun c => by
      ext
      · rw [re]; rfl
      · rfl
      · rfl
      · rfl⟩
  refine ⟨E, hE, fun c => ?_, ?_⟩
  · have := norm_vecQ_sub (E c) 0
    rw [hE, sub_zero, show vecQ (0 : Space) = 0 from rfl, sub_zero, norm_turned hQ] at this
    exact this.symm
  · obtain ⟨c0, c1, c2⟩ := cross3_apply (E 1) (E 2)
    rw [inner_eq_dot, c0, c1, c2]
    obtain ⟨x0, x1, x2⟩ := col0 hQ
    obtain ⟨y0, y1, y2⟩ := col1 hQ
    obtain ⟨z0, z1, z2⟩ := col2 hQ
    rw [← hE] at x0 x1 x2 y0 y1 y2 z0 z1 z2
    change E 0 0 = _ at x0
    change E 0 1 = _ at x1
    change E 0 2 = _ at x2
    change E 1 0 = _ at y0
    change E 1 1 = _ at y1
    change E 1 2 = _ at y2
    change E 2 0 = _ at z0
    change E 2 1 = _ at z1
    change E 2 2 = _ at z2
    rw [x0, x1, x2, y0, y1, y2, z0, z1, z2]
    generalize Q.re = a at *
    generalize Q.imI = b at *
    generalize Q.imJ = c at *
    generalize Q.imK = d at *
    have e : (a ^ 2 + b ^ 2 + c ^ 2 + d ^ 2) ^ 3 = 1 := by rw [n]; norm_num
    rw [← e]
    ring

/-- the sign of the computed determinant -/
theorem near_triple {a b c : V3 F32} {A B C : Space} {δ σ : ℝ} (ha : NearV a A δ) (hb : NearV b B δ) (hc : NearV c C δ) (nA : ‖A‖ = 1)
    (nB : ‖B‖ = 1) (nC : ‖C‖ = 1) (ht : ⟪A, cross3 B C⟫ = σ) (hd : δ ≤ 1 / 64) :
    (V3.dot a (V3.cross b c)).IsFin = true ∧ |((V3.dot a (V3.cross b c)).val : ℝ) - σ| ≤ 1 / 2 := by
  have d0 : 0 ≤ δ := (norm_nonneg _).trans ha.2
  have k := hb.cross hc (A := 65 / 64) (B := 65 / 64) (by rw [nB]; linarith) (by rw [nC]; linarith) (by norm_num)
  have nk : ‖cross3 B C‖ ≤ 1 := (norm_cross3_le B C).trans (by rw [nB, nC]; norm_num)
  rw [nC] at k
  have k' := k.mono (f := 0.04) (by norm_num; linarith)
  obtain ⟨f, e⟩ := ha.dot k' (A := 65 / 64) (B := 1.04) (by rw [nA]; linarith) (by linarith) (by norm_num)
  rw [ht] at e
  refine ⟨f, e.trans ?_⟩
  have : δ * ‖cross3 B C‖ ≤ 1 / 64 * 1 := by gcongr
  norm_num at *
  linarith

theorem mul_minus_one (x : F32) : x * (-(lit 1)) = -x := by rw [mul_neg', mul_one']

/-- `decompose_orthogonal` in terms of its parts -/
theorem decompose32_eq (M : M4 F32) (o0 : Quat F32) :
    let v0 : V3 F32 := ⟨M.c0.x, M.c0.y, M.c0.z⟩
    let v1 : V3 F32 := ⟨M.c1.x, M.c1.y, M.c1.z⟩
    let v2 : V3 F32 := ⟨M.c2.x, M.c2.y, M.c2.z⟩
    let r0 := V3.divAssignS v0 (V3.length v0)
    let r1 := V3.divAssignS v1 (V3.length v1)
    let r2 := V3.divAssignS v2 (V3.length v2)
    let s : V3 F32 := ⟨V3.length v0, V3.length v1, V3.length v2⟩
    M4.decompose_orthogonal M o0 =
      if V3.dot r0 (V3.cross r1 r2) < lit 0 then
        (-s, orient32 ⟨-r0, -r1, -r2⟩ o0, ⟨M.c3.x, M.c3.y, M.c3.z⟩)
      else (s, orient32 ⟨r0, r1, r2⟩ o0, ⟨M.c3.x, M.c3.y, M.c3.z⟩) := by
  intro v0 v1 v2 r0 r1 r2 s
  have en : ∀ v : V3 F32, V3.mulAssignS v (-(lit 1)) = -v := by
    intro v
    simp only [V3.mulAssignS, mul_minus_one]
    rfl
  have hs : (⟨s.x * (-(lit 1)), s.y * (-(lit 1)), s.z * (-(lit 1))⟩ : V3 F32) = -s := by
    simp only [mul_minus_one]
    rfl
  have : M4.decompose_orthogonal M o0 =
    (let p : V3 F32 × M3 F32 := if V3.dot r0 (V3.cross r1 r2) < lit 0 then
        (⟨s.x * (-(lit 1)), s.y * (-(lit 1)), s.z * (-(lit 1))⟩,
          ⟨V3.mulAssignS r0 (-(lit 1)), V3.mulAssignS r1 (-(lit 1)), V3.mulAssignS r2 (-(lit 1))⟩)
        else (s, ⟨r0, r1, r2⟩)
     (p.1, orient32 p.2 o0, ⟨M.c3.x, M.c3.y, M.c3.z⟩)) := rfl
  rw [this]
  simp only [en, hs]
  split_ifs <;> rfl

theorem decompose_close {M : M4 F32} (o0 : Quat F32) {Q : ℍ[ℝ]} {σ δ : ℝ} {s : Fin 3 → ℝ} (hQ : ‖Q‖ = 1) (hσ : σ = 1 ∨ σ = -1)
    (hf : ∀ c r : Fin 3, (entry M c.castSucc r.castSucc).IsFin = true) (s1 : ∀ c, 1 / 2 ^ 49 ≤ s c) (s2 : ∀ c, s c ≤ 2 ^ 62)
    (h : ∀ c : Fin 3, ‖vecQ (fun r => ((entry M c.castSucc r.castSucc).val : ℝ)) - (σ * s c) • (Q * axisQ c * Q⁻¹)‖ ≤ δ * s c)
    (hd : δ ≤ 1 / 2 ^ 8) :
    (∀ c, Near (coord (M4.decompose_orthogonal M o0).1 c) (σ * s c) ((δ + 5 / 2 ^ 24) * s c)) ∧
    (M4.decompose_orthogonal M o0).2.1.Finite ∧
    (‖exactQ (M4.decompose_orthogonal M o0).2.1 - Q‖ ≤ 12 * δ + 67 / 2 ^ 24 ∨
      ‖exactQ (M4.decompose_orthogonal M o0).2.1 + Q‖ ≤ 12 * δ + 67 / 2 ^ 24) := by
  obtain ⟨E, hE, nE, tE⟩ := frame_of_unit hQ
  have σ2 : σ * σ = 1 := by rcases hσ with rfl | rfl <;> norm_num
  have σ1 : |σ| = 1 := by rcases hσ with rfl | rfl <;> norm_num
  have col : ∀ c : Fin 3, ∀ v : V3 F32, (∀ r, coord v r = entry M c.castSucc r.castSucc) →
      NearV (V3.divAssignS v (V3.length v)) (σ • E c) (6.001 / 2 ^ 24 + 2 * δ) ∧ Near (V3.length v) (s c) ((δ + 5 / 2 ^ 24) * s c) := by
    intro c v hv
    refine near_row (fun i => by rw [hv]; exact hf c i) (by rw [norm_smul, nE, Real.norm_eq_abs, σ1, mul_one]) (s1 c) (s2 c) ?_ (by linarith)
    have k := h c
    rw [← hE] at k
    have e1 : vecQ (fun r => ((entry M c.castSucc r.castSucc).val : ℝ)) = vecQ (exactly v) := by
      congr 1
      ext r
      rw [exactly_apply, hv]
    have e2 : (σ * s c) • vecQ (E c) = vecQ (s c • σ • E c : Space) := by
      ext
      · change (σ * s c) • (0 : ℝ) = 0
        rw [smul_zero]
      · change (σ * s c) • (E c 0) = s c • σ • E c 0
        simp only [smul_eq_mul]; ring
      · change (σ * s c) • (E c 1) = s c • σ • E c 1
        simp only [smul_eq_mul]; ring
      · change (σ * s c) • (E c 2) = s c • σ • E c 2
        simp only [smul_eq_mul]; ring
    rwa [e1, e2, norm_vecQ_sub] at k
  have eq := decompose32_eq M o0
  dsimp only at eq
  obtain ⟨a0, l0⟩ := col 0 ⟨M.c0.x, M.c0.y, M.c0.z⟩ (fun r => by fin_cases r <;> rfl)
  obtain ⟨a1, l1⟩ := col 1 ⟨M.c1.x, M.c1.y, M.c1.z⟩ (fun r => by fin_cases r <;> rfl)
  obtain ⟨a2, l2⟩ := col 2 ⟨M.c2.x, M.c2.y, M.c2.z⟩ (fun r => by fin_cases r <;> rfl)
  clear col
  generalize (⟨M.c0.x, M.c0.y, M.c0.z⟩ : V3 F32) = v0 at *
  generalize (⟨M.c1.x, M.c1.y, M.c1.z⟩ : V3 F32) = v1 at *
  generalize (⟨M.c2.x, M.c2.y, M.c2.z⟩ : V3 F32) = v2 at *
  generalize V3.divAssignS v0 (V3.length v0) = r0 at *
  generalize V3.divAssignS v1 (V3.length v1) = r1 at *
  generalize V3.divAssignS v2 (V3.length v2) = r2 at *
  have small : 6.001 / 2 ^ 24 + 2 * δ ≤ 1 / 64 := by linarith
  have nσ : ∀ c, ‖σ • E c‖ = 1 := fun c => by rw [norm_smul, nE, Real.norm_eq_abs, σ1, mul_one]
  have tσ : ⟪σ • E 0, cross3 (σ • E 1) (σ • E 2)⟫ = σ := by
    have : cross3 (σ • E 1) (σ • E 2) = cross3 (E 1) (E 2) := by
      obtain ⟨c0, c1, c2⟩ := cross3_apply (E 1) (E 2)
      obtain ⟨d0, d1, d2⟩ := cross3_apply (σ • E 1) (σ • E 2)
      simp only [PiLp.smul_apply, smul_eq_mul] at d0 d1 d2
      ext i
      fin_cases i
      · change _ = _ at d0; change cross3 (σ • E 1) (σ • E 2) 0 = cross3 (E 1) (E 2) 0
        rw [c0, d0]; linear_combination (E 1 1 * E 2 2 - E 1 2 * E 2 1) * σ2
      · change cross3 (σ • E 1) (σ • E 2) 1 = cross3 (E 1) (E 2) 1
        rw [c1, d1]; linear_combination (E 1 2 * E 2 0 - E 1 0 * E 2 2) * σ2
      · change cross3 (σ • E 1) (σ • E 2) 2 = cross3 (E 1) (E 2) 2
        rw [c2, d2]; linear_combination (E 1 0 * E 2 1 - E 1 1 * E 2 0) * σ2
    rw [this, real_inner_smul_left, tE, mul_one]
  obtain ⟨fd, ed⟩ := near_triple a0 a1 a2 (nσ 0) (nσ 1) (nσ 2) tσ small
  have fin : ∀ (R : M3 F32), NearV R.c0 (E 0) (6.001 / 2 ^ 24 + 2 * δ) → NearV R.c1 (E 1) (6.001 / 2 ^ 24 + 2 * δ) →
      NearV R.c2 (E 2) (6.001 / 2 ^ 24 + 2 * δ) → (orient32 R o0).Finite ∧ (‖exactQ (orient32 R o0) - Q‖ ≤ 12 * δ + 67 / 2 ^ 24 ∨
        ‖exactQ (orient32 R o0) + Q‖ ≤ 12 * δ + 67 / 2 ^ 24) := by
    intro R n0 n1 n2
    have cl : ∀ (c : Fin 3) (v : V3 F32), exactColumn R c = vecQ (exactly v) → NearV v (E c) (6.001 / 2 ^ 24 + 2 * δ) →
        ‖exactColumn R c - Q * axisQ c * Q⁻¹‖ ≤ 6.001 / 2 ^ 24 + 2 * δ := by
      intro c v e n
      rw [e, ← hE, norm_vecQ_sub]
      exact n.2
    obtain ⟨f, b⟩ := orient32_near o0 hQ (δ := 6.001 / 2 ^ 24 + 2 * δ) (m := R)
      (fun c r => by fin_cases c <;> [exact n0.1 r; exact n1.1 r; exact n2.1 r])
      (fun c => by fin_cases c <;> [exact cl 0 _ rfl n0; exact cl 1 _ rfl n1; exact cl 2 _ rfl n2]) small
    have le : 2 * (3 * (6.001 / 2 ^ 24 + 2 * δ) + 15 / 2 ^ 24) ≤ 12 * δ + 67 / 2 ^ 24 := by linarith
    exact ⟨f, b.imp (·.trans le) (·.trans le)⟩
  rcases hσ with rfl | rfl
  · have pos : ¬ V3.dot r0 (V3.cross r1 r2) < lit 0 := by
      intro hlt
      have := lt_val_of_lt hlt
      rw [lit_zero_val.2] at this
      have := abs_le.1 ed
      linarith
    rw [if_neg pos] at eq
    rw [eq]
    simp only [one_smul] at a0 a1 a2
    simp only [one_mul]
    exact ⟨fun c => by fin_cases c <;> [exact l0; exact l1; exact l2], fin ⟨r0, r1, r2⟩ a0 a1 a2⟩
  · have neg : V3.dot r0 (V3.cross r1 r2) < lit 0 := by
      by_contra hlt
      have := le_val_of_not_lt fd lit_zero_val.1 hlt
      rw [lit_zero_val.2] at this
      have := abs_le.1 ed
      linarith
    rw [if_pos neg] at eq
    rw [eq]
    have nn : ∀ {x : F32} {r e : ℝ}, Near x r e → Near (-x) (-1 * r) e := by
      intro x r e h
      refine ⟨by rw [isFin_neg]; exact h.1, ?_⟩
      rw [val_neg]
      push_cast
      rw [show -(x.val : ℝ) - -1 * r = -(x.val - r) by ring, abs_neg]
      exact h.2
    have mv : ∀ {v : V3 F32} {c : Fin 3}, NearV v ((-1 : ℝ) • E c) (6.001 / 2 ^ 24 + 2 * δ) → NearV (-v) (E c) (6.001 / 2 ^ 24 + 2 * δ) := by
      intro v c h
      have := h.neg
      rwa [neg_smul, one_smul, neg_neg] at this
    exact ⟨fun c => by fin_cases c <;> [exact nn l0; exact nn l1; exact nn l2], fin ⟨-r0, -r1, -r2⟩ (mv a0) (mv a1) (mv a2)⟩

end Zcm
