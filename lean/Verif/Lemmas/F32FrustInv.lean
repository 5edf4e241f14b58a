import Verif.Lemmas.F32Persp
import Verif.Model.Matrix

/-!
# Inverting perspective matrices in binary32
-/

set_option exponentiation.threshold 300

namespace Zcm

open F32

theorem F32.IsZ.neg {a : F32} (h : IsZ a) : IsZ (-a) := ⟨by rw [isFin_neg]; exact h.1, by rw [val_neg, h.2, neg_zero]⟩

theorem F32.IsZ.sub {a b : F32} (ha : IsZ a) (hb : IsZ b) : IsZ (a - b) := ha.add hb.neg

theorem F32.SameNumber.subZ {a z : F32} (hz : IsZ z) : SameNumber (a - z) a := .addZ hz.neg

theorem F32.Rel.same {x y : F32} {r e : ℝ} (h : SameNumber x y) (hy : Rel y r e) : Rel x r e :=
  have := Near.same h (near_of_rel hy)
  ⟨this.1, this.2⟩

theorem lit_neg_one : (lit (-1) : F32) = -(lit 1) := by decide +kernel

theorem F32.SameNumber.zSub {a z : F32} (hz : IsZ z) : SameNumber (z - a) (-a) := .zAdd hz

/-- the zero pattern of the inverse of a perspective matrix -/
structure F32.InvFrust (m : M4 F32) : Prop where
  h0y : IsZ m.c0.y
  h0z : IsZ m.c0.z
  h0w : IsZ m.c0.w
  h1x : IsZ m.c1.x
  h1z : IsZ m.c1.z
  h1w : IsZ m.c1.w
  h2x : IsZ m.c2.x
  h2y : IsZ m.c2.y
  h2z : IsZ m.c2.z
  h3x : IsZ m.c3.x
  h3y : IsZ m.c3.y


/-- the matrix of signed cofactors that `inverse` computes -/
def F32.cofs (m : M4 F32) : M4 F32 :=
  ⟨⟨(m.c1.y * (m.c2.z * m.c3.w - m.c3.z * m.c2.w) - m.c1.z * (m.c2.y * m.c3.w - m.c3.y * m.c2.w) + m.c1.w * (m.c2.y * m.c3.z - m.c3.y * m.c2.z)) * lit 1,
        (m.c0.y * (m.c2.z * m.c3.w - m.c3.z * m.c2.w) - m.c0.z * (m.c2.y * m.c3.w - m.c3.y * m.c2.w) + m.c0.w * (m.c2.y * m.c3.z - m.c3.y * m.c2.z)) * lit (-1),
        (m.c0.y * (m.c1.z * m.c3.w - m.c3.z * m.c1.w) - m.c0.z * (m.c1.y * m.c3.w - m.c3.y * m.c1.w) + m.c0.w * (m.c1.y * m.c3.z - m.c3.y * m.c1.z)) * lit 1,
        (m.c0.y * (m.c1.z * m.c2.w - m.c2.z * m.c1.w) - m.c0.z * (m.c1.y * m.c2.w - m.c2.y * m.c1.w) + m.c0.w * (m.c1.y * m.c2.z - m.c2.y * m.c1.z)) * lit (-1)⟩,
      ⟨(m.c1.x * (m.c2.z * m.c3.w - m.c3.z * m.c2.w) - m.c1.z * (m.c2.x * m.c3.w - m.c3.x * m.c2.w) + m.c1.w * (m.c2.x * m.c3.z - m.c3.x * m.c2.z)) * lit (-1),
        (m.c0.x * (m.c2.z * m.c3.w - m.c3.z * m.c2.w) - m.c0.z * (m.c2.x * m.c3.w - m.c3.x * m.c2.w) + m.c0.w * (m.c2.x * m.c3.z - m.c3.x * m.c2.z)) * lit 1,
        (m.c0.x * (m.c1.z * m.c3.w - m.c3.z * m.c1.w) - m.c0.z * (m.c1.x * m.c3.w - m.c3.x * m.c1.w) + m.c0.w * (m.c1.x * m.c3.z - m.c3.x * m.c1.z)) * lit (-1),
        (m.c0.x * (m.c1.z * m.c2.w - m.c2.z * m.c1.w) - m.c0.z * (m.c1.x * m.c2.w - m.c2.x * m.c1.w) + m.c0.w * (m.c1.x * m.c2.z - m.c2.x * m.c1.z)) * lit 1⟩,
      ⟨(m.c1.x * (m.c2.y * m.c3.w - m.c3.y * m.c2.w) - m.c1.y * (m.c2.x * m.c3.w - m.c3.x * m.c2.w) + m.c1.w * (m.c2.x * m.c3.y - m.c3.x * m.c2.y)) * lit 1,
        (m.c0.x * (m.c2.y * m.c3.w - m.c3.y * m.c2.w) - m.c0.y * (m.c2.x * m.c3.w - m.c3.x * m.c2.w) + m.c0.w * (m.c2.x * m.c3.y - m.c3.x * m.c2.y)) * lit (-1),
        (m.c0.x * (m.c1.y * m.c3.w - m.c3.y * m.c1.w) - m.c0.y * (m.c1.x * m.c3.w - m.c3.x * m.c1.w) + m.c0.w * (m.c1.x * m.c3.y - m.c3.x * m.c1.y)) * lit 1,
        (m.c0.x * (m.c1.y * m.c2.w - m.c2.y * m.c1.w) - m.c0.y * (m.c1.x * m.c2.w - m.c2.x * m.c1.w) + m.c0.w * (m.c1.x * m.c2.y - m.c2.x * m.c1.y)) * lit (-1)⟩,
      ⟨(m.c1.x * (m.c2.y * m.c3.z - m.c3.y * m.c2.z) - m.c1.y * (m.c2.x * m.c3.z - m.c3.x * m.c2.z) + m.c1.z * (m.c2.x * m.c3.y - m.c3.x * m.c2.y)) * lit (-1),
        (m.c0.x * (m.c2.y * m.c3.z - m.c3.y * m.c2.z) - m.c0.y * (m.c2.x * m.c3.z - m.c3.x * m.c2.z) + m.c0.z * (m.c2.x * m.c3.y - m.c3.x * m.c2.y)) * lit 1,
        (m.c0.x * (m.c1.y * m.c3.z - m.c3.y * m.c1.z) - m.c0.y * (m.c1.x * m.c3.z - m.c3.x * m.c1.z) + m.c0.z * (m.c1.x * m.c3.y - m.c3.x * m.c1.y)) * lit (-1),
        (m.c0.x * (m.c1.y * m.c2.z - m.c2.y * m.c1.z) - m.c0.y * (m.c1.x * m.c2.z - m.c2.x * m.c1.z) + m.c0.z * (m.c1.x * m.c2.y - m.c2.x * m.c1.y)) * lit 1⟩⟩

theorem F32.inverse_cofs (m : M4 F32) : M4.inverse m = cofs m * (lit 1 /
    ((m.c0.x * (cofs m).c0.x + m.c0.y * (cofs m).c1.x) + (m.c0.z * (cofs m).c2.x + m.c0.w * (cofs m).c3.x))) := rfl

/-- closes `IsZ` goals for products and differences -/
local macro "zz" : tactic => `(tactic| first
  | assumption
  | exact IsZ.mulL (by assumption) (by assumption)
  | exact IsZ.mulR (by assumption) (by assumption)
  | exact IsZ.mulL (by assumption) (IsZ.1 (by assumption))
  | exact IsZ.sub (IsZ.mulL (by assumption) (by assumption)) (IsZ.mulL (by assumption) (by assumption))
  | exact IsZ.sub (IsZ.mulL (by assumption) (by assumption)) (IsZ.mulR (by assumption) (by assumption))
  | exact IsZ.sub (IsZ.mulR (by assumption) (by assumption)) (IsZ.mulL (by assumption) (by assumption))
  | exact IsZ.sub (IsZ.mulR (by assumption) (by assumption)) (IsZ.mulR (by assumption) (by assumption)))

/-- closes `IsZ` goals for sums of three products -/
local macro "zzz" : tactic => `(tactic| exact IsZ.add (IsZ.sub (by zz) (by zz)) (by zz))

/-- the cofactors of a matrix with the zero pattern of a perspective matrix, up to the signs of zeros -/
theorem frust_cofs {m : M4 F32} (hd : Frust m) (f0 : m.c0.x.IsFin = true) (f1 : m.c1.y.IsFin = true)
    (f2 : m.c2.z.IsFin = true) (f3 : m.c2.w.IsFin = true) (f4 : m.c3.z.IsFin = true)
    {C S P Q : F32} (hC : m.c2.z * m.c3.w - m.c3.z * m.c2.w = C) (hS : m.c1.y * m.c2.w - m.c2.y * m.c1.w = S)
    (hP : m.c1.y * m.c3.z - m.c3.y * m.c1.z = P) (hQ : m.c1.y * m.c2.z - m.c2.y * m.c1.z = Q)
    (fC : C.IsFin = true) (fS : S.IsFin = true) (fP : P.IsFin = true) (fQ : Q.IsFin = true) :
    InvFrust (cofs m) ∧ SameNumber (cofs m).c0.x (m.c1.y * C) ∧ SameNumber (cofs m).c1.y (m.c0.x * C) ∧
      SameNumber (cofs m).c2.w (-(m.c0.x * S)) ∧ SameNumber (cofs m).c3.z (-(m.c0.x * P)) ∧
      SameNumber (cofs m).c3.w (m.c0.x * Q) := by
  obtain ⟨h0y, h0z, h0w, h1x, h1z, h1w, h2x, h2y, h3x, h3y, h3w⟩ := hd
  unfold cofs
  simp only [hC, hS, hP, hQ]
  obtain ⟨⟨a0, a1, a2, a3⟩, ⟨b0, b1, b2, b3⟩, ⟨c0, c1, c2, c3⟩, ⟨d0, d1, d2, d3⟩⟩ := m
  simp only at hC hS hP hQ h0y h0z h0w h1x h1z h1w h2x h2y h3x h3y h3w f0 f1 f2 f3 f4 ⊢
  have g1 := h0y.1
  have g2 := h0z.1
  have g3 := h0w.1
  have g4 := h1x.1
  have g5 := h1z.1
  have g6 := h1w.1
  have g7 := h2x.1
  have g8 := h2y.1
  have g9 := h3x.1
  have g10 := h3y.1
  have g11 := h3w.1
  have z02 : IsZ (b2 * d3 - d2 * b3) := by zz
  have z03 : IsZ (b2 * c3 - c2 * b3) := by zz
  have z04 : IsZ (c1 * d3 - d1 * c3) := by zz
  have z06 : IsZ (b1 * d3 - d1 * b3) := by zz
  have z08 : IsZ (c1 * d2 - d1 * c2) := by zz
  have z12 : IsZ (c0 * d3 - d0 * c3) := by zz
  have z14 : IsZ (b0 * d3 - d0 * b3) := by zz
  have z15 : IsZ (b0 * c3 - c0 * b3) := by zz
  have z16 : IsZ (c0 * d2 - d0 * c2) := by zz
  have z18 : IsZ (b0 * d2 - d0 * b2) := by zz
  have z19 : IsZ (b0 * c2 - c0 * b2) := by zz
  have z20 : IsZ (c0 * d1 - d0 * c1) := by zz
  have z22 : IsZ (b0 * d1 - d0 * b1) := by zz
  have z23 : IsZ (b0 * c1 - c0 * b1) := by zz
  simp only [lit_neg_one, mul_neg', mul_one']
  refine ⟨?_, ?_, ?_, ?_, ?_, ?_⟩
  · constructor <;> first | zzz | (apply IsZ.neg; zzz)
  · exact (SameNumber.addZ (by zz)).trans (.subZ (by zz))
  · exact (SameNumber.addZ (by zz)).trans (.subZ (by zz))
  · exact SameNumber.neg ((SameNumber.addZ (by zz)).trans (.subZ (by zz)))
  · exact SameNumber.neg ((SameNumber.addZ (by zz)).trans (.subZ (by zz)))
  · exact (SameNumber.addZ (by zz)).trans (.subZ (by zz))

private theorem mul_bounds {a b la ua lb ub : ℝ} (ha : la ≤ |a| ∧ |a| ≤ ua) (hb : lb ≤ |b| ∧ |b| ≤ ub) (h0 : 0 ≤ la) (h1 : 0 ≤ lb) :
    la * lb ≤ |a * b| ∧ |a * b| ≤ ua * ub := by
  rw [abs_mul]
  exact ⟨mul_le_mul ha.1 hb.1 h1 (h0.trans ha.1), mul_le_mul ha.2 hb.2 (h1.trans hb.1) ((abs_nonneg _).trans ha.2)⟩

/-- the inverse of a perspective matrix, relative to the exact inverse of the same matrix -/
theorem frust_inverse {m : M4 F32} {X Y A B s : ℝ} (hd : Frust m) (h0 : Rel m.c0.x X 0) (h1 : Rel m.c1.y Y 0)
    (h2 : Rel m.c2.z A 0) (h3 : Rel m.c3.z B 0) (h4 : m.c2.w = lit 1 ∧ s = 1 ∨ m.c2.w = -(lit 1) ∧ s = -1)
    (bX : 1 / 2 ^ 22 ≤ |X| ∧ |X| ≤ 2 ^ 22) (bY : 1 / 2 ^ 22 ≤ |Y| ∧ |Y| ≤ 2 ^ 22) (bA : 1 / 2 ≤ |A| ∧ |A| ≤ 4)
    (bB : 1 / 2 ^ 21 ≤ |B| ∧ |B| ≤ 2 ^ 33) :
    InvFrust (M4.inverse m) ∧ Rel (M4.inverse m).c0.x (1 / X) (6.2 / 2 ^ 24) ∧ Rel (M4.inverse m).c1.y (1 / Y) (6.2 / 2 ^ 24) ∧
      Rel (M4.inverse m).c2.w (1 / B) (6.2 / 2 ^ 24) ∧ Rel (M4.inverse m).c3.z s (6.2 / 2 ^ 24) ∧
      Rel (M4.inverse m).c3.w (-(s * A / B)) (6.2 / 2 ^ 24) := by
  have s1 : |s| = 1 := by rcases h4 with ⟨-, rfl⟩ | ⟨-, rfl⟩ <;> norm_num
  have ss : s * s = 1 := by rcases h4 with ⟨-, rfl⟩ | ⟨-, rfl⟩ <;> norm_num
  have s0 : s ≠ 0 := by rintro rfl; norm_num at s1
  have X0 : X ≠ 0 := abs_pos.1 (lt_of_lt_of_le (by norm_num) bX.1)
  have Y0 : Y ≠ 0 := abs_pos.1 (lt_of_lt_of_le (by norm_num) bY.1)
  have B0 : B ≠ 0 := abs_pos.1 (lt_of_lt_of_le (by norm_num) bB.1)
  have times : ∀ {x : F32} {r e : ℝ}, Rel x r e → Rel (x * m.c2.w) (r * s) e := by
    intro x r e h
    rcases h4 with ⟨q, rfl⟩ | ⟨q, rfl⟩
    · rw [q, mul_one', mul_one]; exact h
    · rw [q, mul_neg', mul_one', mul_neg_one]; exact h.neg
  have f3 : m.c2.w.IsFin = true := by
    have := (times (Rel.lit isFin_lit_one lit_one_cast)).fin
    rwa [one_mul'] at this
  have RC : Rel (m.c2.z * m.c3.w - m.c3.z * m.c2.w) (-(B * s)) 0 :=
    Rel.same (SameNumber.zSub (hd.h3w.mulR h2.fin)) (times h3).neg
  have RS : Rel (m.c1.y * m.c2.w - m.c2.y * m.c1.w) (Y * s) 0 :=
    Rel.same (SameNumber.subZ (hd.h2y.mulL hd.h1w.1)) (times h1)
  have bYB := mul_bounds bY bB (by norm_num) (by norm_num)
  have bYA := mul_bounds bY bA (by norm_num) (by norm_num)
  have RP : Rel (m.c1.y * m.c3.z - m.c3.y * m.c1.z) (Y * B) (1 / 2 ^ 24) :=
    Rel.same (SameNumber.subZ (hd.h3y.mulL hd.h1z.1)) (h1.mul h3 (by norm_num) (by norm_num)
      (le_trans (by norm_num) bYB.1) (bYB.2.trans (by norm_num)))
  have RQ : Rel (m.c1.y * m.c2.z - m.c2.y * m.c1.z) (Y * A) (1 / 2 ^ 24) :=
    Rel.same (SameNumber.subZ (hd.h2y.mulL hd.h1z.1)) (h1.mul h2 (by norm_num) (by norm_num)
      (le_trans (by norm_num) bYA.1) (bYA.2.trans (by norm_num)))
  obtain ⟨iz, k0, k1, k2, k3, k4⟩ := frust_cofs hd h0.fin h1.fin h2.fin f3 h3.fin rfl rfl rfl rfl RC.fin RS.fin RP.fin RQ.fin
  have bBs : 1 / 2 ^ 21 ≤ |-(B * s)| ∧ |-(B * s)| ≤ 2 ^ 33 := by rw [abs_neg, abs_mul, s1, mul_one]; exact bB
  have bYs : 1 / 2 ^ 22 ≤ |Y * s| ∧ |Y * s| ≤ 2 ^ 22 := by rw [abs_mul, s1, mul_one]; exact bY
  have bYC := mul_bounds bY bBs (by norm_num) (by norm_num)
  have bXC := mul_bounds bX bBs (by norm_num) (by norm_num)
  have bXS := mul_bounds bX bYs (by norm_num) (by norm_num)
  have bXP := mul_bounds bX bYB (by norm_num) (by norm_num)
  have bXQ := mul_bounds bX bYA (by norm_num) (by norm_num)
  have bD := mul_bounds bX bYC (by norm_num) (by norm_num)
  have R0 := Rel.same k0 (h1.mul (g := 1 / 2 ^ 24) RC (by norm_num) (by norm_num) (le_trans (by norm_num) bYC.1) (bYC.2.trans (by norm_num)))
  have R1 := Rel.same k1 (h0.mul (g := 1 / 2 ^ 24) RC (by norm_num) (by norm_num) (le_trans (by norm_num) bXC.1) (bXC.2.trans (by norm_num)))
  have R2 := Rel.same k2 (h0.mul (g := 1 / 2 ^ 24) RS (by norm_num) (by norm_num) (le_trans (by norm_num) bXS.1) (bXS.2.trans (by norm_num))).neg
  have R3 := Rel.same k3 (h0.mul (g := 2.01 / 2 ^ 24) RP (by norm_num) (by norm_num) (le_trans (by norm_num) bXP.1) (bXP.2.trans (by norm_num))).neg
  have R4 := Rel.same k4 (h0.mul (g := 2.01 / 2 ^ 24) RQ (by norm_num) (by norm_num) (le_trans (by norm_num) bXQ.1) (bXQ.2.trans (by norm_num)))
  have RD : Rel ((m.c0.x * (cofs m).c0.x + m.c0.y * (cofs m).c1.x) + (m.c0.z * (cofs m).c2.x + m.c0.w * (cofs m).c3.x))
      (X * (Y * -(B * s))) (2.01 / 2 ^ 24) :=
    Rel.same (same4_0 (hd.h0y.mulL iz.h1x.1) (hd.h0z.mulL iz.h2x.1) (hd.h0w.mulL iz.h3x.1))
      (h0.mul R0 (by norm_num) (by norm_num) (le_trans (by norm_num) bD.1) (bD.2.trans (by norm_num)))
  have D0 : X * (Y * -(B * s)) ≠ 0 := abs_pos.1 (lt_of_lt_of_le (by norm_num) bD.1)
  have RI := Rel.div (d := 2.05 / 2 ^ 24) (g := 3.1 / 2 ^ 24) (Rel.lit isFin_lit_one lit_one_cast) RD le_rfl (by norm_num)
    (by norm_num) D0 (by norm_num) (by norm_num) (by norm_num)
    (by
      rw [abs_div, abs_one, le_div_iff₀ (abs_pos.2 D0)]
      calc 1 / 2 ^ 125 * |X * (Y * -(B * s))| ≤ 1 / 2 ^ 125 * _ := mul_le_mul_of_nonneg_left bD.2 (by norm_num)
        _ ≤ 1 := by norm_num)
    (by
      rw [abs_div, abs_one, div_le_iff₀ (abs_pos.2 D0)]
      calc (1 : ℝ) ≤ 2 ^ 126 * _ := by norm_num
        _ ≤ 2 ^ 126 * |X * (Y * -(B * s))| := mul_le_mul_of_nonneg_left bD.1 (by norm_num))
  rw [inverse_cofs]
  generalize lit 1 / ((m.c0.x * (cofs m).c0.x + m.c0.y * (cofs m).c1.x) + (m.c0.z * (cofs m).c2.x + m.c0.w * (cofs m).c3.x)) = R at *
  have fR := RI.fin
  have last : ∀ {x : F32} {r v : ℝ}, Rel x r (2.01 / 2 ^ 24) → r * (1 / (X * (Y * -(B * s)))) = v → 1 / 2 ^ 60 ≤ |v| ∧ |v| ≤ 2 ^ 60 →
      Rel (x * R) v (6.2 / 2 ^ 24) := by
    intro x r v hx hv hb
    exact (hx.mul RI (by norm_num) (by norm_num) (by rw [hv]; exact le_trans (by norm_num) hb.1)
      (by rw [hv]; exact hb.2.trans (by norm_num))).congr hv
  have inv_b : ∀ {v l u : ℝ}, v ≠ 0 → l ≤ |v| ∧ |v| ≤ u → 1 / 2 ^ 60 ≤ l → u ≤ 2 ^ 60 → 1 / 2 ^ 60 ≤ |1 / v| ∧ |1 / v| ≤ 2 ^ 60 := by
    intro v l u v0 hv hl hu
    have p := abs_pos.2 v0
    rw [abs_div, abs_one]
    constructor
    · exact one_div_le_one_div_of_le p (hv.2.trans hu)
    · rw [div_le_iff₀ p]
      have := hl.trans hv.1
      linarith
  refine ⟨?_, ?_, ?_, ?_, ?_, ?_⟩
  · exact ⟨iz.h0y.mulL fR, iz.h0z.mulL fR, iz.h0w.mulL fR, iz.h1x.mulL fR, iz.h1z.mulL fR, iz.h1w.mulL fR, iz.h2x.mulL fR,
      iz.h2y.mulL fR, iz.h2z.mulL fR, iz.h3x.mulL fR, iz.h3y.mulL fR⟩
  · exact last (R0.mono (by norm_num)) (by field_simp) (inv_b X0 bX (by norm_num) (by norm_num))
  · exact last (R1.mono (by norm_num)) (by field_simp) (inv_b Y0 bY (by norm_num) (by norm_num))
  · exact last (R2.mono (by norm_num)) (by field_simp) (inv_b B0 bB (by norm_num) (by norm_num))
  · refine last R3 ?_ (by rw [s1]; norm_num)
    rw [show -(X * (Y * B)) * (1 / (X * (Y * -(B * s)))) = 1 / s by field_simp]
    rw [div_eq_iff s0, ss]
  · refine last R4 ?_ ?_
    · rw [show X * (Y * A) * (1 / (X * (Y * -(B * s)))) = -(A / (B * s)) by field_simp]
      congr 1
      rw [div_eq_div_iff (mul_ne_zero B0 s0) B0]
      linear_combination (-A * B) * ss
    · rw [abs_neg, abs_div, abs_mul, s1, one_mul]
      have p := abs_pos.2 B0
      constructor
      · rw [le_div_iff₀ p]
        calc 1 / 2 ^ 60 * |B| ≤ 1 / 2 ^ 60 * 2 ^ 33 := by gcongr; exact bB.2
          _ ≤ 1 / 2 := by norm_num
          _ ≤ _ := bA.1
      · rw [div_le_iff₀ p]
        calc |A| ≤ 4 := bA.2
          _ ≤ 2 ^ 60 * (1 / 2 ^ 21) := by norm_num
          _ ≤ _ := by gcongr; exact bB.1

end Zcm
