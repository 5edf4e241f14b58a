import Verif.Lemmas.F32Oct
import Verif.Lemmas.F32Vec3

/-!
# The octahedral encoding, as floats
-/

set_option exponentiation.threshold 300

namespace Zcm

open F32 WithLp NormedSpace

/-- the common factor -/
def octScale (v : V3 F32) : F32 := lit 1 / (F.abs v.x + F.abs v.y + F.abs v.z)

theorem encode_formula (v : V3 F32) : V3.encode_octahedral v =
    if v.z ≤ lit 0 then
      ⟨(lit 1 - F.abs (v.y * octScale v)) * F.signNotZero (v.x * octScale v),
        (lit 1 - F.abs (v.x * octScale v)) * F.signNotZero (v.y * octScale v)⟩
    else ⟨v.x * octScale v, v.y * octScale v⟩ := by
  unfold V3.encode_octahedral
  simp only
  split_ifs <;> rfl

theorem le_zero_iff {a : F32} (fa : a.IsFin = true) : a ≤ lit 0 ↔ a.val ≤ 0 := by
  constructor
  · intro h
    have h := h.2.2
    rw [key_le_iff, val_lit_zero] at h
    exact h
  · intro h
    refine ⟨isFin_ne_nan fa, isFin_ne_nan isFin_lit_zero, ?_⟩
    rw [key_le_iff, val_lit_zero]
    exact h

theorem encode_range {v : V3 F32} (hf : ∀ i, (coord v i).IsFin = true) (l1 : 1 / 2 ^ 100 ≤ taxicab v) (l2 : taxicab v ≤ 2 ^ 100) (i : Fin 2) :
    (coord (V3.encode_octahedral v) i).IsFin = true ∧ |(coord (V3.encode_octahedral v) i).val| ≤ 1 := by
  obtain ⟨fp, p1, -⟩ := oct_project (hf 0) (hf 1) (hf 2) (L := taxicab v) rfl l1 l2 (Or.inl rfl)
  obtain ⟨fq, q1, -⟩ := oct_project (hf 0) (hf 1) (hf 2) (L := taxicab v) rfl l1 l2 (Or.inr rfl)
  have key : ∀ p q : F32, p.IsFin = true → q.IsFin = true → |p.val| ≤ 1 → |q.val| ≤ 1 →
      ((lit 1 - F.abs q) * F.signNotZero p).IsFin = true ∧ |((lit 1 - F.abs q) * F.signNotZero p).val| ≤ 1 := by
    intro p q fp fq p1 q1
    obtain ⟨f, l, u, -⟩ := one_sub_abs fq q1
    obtain ⟨g, e⟩ := mul_sign f fp
    refine ⟨g, ?_⟩
    have : |(((lit 1 - F.abs q) * F.signNotZero p).val : ℝ)| ≤ 1 := by
      rw [e, abs_mul, abs_octSign, mul_one, abs_of_nonneg (by exact_mod_cast l)]
      exact_mod_cast u
    exact_mod_cast this
  rw [encode_formula]
  split_ifs
  · fin_cases i
    · exact key _ _ fp fq p1 q1
    · exact key _ _ fq fp q1 p1
  · fin_cases i
    · exact ⟨fp, p1⟩
    · exact ⟨fq, q1⟩

theorem taxicab_ratio {v : V3 F32} (l0 : 0 < taxicab v) :
    |((v.x.val / taxicab v : ℚ) : ℝ)| + |((v.y.val / taxicab v : ℚ) : ℝ)| + |((v.z.val / taxicab v : ℚ) : ℝ)| = 1 := by
  have : |v.x.val / taxicab v| + |v.y.val / taxicab v| + |v.z.val / taxicab v| = 1 := by
    rw [abs_div, abs_div, abs_div, abs_of_pos l0]
    field_simp
    rfl
  exact_mod_cast this

theorem oct_projectR {v : V3 F32} (hf : ∀ i, (coord v i).IsFin = true) (l1 : 1 / 2 ^ 100 ≤ taxicab v) (l2 : taxicab v ≤ 2 ^ 100)
    {w : F32} (hw : w = v.x ∨ w = v.y) :
    |((w * octScale v).val : ℝ) - ((w.val / taxicab v : ℚ) : ℝ)| ≤ 4.01 / 2 ^ 24 * |((w.val / taxicab v : ℚ) : ℝ)| + 1 / 2 ^ 150 := by
  have := (oct_project (hf 0) (hf 1) (hf 2) (L := taxicab v) rfl l1 l2 hw).2.2
  have := (Rat.cast_le (K := ℝ)).2 this
  push_cast at this ⊢
  exact this

theorem encode_near {v : V3 F32} (hf : ∀ i, (coord v i).IsFin = true) (l1 : 1 / 2 ^ 100 ≤ taxicab v) (l2 : taxicab v ≤ 2 ^ 100) (i : Fin 3) :
    |coord (octSurface (exactPair (V3.encode_octahedral v))) i - (coord v i).val / taxicab v| ≤ 12 / 2 ^ 24 := by
  have l0 : 0 < taxicab v := lt_of_lt_of_le (by norm_num) l1
  obtain ⟨fp, p1, -⟩ := oct_project (hf 0) (hf 1) (hf 2) (L := taxicab v) rfl l1 l2 (Or.inl rfl)
  obtain ⟨fq, q1, -⟩ := oct_project (hf 0) (hf 1) (hf 2) (L := taxicab v) rfl l1 l2 (Or.inr rfl)
  change (v.x * octScale v).IsFin = true at fp
  change (v.y * octScale v).IsFin = true at fq
  change |(v.x * octScale v).val| ≤ 1 at p1
  change |(v.y * octScale v).val| ≤ 1 at q1
  have hp := oct_projectR hf l1 l2 (Or.inl rfl)
  have hq := oct_projectR hf l1 l2 (Or.inr rfl)
  have hs := taxicab_ratio l0
  have hd : (4.01 / 2 ^ 24 * |((v.x.val / taxicab v : ℚ) : ℝ)| + 1 / 2 ^ 150) +
      (4.01 / 2 ^ 24 * |((v.y.val / taxicab v : ℚ) : ℝ)| + 1 / 2 ^ 150) ≤ 4.02 / 2 ^ 24 := by
    have := abs_nonneg ((v.z.val / taxicab v : ℚ) : ℝ)
    generalize |((v.x.val / taxicab v : ℚ) : ℝ)| = X at *
    generalize |((v.y.val / taxicab v : ℚ) : ℝ)| = Y at *
    have : X + Y ≤ 1 := by linarith
    norm_num at this ⊢
    linarith
  rw [encode_formula]
  split_ifs with hz
  · have z0 : ((v.z.val / taxicab v : ℚ) : ℝ) ≤ 0 := by
      exact_mod_cast div_nonpos_of_nonpos_of_nonneg ((le_zero_iff (hf 2)).1 hz) l0.le
    obtain ⟨fa, a0, a1, ha⟩ := one_sub_abs fq q1
    obtain ⟨fb, b0, b1, hb⟩ := one_sub_abs fp p1
    obtain ⟨-, e1⟩ := mul_sign fa fp
    obtain ⟨-, e2⟩ := mul_sign fb fq
    have rel : ∀ {p : F32}, |p.val| ≤ 1 → |(lit 1 - F.abs p).val - (1 - |p.val|)| ≤ 1 / 2 ^ 24 * (1 - |p.val|) →
        |((lit 1 - F.abs p).val : ℝ) - (1 - |(p.val : ℝ)|)| ≤ 1 / 2 ^ 24 ∧
        (((lit 1 - F.abs p).val : ℝ) = 0 → |(p.val : ℝ)| = 1) := by
      intro p hp h
      have p0 := abs_nonneg p.val
      constructor
      · have : |(lit 1 - F.abs p).val - (1 - |p.val|)| ≤ 1 / 2 ^ 24 := by linarith
        have := (Rat.cast_le (K := ℝ)).2 this
        push_cast at this ⊢
        exact this
      · intro h0
        have h0 : (lit 1 - F.abs p).val = 0 := by exact_mod_cast h0
        rw [h0] at h
        have := (abs_le.1 h).1
        have : |p.val| = 1 := by linarith
        exact_mod_cast this
    have := octSurface_lower hs z0 hp hq hd (by norm_num : (0 : ℝ) ≤ 1 / 2 ^ 24) (by exact_mod_cast a0) (by exact_mod_cast b0)
      (by exact_mod_cast a1) (by exact_mod_cast b1) (rel q1 ha).1 (rel p1 hb).1 (rel q1 ha).2 (rel p1 hb).2
    rw [← e1, ← e2] at this
    obtain ⟨r1, r2, r3⟩ := this
    push_cast at r1 r2 r3
    fin_cases i
    · exact r1.trans (by norm_num)
    · exact r2.trans (by norm_num)
    · exact r3.trans (by norm_num)
  · have z0 : 0 ≤ ((v.z.val / taxicab v : ℚ) : ℝ) := by
      have : ¬ v.z.val ≤ 0 := fun h => hz ((le_zero_iff (hf 2)).2 h)
      exact_mod_cast div_nonneg (not_le.1 this).le l0.le
    obtain ⟨r1, r2, r3⟩ := octSurface_upper hs z0 hp hq hd
    push_cast at r1 r2 r3
    fin_cases i
    · exact r1.trans (by norm_num)
    · exact r2.trans (by norm_num)
    · exact r3.trans (by norm_num)

/-- what `decode_octahedral` normalises, in the upper half of the square -/
theorem decode_raw {e : V2 F32} (fx : e.x.IsFin = true) (fy : e.y.IsFin = true) (h : |e.x.val| + |e.y.val| ≤ 1) :
    ∃ z : F32, V2.decode_octahedral e = V3.normalize ⟨e.x, e.y, z⟩ ∧ z.IsFin = true ∧
      |z.val - (1 - |e.x.val| - |e.y.val|)| ≤ 2.01 / 2 ^ 24 := by
  have x0 := abs_nonneg e.x.val
  have y0 := abs_nonneg e.y.val
  obtain ⟨fa, a0, a1, ha⟩ := one_sub_abs fx (by linarith)
  have ya : |e.y.val| ≤ (lit 1 - F.abs e.x).val := by
    rw [sub_fin isFin_lit_one (isFin_fabs fx), ← val_fabsQ e.y]
    refine key_le_iff.1 (le_key_round (isFin_fabs fy) ?_ _)
    rw [val_lit_one, val_fabsQ, val_fabsQ]
    linarith
  have e2 := sub_fin fa (isFin_fabs fy)
  rw [val_fabsQ] at e2
  obtain ⟨fz, z0, z1⟩ := round_between isFin_lit_one (x := (lit 1 - F.abs e.x).val - |e.y.val|) (by linarith)
    (by rw [val_lit_one]; linarith) ((lit 1 - F.abs e.x : F32).sgn && !(F.abs e.y).sgn)
  rw [← e2] at fz z0 z1
  refine ⟨lit 1 - F.abs e.x - F.abs e.y, ?_, fz, ?_⟩
  · unfold V2.decode_octahedral
    simp only
    rw [if_neg]
    intro hlt
    have := lt_val_of_lt hlt
    rw [val_lit_zero] at this
    have z0' : (0 : ℝ) ≤ (lit 1 - F.abs e.x - F.abs e.y).val := by exact_mod_cast z0
    push_cast at this
    linarith
  · have := sub_error_rel fz
    rw [val_fabsQ, abs_of_nonneg (a := (lit 1 - F.abs e.x).val - |e.y.val|) (by linarith)] at this
    generalize (lit 1 - F.abs e.x - F.abs e.y).val = z at *
    generalize (lit 1 - F.abs e.x).val = a at *
    obtain ⟨i1, i2⟩ := abs_le.1 ha
    obtain ⟨j1, j2⟩ := abs_le.1 this
    rw [abs_le]
    constructor <;> linarith

theorem norm_ge_of_taxicab {r : Space} (h : |r 0| + |r 1| + |r 2| = 1) : 0.577 ≤ ‖r‖ ∧ ‖r‖ ≤ 1 := by
  have e : ‖r‖ ^ 2 = |r 0| ^ 2 + |r 1| ^ 2 + |r 2| ^ 2 := by
    rw [EuclideanSpace.norm_sq_eq, Fin.sum_univ_three]
    simp only [Real.norm_eq_abs]
  have n := norm_nonneg r
  have a := abs_nonneg (r 0)
  have b := abs_nonneg (r 1)
  have c := abs_nonneg (r 2)
  generalize |r 0| = x at *
  generalize |r 1| = y at *
  generalize |r 2| = z at *
  constructor
  · refine le_of_sq_le_sq ?_ n
    rw [e]
    nlinarith [sq_nonneg (x - y), sq_nonneg (y - z), sq_nonneg (x - z)]
  · refine le_of_sq_le_sq ?_ zero_le_one
    rw [e]
    nlinarith [mul_nonneg a b, mul_nonneg a c, mul_nonneg b c]

theorem norm_le_of_three {r : Space} {a b c d : ℝ} (h0 : |r 0| ≤ a) (h1 : |r 1| ≤ b) (h2 : |r 2| ≤ c) (hd : 0 ≤ d)
    (h : a ^ 2 + b ^ 2 + c ^ 2 ≤ d ^ 2) : ‖r‖ ≤ d := by
  have e : ‖r‖ ^ 2 = |r 0| ^ 2 + |r 1| ^ 2 + |r 2| ^ 2 := by
    rw [EuclideanSpace.norm_sq_eq, Fin.sum_univ_three]
    simp only [Real.norm_eq_abs]
  refine le_of_sq_le_sq ?_ hd
  rw [e]
  have := pow_le_pow_left₀ (abs_nonneg (r 0)) h0 2
  have := pow_le_pow_left₀ (abs_nonneg (r 1)) h1 2
  have := pow_le_pow_left₀ (abs_nonneg (r 2)) h2 2
  linarith

theorem decode_near {e : V2 F32} (fx : e.x.IsFin = true) (fy : e.y.IsFin = true) (h : |e.x.val| + |e.y.val| ≤ 1) :
    NearV (V2.decode_octahedral e) (normalize (toLp 2 (coord (octSurface (exactPair e))) : Space)) (1 / 2 ^ 20) := by
  obtain ⟨z, hz, fz, ez⟩ := decode_raw fx fy h
  have hR : |(e.x.val : ℝ)| + |(e.y.val : ℝ)| ≤ 1 := by exact_mod_cast h
  have ezR : |(z.val : ℝ) - (1 - |(e.x.val : ℝ)| - |(e.y.val : ℝ)|)| ≤ 2.01 / 2 ^ 24 := by
    have := (Rat.cast_le (K := ℝ)).2 ez
    push_cast at this ⊢
    exact this
  rw [hz]
  have s : octSurface (exactPair e) = ⟨e.x.val, e.y.val, 1 - |(e.x.val : ℝ)| - |(e.y.val : ℝ)|⟩ := by
    unfold octSurface exactPair
    rw [if_pos hR]
  rw [s]
  have nr := norm_ge_of_taxicab (r := (toLp 2 (coord (⟨e.x.val, e.y.val, 1 - |(e.x.val : ℝ)| - |(e.y.val : ℝ)|⟩ : V3 ℝ)) : Space)) (by
    simp only [coord_v3_0, coord_v3_1, coord_v3_2]
    rw [abs_of_nonneg (a := 1 - |(e.x.val : ℝ)| - |(e.y.val : ℝ)|) (by linarith)]
    ring)
  have near : NearV ⟨e.x, e.y, z⟩ (toLp 2 (coord (⟨e.x.val, e.y.val, 1 - |(e.x.val : ℝ)| - |(e.y.val : ℝ)|⟩ : V3 ℝ)) : Space) (2.01 / 2 ^ 24) := by
    refine ⟨fun i => by fin_cases i <;> assumption, norm_le_of_three (a := 0) (b := 0) (c := 2.01 / 2 ^ 24) ?_ ?_ ?_ (by norm_num) (by norm_num)⟩
    · simp [exactly]
    · simp [exactly]
    · simpa [exactly] using ezR
  generalize (toLp 2 (coord (⟨e.x.val, e.y.val, 1 - |(e.x.val : ℝ)| - |(e.y.val : ℝ)|⟩ : V3 ℝ)) : Space) = r at *
  refine (near.normalize (by linarith) (by linarith) (by linarith)).mono ?_
  have : 2 * (2.01 / 2 ^ 24) / ‖r‖ ≤ 7 / 2 ^ 24 := by
    rw [div_le_iff₀ (by linarith)]
    linarith
  linarith

theorem roundtrip_near {v : V3 F32} (hf : ∀ i, (coord v i).IsFin = true) (l1 : 1 / 2 ^ 100 ≤ taxicab v) (l2 : taxicab v ≤ 2 ^ 100)
    (hz : 5 / 2 ^ 24 * taxicab v ≤ v.z.val) :
    NearV (V2.decode_octahedral (V3.encode_octahedral v)) (normalize (exactly v)) (1 / 2 ^ 19) := by
  have l0 : 0 < taxicab v := lt_of_lt_of_le (by norm_num) l1
  have l0R : (0 : ℝ) < taxicab v := by exact_mod_cast l0
  have z0 : 0 < v.z.val := lt_of_lt_of_le (by positivity) hz
  have enc : V3.encode_octahedral v = ⟨v.x * octScale v, v.y * octScale v⟩ := by
    rw [encode_formula, if_neg]
    intro c
    have := (le_zero_iff (hf 2)).1 c
    change v.z.val ≤ 0 at this
    linarith
  obtain ⟨fp, -, ep⟩ := oct_project (hf 0) (hf 1) (hf 2) (L := taxicab v) rfl l1 l2 (Or.inl rfl)
  obtain ⟨fq, -, eq⟩ := oct_project (hf 0) (hf 1) (hf 2) (L := taxicab v) rfl l1 l2 (Or.inr rfl)
  have hp := oct_projectR hf l1 l2 (Or.inl rfl)
  have hq := oct_projectR hf l1 l2 (Or.inr rfl)
  have hs := taxicab_ratio l0
  have zR : 5 / 2 ^ 24 ≤ ((v.z.val / taxicab v : ℚ) : ℝ) := by
    have : 5 / 2 ^ 24 ≤ v.z.val / taxicab v := by rw [le_div_iff₀ l0]; exact hz
    have := (Rat.cast_le (K := ℝ)).2 this
    push_cast at this ⊢
    exact this
  have nr := norm_ge_of_taxicab (r := (taxicab v : ℝ)⁻¹ • exactly v) (by
    rw [← hs]
    simp [exactly, div_eq_inv_mul])
  rw [show normalize (exactly v) = normalize ((taxicab v : ℝ)⁻¹ • exactly v) from (normalize_smul_of_pos (by positivity) _).symm]
  have hr : ∀ i, ((taxicab v : ℝ)⁻¹ • exactly v) i = (((coord v i).val / taxicab v : ℚ) : ℝ) := by
    intro i
    simp [exactly, div_eq_inv_mul]
  have r0 := hr 0
  have r1 := hr 1
  have r2 := hr 2
  simp only [coord_v3_0, coord_v3_1, coord_v3_2] at r0 r1 r2
  rw [abs_of_nonneg (a := ((v.z.val / taxicab v : ℚ) : ℝ)) (by linarith)] at hs
  have sum1 : |((v.x * octScale v).val : ℝ)| + |((v.y * octScale v).val : ℝ)| ≤ 1 := by
    have a1 := (abs_le.1 ((abs_abs_sub_abs_le _ _).trans hp)).2
    have a2 := (abs_le.1 ((abs_abs_sub_abs_le _ _).trans hq)).2
    have := abs_nonneg ((v.x.val / taxicab v : ℚ) : ℝ)
    have := abs_nonneg ((v.y.val / taxicab v : ℚ) : ℝ)
    generalize |((v.x.val / taxicab v : ℚ) : ℝ)| = X at *
    generalize |((v.y.val / taxicab v : ℚ) : ℝ)| = Y at *
    norm_num at *
    linarith
  obtain ⟨z, hz', fz, ez⟩ := decode_raw (e := ⟨v.x * octScale v, v.y * octScale v⟩) fp fq (by exact_mod_cast sum1)
  rw [enc, hz']
  have ezR : |(z.val : ℝ) - (1 - |((v.x * octScale v).val : ℝ)| - |((v.y * octScale v).val : ℝ)|)| ≤ 2.01 / 2 ^ 24 := by
    have := (Rat.cast_le (K := ℝ)).2 ez
    push_cast at this ⊢
    exact this
  have near : NearV ⟨v.x * octScale v, v.y * octScale v, z⟩ ((taxicab v : ℝ)⁻¹ • exactly v) (7.3 / 2 ^ 24) := by
    refine ⟨fun i => by fin_cases i <;> assumption, norm_le_of_three
      (a := 4.01 / 2 ^ 24 * |((v.x.val / taxicab v : ℚ) : ℝ)| + 1 / 2 ^ 150)
      (b := 4.01 / 2 ^ 24 * |((v.y.val / taxicab v : ℚ) : ℝ)| + 1 / 2 ^ 150) (c := 6.04 / 2 ^ 24) ?_ ?_ ?_ (by norm_num) ?_⟩
    · rw [PiLp.sub_apply, r0]
      exact hp
    · rw [PiLp.sub_apply, r1]
      exact hq
    · rw [PiLp.sub_apply, r2]
      change |(z.val : ℝ) - _| ≤ _
      have a1 := abs_le.1 ((abs_abs_sub_abs_le _ _).trans hp)
      have a2 := abs_le.1 ((abs_abs_sub_abs_le _ _).trans hq)
      obtain ⟨c1, c2⟩ := abs_le.1 ezR
      obtain ⟨a1, a1'⟩ := a1
      obtain ⟨a2, a2'⟩ := a2
      generalize |((v.x.val / taxicab v : ℚ) : ℝ)| = X at *
      generalize |((v.y.val / taxicab v : ℚ) : ℝ)| = Y at *
      generalize ((v.z.val / taxicab v : ℚ) : ℝ) = Z at *
      rw [abs_le]
      norm_num at *
      constructor <;> linarith
    · have X0 := abs_nonneg ((v.x.val / taxicab v : ℚ) : ℝ)
      have Y0 := abs_nonneg ((v.y.val / taxicab v : ℚ) : ℝ)
      generalize |((v.x.val / taxicab v : ℚ) : ℝ)| = X at *
      generalize |((v.y.val / taxicab v : ℚ) : ℝ)| = Y at *
      have xy : X + Y ≤ 1 := by linarith
      have : X ^ 2 + Y ^ 2 ≤ 1 := by nlinarith [mul_nonneg X0 Y0]
      nlinarith
  generalize (taxicab v : ℝ)⁻¹ • exactly v = r at *
  refine (near.normalize (by linarith) (by linarith) (by linarith)).mono ?_
  have : 2 * (7.3 / 2 ^ 24) / ‖r‖ ≤ 25.9 / 2 ^ 24 := by
    rw [div_le_iff₀ (by linarith)]
    linarith
  linarith

end Zcm
