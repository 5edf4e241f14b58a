import Verif.Lemmas.F32Approx

/-!
# Relative errors of products and quotients

`Rel x r e`: the float `x` is finite and within relative `e` of the exact number `r`.
-/

set_option exponentiation.threshold 300

namespace Zcm.F32

structure Rel (x : F32) (r e : ℝ) : Prop where
  fin : x.IsFin = true
  err : |(x.val : ℝ) - r| ≤ e * |r|

theorem Rel.exact {x : F32} (h : x.IsFin = true) : Rel x x.val 0 := ⟨h, by simp⟩

theorem Rel.lit {x : F32} {r : ℝ} (h : x.IsFin = true) (e : (x.val : ℝ) = r) : Rel x r 0 := ⟨h, by simp [e]⟩

theorem Rel.mono {x : F32} {r e f : ℝ} (h : Rel x r e) (hf : e ≤ f) : Rel x r f :=
  ⟨h.fin, h.err.trans (mul_le_mul_of_nonneg_right hf (abs_nonneg _))⟩

theorem Rel.congr {x : F32} {r s e : ℝ} (h : Rel x r e) (hs : r = s) : Rel x s e := hs ▸ h

theorem Rel.abs_le {x : F32} {r e : ℝ} (h : Rel x r e) : |(x.val : ℝ)| ≤ (1 + e) * |r| := by
  calc |(x.val : ℝ)| = |r + (x.val - r)| := by congr 1; ring
    _ ≤ |r| + |(x.val : ℝ) - r| := abs_add_le _ _
    _ ≤ _ := by have := h.err; linarith

theorem Rel.le_abs {x : F32} {r e : ℝ} (h : Rel x r e) : (1 - e) * |r| ≤ |(x.val : ℝ)| := by
  have : |r| ≤ |(x.val : ℝ)| + |(x.val : ℝ) - r| := by
    calc |r| = |x.val - (x.val - r)| := by congr 1; ring
      _ ≤ _ := abs_sub _ _
  have := h.err
  linarith

theorem Rel.neg {x : F32} {r e : ℝ} (h : Rel x r e) : Rel (-x) (-r) e := by
  refine ⟨by rw [isFin_neg]; exact h.fin, ?_⟩
  rw [val_neg, abs_neg]
  push_cast
  rw [← neg_sub', abs_neg]
  exact h.err

/-- a sum of two given floats: no underflow -/
theorem rel_add {a b : F32} (ha : a.IsFin = true) (hb : b.IsFin = true) (h : |(a.val : ℝ) + b.val| ≤ 2 ^ 127) :
    Rel (a + b) (a.val + b.val) (1 / 2 ^ 24) := by
  have q : |a.val + b.val| ≤ 2 ^ 127 := by exact_mod_cast h
  have f : (a + b).IsFin = true := by
    rw [add_fin ha hb]; exact isFin_round (q.trans (by norm_num))
  refine ⟨f, ?_⟩
  have : |((a + b).val : ℝ) - (a.val + b.val)| ≤ |(a.val : ℝ) + b.val| / 2 ^ 24 := by exact_mod_cast add_error_rel f
  refine this.trans (le_of_eq ?_)
  ring

theorem rel_sub {a b : F32} (ha : a.IsFin = true) (hb : b.IsFin = true) (h : |(a.val : ℝ) - b.val| ≤ 2 ^ 127) :
    Rel (a - b) (a.val - b.val) (1 / 2 ^ 24) := by
  have e : ((-b).val : ℝ) = -b.val := by rw [val_neg]; push_cast; ring
  have := rel_add ha (b := -b) (by rw [isFin_neg]; exact hb) (by rw [e]; exact h)
  rw [e] at this
  rw [sub_eq]
  exact this

theorem round_error_real {s : Bool} {q : ℚ} (h : (round s q).IsFin = true) :
    |((round s q).val : ℝ) - q| ≤ |(q : ℝ)| / 2 ^ 24 + 1 / 2 ^ 150 := by
  have := round_error h
  have h : ((|(round s q).val - q| : ℚ) : ℝ) ≤ ((|q| / 2 ^ 24 + 1 / 2 ^ 150 : ℚ) : ℝ) := Rat.cast_le.2 this
  simpa only [Rat.cast_abs, Rat.cast_sub, Rat.cast_add, Rat.cast_div, Rat.cast_pow, Rat.cast_ofNat,
      Rat.cast_one] using h

private theorem round_error_rel_real {s : Bool} {q : ℚ} (h : (round s q).IsFin = true) (hq : 1 / 2 ^ 126 ≤ |(q : ℝ)|) :
    |((round s q).val : ℝ) - q| ≤ |(q : ℝ)| / 2 ^ 24 := by
  have hq' : 1 / 2 ^ 126 ≤ |q| := by
    have : ((1 / 2 ^ 126 : ℚ) : ℝ) ≤ ((|q| : ℚ) : ℝ) := by push_cast; exact hq
    exact Rat.cast_le.1 this
  have h : ((|(round s q).val - q| : ℚ) : ℝ) ≤ ((|q| / 2 ^ 24 : ℚ) : ℝ) := Rat.cast_le.2 (round_error_rel h hq')
  simpa only [Rat.cast_abs, Rat.cast_sub, Rat.cast_add, Rat.cast_div, Rat.cast_pow, Rat.cast_ofNat,
      Rat.cast_one] using h

/-- rounding a number `q` that is itself within relative `d` of `r` -/
private theorem rel_round {s : Bool} {q : ℚ} {r d g : ℝ} (hd1 : d ≤ 1 / 2) (hq : |(q : ℝ) - r| ≤ d * |r|)
    (hg : (1 + d) * (1 + 1 / 2 ^ 24) ≤ 1 + g) (hu : |r| ≤ 2 ^ 126) :
    (round s q).IsFin = true ∧ |((round s q).val : ℝ) - r| ≤ g * |r| + 1 / 2 ^ 150 ∧
      (1 / 2 ^ 125 ≤ |r| → |((round s q).val : ℝ) - r| ≤ g * |r|) := by
  have r0 := abs_nonneg r
  have q1 : |(q : ℝ)| ≤ (1 + d) * |r| := by
    calc |(q : ℝ)| = |r + (q - r)| := by congr 1; ring
      _ ≤ |r| + |(q : ℝ) - r| := abs_add_le _ _
      _ ≤ _ := by linarith
  have q2 : (1 - d) * |r| ≤ |(q : ℝ)| := by
    have : |r| ≤ |(q : ℝ)| + |(q : ℝ) - r| := by
      calc |r| = |q - (q - r)| := by congr 1; ring
        _ ≤ _ := abs_sub _ _
    linarith
  have f : (round s q).IsFin = true := by
    apply isFin_round
    have : |(q : ℝ)| ≤ 3 / 2 * 2 ^ 126 := q1.trans (by
      calc (1 + d) * |r| ≤ (1 + 1 / 2) * 2 ^ 126 := by gcongr
        _ = _ := by norm_num)
    have : ((|q| : ℚ) : ℝ) ≤ (((2 ^ 24 - 1) * 2 ^ 104 : ℚ) : ℝ) := by
      push_cast
      exact this.trans (by norm_num)
    exact Rat.cast_le.1 this
  have tri : |((round s q).val : ℝ) - r| ≤ |((round s q).val : ℝ) - q| + |(q : ℝ) - r| := by
    calc |((round s q).val : ℝ) - r| = |(((round s q).val : ℝ) - q) + (q - r)| := by congr 1; ring
      _ ≤ _ := abs_add_le _ _
  have hg' : ((1 + d) * (1 + 1 / 2 ^ 24) - 1) * |r| ≤ g * |r| := by gcongr; linarith
  refine ⟨f, ?_, fun hl => ?_⟩
  · have := round_error_real f
    have : |(q : ℝ)| / 2 ^ 24 ≤ (1 + d) * |r| / 2 ^ 24 := by gcongr
    linarith
  · have e := round_error_rel_real f (by
      calc (1 : ℝ) / 2 ^ 126 = (1 - 1 / 2) * (1 / 2 ^ 125) := by norm_num
        _ ≤ (1 - d) * |r| := by gcongr; linarith
        _ ≤ _ := q2)
    have : |(q : ℝ)| / 2 ^ 24 ≤ (1 + d) * |r| / 2 ^ 24 := by gcongr
    linarith

private theorem prod_close {X Y r s e f : ℝ} (hx : |X - r| ≤ e * |r|) (hy : |Y - s| ≤ f * |s|) :
    |X * Y - r * s| ≤ ((1 + e) * (1 + f) - 1) * |r * s| := by
  have := abs_nonneg r
  have := abs_nonneg s
  have h1 := abs_nonneg (X - r)
  have h2 := abs_nonneg (Y - s)
  have h3 := h1.trans hx
  calc |X * Y - r * s| = |r * (Y - s) + (s * (X - r) + (X - r) * (Y - s))| := by congr 1; ring
    _ ≤ |r| * |Y - s| + (|s| * |X - r| + |X - r| * |Y - s|) := by
        refine (abs_add_le _ _).trans (add_le_add (abs_mul _ _).le ((abs_add_le _ _).trans ?_))
        rw [abs_mul, abs_mul]
    _ ≤ |r| * (f * |s|) + (|s| * (e * |r|) + (e * |r|) * (f * |s|)) := by gcongr
    _ = _ := by rw [abs_mul]; ring

private theorem quot_close {X Y r s e f d : ℝ} (he : 0 ≤ e) (hf : 0 ≤ f) (hf1 : f < 1) (hs : s ≠ 0)
    (hx : |X - r| ≤ e * |r|) (hy : |Y - s| ≤ f * |s|) (hd : 1 + e ≤ (1 + d) * (1 - f)) :
    Y ≠ 0 ∧ |X / Y - r / s| ≤ d * |r / s| := by
  have s0 := abs_pos.2 hs
  have r0 := abs_nonneg r
  have yl : (1 - f) * |s| ≤ |Y| := by
    have : |s| ≤ |Y| + |Y - s| := by
      calc |s| = |Y - (Y - s)| := by congr 1; ring
        _ ≤ _ := abs_sub _ _
    linarith
  have y0 : 0 < |Y| := lt_of_lt_of_le (mul_pos (by linarith) s0) yl
  have hY : Y ≠ 0 := abs_pos.1 y0
  refine ⟨hY, ?_⟩
  have : X / Y - r / s = ((X - r) * s - r * (Y - s)) / (Y * s) := by field_simp; ring
  rw [this, abs_div, abs_mul, abs_div, div_le_iff₀ (mul_pos y0 s0)]
  have n : |(X - r) * s - r * (Y - s)| ≤ (e + f) * (|r| * |s|) := by
    refine (abs_sub _ _).trans ?_
    rw [abs_mul, abs_mul]
    calc |X - r| * |s| + |r| * |Y - s| ≤ (e * |r|) * |s| + |r| * (f * |s|) := by gcongr
      _ = _ := by ring
  have d0 : 0 ≤ d := by nlinarith
  have k : d * (|r| / |s|) * (|Y| * |s|) = d * |r| * |Y| := by field_simp
  rw [k]
  refine n.trans ?_
  calc (e + f) * (|r| * |s|) ≤ (d * (1 - f)) * (|r| * |s|) := by gcongr; linarith
    _ = d * |r| * ((1 - f) * |s|) := by ring
    _ ≤ d * |r| * |Y| := by gcongr

/-- product, no underflow -/
theorem Rel.mul {x y : F32} {r s e f g : ℝ} (hx : Rel x r e) (hy : Rel y s f)
    (h1 : (1 + e) * (1 + f) ≤ 3 / 2) (hg : (1 + e) * (1 + f) * (1 + 1 / 2 ^ 24) ≤ 1 + g) (hl : 1 / 2 ^ 125 ≤ |r * s|)
    (hu : |r * s| ≤ 2 ^ 126) : Rel (x * y) (r * s) g := by
  have p := prod_close hx.err hy.err
  have := rel_round (s := x.sgn ^^ y.sgn) (q := x.val * y.val) (r := r * s) (d := (1 + e) * (1 + f) - 1) (g := g) (by linarith)
    (by push_cast; exact p) (by linarith) hu
  rw [← mul_fin hx.fin hy.fin] at this
  exact ⟨this.1, this.2.2 hl⟩

/-- product, possible underflow -/
theorem Rel.mul' {x y : F32} {r s e f g : ℝ} (hx : Rel x r e) (hy : Rel y s f)
    (h1 : (1 + e) * (1 + f) ≤ 3 / 2) (hg : (1 + e) * (1 + f) * (1 + 1 / 2 ^ 24) ≤ 1 + g)
    (hu : |r * s| ≤ 2 ^ 126) : (x * y).IsFin = true ∧ |((x * y).val : ℝ) - r * s| ≤ g * |r * s| + 1 / 2 ^ 150 := by
  have p := prod_close hx.err hy.err
  have := rel_round (s := x.sgn ^^ y.sgn) (q := x.val * y.val) (r := r * s) (d := (1 + e) * (1 + f) - 1) (g := g) (by linarith)
    (by push_cast; exact p) (by linarith) hu
  rw [← mul_fin hx.fin hy.fin] at this
  exact ⟨this.1, this.2.1⟩

private theorem div_both {x y : F32} {r s e f d g : ℝ} (hx : Rel x r e) (hy : Rel y s f) (he : 0 ≤ e) (hf : 0 ≤ f)
    (hf1 : f < 1) (hs : s ≠ 0) (hd : 1 + e ≤ (1 + d) * (1 - f)) (hd1 : d ≤ 1 / 2)
    (hg : (1 + d) * (1 + 1 / 2 ^ 24) ≤ 1 + g) (hu : |r / s| ≤ 2 ^ 126) :
    (x / y).IsFin = true ∧ |((x / y).val : ℝ) - r / s| ≤ g * |r / s| + 1 / 2 ^ 150 ∧
      (1 / 2 ^ 125 ≤ |r / s| → |((x / y).val : ℝ) - r / s| ≤ g * |r / s|) := by
  obtain ⟨y0, p⟩ := quot_close he hf hf1 hs hx.err hy.err hd
  have y0' : y.val ≠ 0 := by exact_mod_cast y0
  have := rel_round (s := x.sgn ^^ y.sgn) (q := x.val / y.val) (r := r / s) (d := d) (g := g) hd1
    (by push_cast; exact p) hg hu
  rw [← div_fin hx.fin hy.fin y0'] at this
  exact this

/-- quotient, no underflow -/
theorem Rel.div {x y : F32} {r s e f d g : ℝ} (hx : Rel x r e) (hy : Rel y s f) (he : 0 ≤ e) (hf : 0 ≤ f)
    (hf1 : f < 1) (hs : s ≠ 0) (hd : 1 + e ≤ (1 + d) * (1 - f)) (hd1 : d ≤ 1 / 2)
    (hg : (1 + d) * (1 + 1 / 2 ^ 24) ≤ 1 + g) (hl : 1 / 2 ^ 125 ≤ |r / s|) (hu : |r / s| ≤ 2 ^ 126) :
    Rel (x / y) (r / s) g :=
  have := div_both hx hy he hf hf1 hs hd hd1 hg hu
  ⟨this.1, this.2.2 hl⟩

/-- quotient, possible underflow -/
theorem Rel.div' {x y : F32} {r s e f d g : ℝ} (hx : Rel x r e) (hy : Rel y s f) (he : 0 ≤ e) (hf : 0 ≤ f)
    (hf1 : f < 1) (hs : s ≠ 0) (hd : 1 + e ≤ (1 + d) * (1 - f)) (hd1 : d ≤ 1 / 2)
    (hg : (1 + d) * (1 + 1 / 2 ^ 24) ≤ 1 + g) (hu : |r / s| ≤ 2 ^ 126) :
    (x / y).IsFin = true ∧ |((x / y).val : ℝ) - r / s| ≤ g * |r / s| + 1 / 2 ^ 150 :=
  have := div_both hx hy he hf hf1 hs hd hd1 hg hu
  ⟨this.1, this.2.1⟩

/-- sum of two computed numbers -/
theorem add_close {x y : F32} {r s E F : ℝ} (fx : x.IsFin = true) (fy : y.IsFin = true) (hx : |(x.val : ℝ) - r| ≤ E)
    (hy : |(y.val : ℝ) - s| ≤ F) (hb : |r| + |s| + (E + F) ≤ 2 ^ 127) :
    (x + y).IsFin = true ∧ |((x + y).val : ℝ) - (r + s)| ≤ E + F + (|r| + |s| + (E + F)) / 2 ^ 24 := by
  have b : |(x.val : ℝ) + y.val| ≤ |r| + |s| + (E + F) := by
    calc |(x.val : ℝ) + y.val| = |(r + s) + ((x.val - r) + (y.val - s))| := by congr 1; ring
      _ ≤ (|r| + |s|) + (|(x.val : ℝ) - r| + |(y.val : ℝ) - s|) :=
          (abs_add_le _ _).trans (add_le_add (abs_add_le _ _) (abs_add_le _ _))
      _ ≤ _ := by linarith
  have a := rel_add fx fy (b.trans hb)
  refine ⟨a.fin, ?_⟩
  have e := a.err
  calc |((x + y).val : ℝ) - (r + s)| = |(((x + y).val : ℝ) - (x.val + y.val)) + ((x.val - r) + (y.val - s))| := by
        congr 1; ring
    _ ≤ |((x + y).val : ℝ) - (x.val + y.val)| + (|(x.val : ℝ) - r| + |(y.val : ℝ) - s|) :=
        (abs_add_le _ _).trans (add_le_add le_rfl (abs_add_le _ _))
    _ ≤ _ := by linarith

/-- one coordinate of an axis-aligned map: scale `A / (hi - lo)`, offset `T / (hi - lo)` -/
theorem axis_map {A T lo hi p : F32} {a t : ℝ} (hA : A.IsFin = true) (ea : (A.val : ℝ) = a) (a1 : 1 ≤ |a|) (a2 : |a| ≤ 2)
    (hT : Rel T t (1 / 2 ^ 24)) (ht : |t| ≤ 2 ^ 61) (fl : lo.IsFin = true) (fh : hi.IsFin = true)
    (w1 : 1 / 2 ^ 60 ≤ |(hi.val : ℝ) - lo.val|) (w2 : |(hi.val : ℝ) - lo.val| ≤ 2 ^ 61) (fp : p.IsFin = true)
    (hp : |(p.val : ℝ)| ≤ 2 ^ 60) :
    Rel (A / (hi - lo)) (a / (hi.val - lo.val)) (3 / 2 ^ 24) ∧
    ((T / (hi - lo)).IsFin = true ∧ |((T / (hi - lo)).val : ℝ) - t / (hi.val - lo.val)| ≤
      4 / 2 ^ 24 * |t / (hi.val - lo.val)| + 1 / 2 ^ 150) ∧
    (A / (hi - lo) * p + T / (hi - lo)).IsFin = true ∧
    |((A / (hi - lo) * p + T / (hi - lo)).val : ℝ) - (a * p.val + t) / (hi.val - lo.val)| ≤
      5 / 2 ^ 24 * ((|a * p.val| + |t|) / |(hi.val : ℝ) - lo.val|) + 1 / 2 ^ 148 := by
  have W := rel_sub fh fl (w2.trans (by norm_num))
  generalize hi - lo = D at *
  generalize (hi.val : ℝ) - lo.val = w at *
  have w0 : 0 < |w| := lt_of_lt_of_le (by norm_num) w1
  have wne : w ≠ 0 := abs_pos.1 w0
  have s2 : |a / w| ≤ 2 ^ 61 := by
    rw [abs_div, div_le_iff₀ w0]
    calc |a| ≤ 2 ^ 61 * (1 / 2 ^ 60) := a2.trans (by norm_num)
      _ ≤ _ := by gcongr
  have s1 : 1 / 2 ^ 61 ≤ |a / w| := by
    rw [abs_div, le_div_iff₀ w0]
    calc 1 / 2 ^ 61 * |w| ≤ 1 / 2 ^ 61 * 2 ^ 61 := by gcongr
      _ ≤ _ := by linarith
  have t2 : |t / w| ≤ 2 ^ 121 := by
    rw [abs_div, div_le_iff₀ w0]
    calc |t| ≤ 2 ^ 121 * (1 / 2 ^ 60) := ht.trans (by norm_num)
      _ ≤ _ := by gcongr
  have S := Rel.div (g := 2.1 / 2 ^ 24) (d := 1.05 / 2 ^ 24) (Rel.lit hA ea) W le_rfl (by norm_num) (by norm_num) wne
    (by norm_num) (by norm_num) (by norm_num) (le_trans (by norm_num) s1) (s2.trans (by norm_num))
  have Q := Rel.div' (g := 3.2 / 2 ^ 24) (d := 2.1 / 2 ^ 24) hT W (by norm_num) (by norm_num) (by norm_num) wne
    (by norm_num) (by norm_num) (by norm_num) (t2.trans (by norm_num))
  have sp : |a / w * p.val| ≤ 2 ^ 121 := by
    rw [abs_mul]
    calc |a / w| * |(p.val : ℝ)| ≤ 2 ^ 61 * 2 ^ 60 := by gcongr
      _ = _ := by norm_num
  have P := Rel.mul' (g := 3.2 / 2 ^ 24) S (Rel.exact fp) (by norm_num) (by norm_num)
    (sp.trans (by norm_num))
  have Z := add_close P.1 Q.1 P.2 Q.2 (by
    have n1 := abs_nonneg (a / w * p.val)
    have n2 := abs_nonneg (t / w)
    linarith)
  refine ⟨S.mono (by norm_num), ⟨Q.1, Q.2.trans ?_⟩, Z.1, ?_⟩
  · gcongr; norm_num
  · have e1 : (a * p.val + t) / w = a / w * p.val + t / w := by field_simp
    have e2 : (|a * p.val| + |t|) / |w| = |a / w * p.val| + |t / w| := by
      rw [abs_mul, abs_mul, abs_div, abs_div]; field_simp
    rw [e1, e2]
    refine Z.2.trans ?_
    have n1 := abs_nonneg (a / w * p.val)
    have n2 := abs_nonneg (t / w)
    generalize |a / w * p.val| = u at *
    generalize |t / w| = v at *
    linarith

end Zcm.F32
