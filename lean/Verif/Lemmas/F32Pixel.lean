import Verif.Spec.Pixel
import Verif.Lemmas.F32Adjacent
import Verif.Lemmas.F32Box

/-!
# Scaling numbers from 0 to 1 by a number of pixels in binary32
-/

set_option exponentiation.threshold 300

namespace Zcm.F32

/-- A factor below 1 makes every normal number strictly smaller, also after rounding. -/
theorem mul_lt_self {u s : F32} (fu : u.IsFin = true) (fs : s.IsFin = true) (h0 : 0 ≤ u.val) (h1 : u.val < 1) (hs : 1 / 2 ^ 125 ≤ s.val) :
    (u * s).IsFin = true ∧ 0 ≤ (u * s).val ∧ (u * s).val < s.val := by
  have s0 : 0 < s.val := lt_of_lt_of_le (by positivity) hs
  have f1 : (lit 1 : F32).IsFin = true := by decide +kernel
  have v1 : (lit 1 : F32).val = 1 := by decide +kernel
  have f0 : (lit 0 : F32).IsFin = true := by decide +kernel
  have v0 : (lit 0 : F32).val = 0 := by decide +kernel
  have g := scaled_gap fu f1 0 (by rw [v1]; norm_num) (by rw [v1]; linarith)
  rw [v1] at g
  have ub : u.val * s.val ≤ (1 - 1 / 2 ^ 24) * s.val := by
    apply mul_le_mul_of_nonneg_right _ s0.le
    norm_num at g ⊢; linarith
  have us : 0 ≤ u.val * s.val := mul_nonneg h0 s0.le
  have us' : u.val * s.val ≤ s.val := by nlinarith
  rw [mul_fin fu fs]
  have fin := isFin_round_of_between f0 fs (by rw [v0]; exact us) us' (u.sgn ^^ s.sgn)
  refine ⟨fin, ?_, ?_⟩
  · have := le_key_round f0 (x := u.val * s.val) (by rw [v0]; exact us) (u.sgn ^^ s.sgn)
    have := key_le_iff.1 this
    rwa [v0] at this
  · rcases le_or_gt (1 / 2 ^ 126) (u.val * s.val) with c | c
    · have e := round_error_sharp fin (by rw [abs_of_nonneg us]; exact c)
      rw [abs_of_nonneg us] at e
      have e' := (_root_.abs_le.1 e).2
      have : u.val * s.val * (1 + 1 / (2 ^ 24 + 1)) < s.val := by
        calc _ ≤ (1 - 1 / 2 ^ 24) * s.val * (1 + 1 / (2 ^ 24 + 1)) := by gcongr
          _ = (1 - 1 / 2 ^ 24) * (1 + 1 / (2 ^ 24 + 1)) * s.val := by ring
          _ < 1 * s.val := by apply mul_lt_mul_of_pos_right _ s0; norm_num
          _ = _ := one_mul _
      have : u.val * s.val * (1 + 1 / (2 ^ 24 + 1)) = u.val * s.val + u.val * s.val / (2 ^ 24 + 1) := by ring
      linarith
    · obtain ⟨z, fz, vz⟩ := exists_float (M := 1) (t := 126) (by norm_num) (by norm_num)
      have := key_le_iff.1 (key_round_le fz (x := u.val * s.val) (by rw [vz]; push_cast; exact c.le) (u.sgn ^^ s.sgn))
      rw [vz] at this
      push_cast at this
      refine this.trans_lt (lt_of_lt_of_le ?_ hs)
      norm_num

theorem pixel_index {u s : F32} {n : ℤ} (fu : u.IsFin = true) (h0 : 0 ≤ u.val) (h1 : u.val < 1) (hs : IsInt s n) (n1 : 1 ≤ n)
    (n2 : n ≤ 2 ^ 24) :
    ∃ k : ℤ, IsInt (F.floor (u * s)) k ∧ 0 ≤ k ∧ k < n ∧ (k : ℚ) ≤ u.val * n + n / 2 ^ 24 ∧ u.val * n < k + 1 := by
  have nq : (1 : ℚ) ≤ n := by exact_mod_cast n1
  have nq2 : (n : ℚ) ≤ 2 ^ 24 := by exact_mod_cast n2
  obtain ⟨f, a, b⟩ := mul_lt_self fu hs.1 h0 h1 (by rw [hs.2]; refine le_trans ?_ nq; norm_num)
  rw [hs.2] at b
  have un : 0 ≤ u.val * n := mul_nonneg h0 (by linarith)
  have un' : u.val * n ≤ n := by nlinarith
  have e : u * s = round (u.sgn ^^ s.sgn) (u.val * n) := by rw [mul_fin fu hs.1, hs.2]
  have ib := round_between_ints (r := u.val * n) (by rw [abs_of_nonneg un]; linarith) (u.sgn ^^ s.sgn)
  rw [← e] at ib
  have er : |(u * s).val - u.val * n| ≤ |u.val * n| / 2 ^ 24 + 1 / 2 ^ 150 := by
    have := round_error (s := u.sgn ^^ s.sgn) (x := u.val * n) (by rw [← e]; exact f)
    rwa [← e] at this
  refine ⟨⌊(u * s).val⌋, ⟨isFin_floor f, val_floor f⟩, Int.floor_nonneg.2 a, Int.floor_lt.2 b, ?_, ?_⟩
  · have l := Int.floor_le (u * s).val
    rw [abs_of_nonneg un] at er
    have er' := (_root_.abs_le.1 er).2
    have f1 : (lit 1 : F32).IsFin = true := by decide +kernel
    have v1 : (lit 1 : F32).val = 1 := by decide +kernel
    have g := scaled_gap fu f1 0 (by rw [v1]; norm_num) (by rw [v1]; linarith)
    rw [v1] at g
    have : u.val * n ≤ (1 - 1 / 2 ^ 24) * n := by
      apply mul_le_mul_of_nonneg_right _ (by linarith)
      norm_num at g ⊢; linarith
    have : u.val * n / 2 ^ 24 + 1 / 2 ^ 150 ≤ n / 2 ^ 24 := by
      norm_num at this ⊢; linarith
    linarith
  · have : ⌊u.val * n⌋ ≤ ⌊(u * s).val⌋ := Int.le_floor.2 ib.2.1
    have : (⌊u.val * n⌋ : ℚ) ≤ ⌊(u * s).val⌋ := by exact_mod_cast this
    have := Int.lt_floor_add_one (u.val * n)
    linarith

/-- Dividing by a count and multiplying by it again. -/
theorem there_and_back {a s : F32} {n : ℤ} (fa : a.IsFin = true) (a0 : 0 ≤ a.val) (hs : IsInt s n) (n1 : 1 ≤ n) (n2 : n ≤ 2 ^ 21) (h : a.val ≤ n) :
    (a / s).IsFin = true ∧ |(a / s).val - a.val / n| ≤ 1 / 2 ^ 23 ∧ 0 ≤ (a / s).val ∧ (a / s).val ≤ 1 ∧
    (a / s * s).IsFin = true ∧ |(a / s * s).val - a.val| < 1 / 2 := by
  have nq : (1 : ℚ) ≤ n := by exact_mod_cast n1
  have nq2 : (n : ℚ) ≤ 2 ^ 21 := by exact_mod_cast n2
  have np : (0 : ℚ) < n := by linarith
  have r0 : 0 ≤ a.val / n := by positivity
  have r1 : a.val / n ≤ 1 := by rw [div_le_one np]; exact h
  have f1 : (lit 1 : F32).IsFin = true := by decide +kernel
  have v1 : (lit 1 : F32).val = 1 := by decide +kernel
  have f0 : (lit 0 : F32).IsFin = true := by decide +kernel
  have v0 : (lit 0 : F32).val = 0 := by decide +kernel
  have e : a / s = round (a.sgn ^^ s.sgn) (a.val / n) := by rw [div_fin fa hs.1 (by rw [hs.2]; exact np.ne'), hs.2]
  have c1 : (a / s).IsFin = true := by
    rw [e]; exact isFin_round_of_between f0 f1 (by rw [v0]; exact r0) (by rw [v1]; exact r1) _
  have c2 : 0 ≤ (a / s).val := by
    have := key_le_iff.1 (le_key_round f0 (x := a.val / n) (by rw [v0]; exact r0) (a.sgn ^^ s.sgn))
    rwa [v0, ← e] at this
  have c3 : (a / s).val ≤ 1 := by
    have := key_le_iff.1 (key_round_le f1 (x := a.val / n) (by rw [v1]; exact r1) (a.sgn ^^ s.sgn))
    rwa [v1, ← e] at this
  have er : |(a / s).val - a.val / n| ≤ a.val / n / 2 ^ 24 + 1 / 2 ^ 150 := by
    have := round_error (s := a.sgn ^^ s.sgn) (x := a.val / n) (by rw [← e]; exact c1)
    rwa [← e, abs_of_nonneg r0] at this
  generalize a / s = c at *
  have cn : 0 ≤ c.val * n := by positivity
  have cn' : c.val * n ≤ n := by nlinarith
  have e2 : c * s = round (c.sgn ^^ s.sgn) (c.val * n) := by rw [mul_fin c1 hs.1, hs.2]
  have c4 : (c * s).IsFin = true := by
    rw [e2]; exact isFin_round (by rw [abs_of_nonneg cn]; refine cn'.trans (nq2.trans ?_); norm_num)
  have er2 : |(c * s).val - c.val * n| ≤ c.val * n / 2 ^ 24 + 1 / 2 ^ 150 := by
    have := round_error (s := c.sgn ^^ s.sgn) (x := c.val * n) (by rw [← e2]; exact c4)
    rwa [← e2, abs_of_nonneg cn] at this
  refine ⟨c1, er.trans ?_, c2, c3, c4, ?_⟩
  · have : a.val / n / 2 ^ 24 ≤ 1 / 2 ^ 24 := by gcongr
    norm_num at this ⊢; linarith
  · have d : |c.val * n - a.val| ≤ 1 / 8 + 1 / 2 ^ 100 := by
      have : c.val * n - a.val = (c.val - a.val / n) * n := by field_simp
      rw [this, abs_mul, abs_of_pos np]
      calc _ ≤ (a.val / n / 2 ^ 24 + 1 / 2 ^ 150) * n := by gcongr
        _ ≤ (1 / 2 ^ 24 + 1 / 2 ^ 150) * 2 ^ 21 := by gcongr
        _ ≤ _ := by norm_num
    have d2 : c.val * n / 2 ^ 24 ≤ 1 / 8 := by
      calc _ ≤ (2 : ℚ) ^ 21 / 2 ^ 24 := by gcongr; linarith
        _ = _ := by norm_num
    have t : (c * s).val - a.val = ((c * s).val - c.val * n) + (c.val * n - a.val) := by ring
    rw [t]
    refine (abs_add_le _ _).trans_lt (lt_of_le_of_lt (add_le_add er2 d) ?_)
    norm_num at d2 ⊢; linarith

theorem pixel_center {x s : F32} {i n : ℤ} (hx : IsInt x i) (hs : IsInt s n) (i0 : 0 ≤ i) (i1 : i < n) (n2 : n ≤ 2 ^ 21) :
    Near ((x + lit (1 / 2)) / s) ((i + 1 / 2) / n) (1 / 2 ^ 23) ∧ 0 < ((x + lit (1 / 2)) / s).val ∧ ((x + lit (1 / 2)) / s).val < 1 ∧
    IsInt (F.floor ((x + lit (1 / 2)) / s * s)) i := by
  have fh : (lit (1 / 2) : F32).IsFin = true := by decide +kernel
  have vh : (lit (1 / 2) : F32).val = 1 / 2 := by decide +kernel
  obtain ⟨z, fz, vz⟩ := exists_float (M := 2 * i + 1) (t := 1) (by rw [abs_of_nonneg] <;> omega) (by norm_num)
  have ha : (x + lit (1 / 2)).IsFin = true ∧ (x + lit (1 / 2)).val = i + 1 / 2 := by
    rw [add_fin hx.1 fh, hx.2, vh]
    have := round_eq_val fz (x := (i : ℚ) + 1 / 2) (by rw [vz]; push_cast; ring)
    exact this _
  have iq : (0 : ℚ) ≤ i := by exact_mod_cast i0
  have iq' : (i : ℚ) + 1 ≤ n := by exact_mod_cast i1
  have nq2 : (n : ℚ) ≤ 2 ^ 21 := by exact_mod_cast n2
  have np : (0 : ℚ) < n := by linarith
  generalize x + lit (1 / 2) = a at *
  obtain ⟨c1, c2, c3, c4, c5, c6⟩ := there_and_back ha.1 (by rw [ha.2]; linarith) hs (by omega) n2 (by rw [ha.2]; linarith)
  rw [ha.2] at c2 c6
  have c2' := _root_.abs_le.1 c2
  have lo : 1 / 2 ^ 22 ≤ ((i : ℚ) + 1 / 2) / n := by
    rw [le_div_iff₀ np]; linarith
  have hi : ((i : ℚ) + 1 / 2) / n ≤ 1 - 1 / 2 ^ 22 := by
    rw [div_le_iff₀ np]; nlinarith
  refine ⟨⟨c1, ?_⟩, ?_, ?_, isFin_floor c5, ?_⟩
  · have : ((|(a / s).val - (i + 1 / 2) / n| : ℚ) : ℝ) ≤ ((1 / 2 ^ 23 : ℚ) : ℝ) := Rat.cast_le.2 c2
    push_cast at this
    exact this
  · norm_num at lo c2'; linarith [c2'.1]
  · norm_num at hi c2'; linarith [c2'.2]
  · rw [val_floor c5]
    congr 1
    rw [Int.floor_eq_iff]
    have := abs_lt.1 c6
    constructor <;> linarith

theorem halfAway_close (x : ℚ) : |(halfAway x : ℚ) - x| ≤ 1 / 2 := by
  unfold halfAway
  split_ifs
  · have := Int.floor_le (x + 1 / 2)
    have := Int.lt_floor_add_one (x + 1 / 2)
    rw [_root_.abs_le]; constructor <;> linarith
  · have := Int.le_ceil (x - 1 / 2)
    have := Int.ceil_lt_add_one (x - 1 / 2)
    rw [_root_.abs_le]; constructor <;> linarith

theorem isFin_roundF {a : F32} (h : a.IsFin = true) : (F.round a).IsFin = true ∧ (F.round a).val = halfAway a.val :=
  ⟨(integral_fin halfAway_between h).1, (integral_fin halfAway_between h).2.1⟩

theorem quantise_range {c s : F32} {n : ℤ} (hc : c ≠ .nan) (hs : IsInt s n) (n1 : 1 ≤ n) (n2 : n ≤ 2 ^ 24) :
    ∃ k : ℤ, IsInt (F.round (F.clamp c (lit 0) (lit 1) * s)) k ∧ 0 ≤ k ∧ k ≤ n ∧ (c ≤ lit 0 → k = 0) ∧ (lit 1 ≤ c → k = n) ∧
      (lit 0 ≤ c → c ≤ lit 1 → |(k : ℚ) - c.val * n| ≤ 1 / 2 + n / 2 ^ 23) := by
  have nq : (1 : ℚ) ≤ n := by exact_mod_cast n1
  have nq2 : (n : ℚ) ≤ 2 ^ 24 := by exact_mod_cast n2
  have v1 : (lit 1 : F32).val = 1 := by decide +kernel
  have v0 : (lit 0 : F32).val = 0 := by decide +kernel
  have f1 : (lit 1 : F32).IsFin = true := by decide +kernel
  have f0 : (lit 0 : F32).IsFin = true := by decide +kernel
  have le01 : (lit 0 : F32) ≤ lit 1 := by decide +kernel
  have main : ∀ v : F32, v.IsFin = true → 0 ≤ v.val → v.val ≤ 1 →
      ∃ k : ℤ, IsInt (F.round (v * s)) k ∧ 0 ≤ k ∧ k ≤ n ∧ (v.val = 0 → k = 0) ∧ (v.val = 1 → k = n) ∧
        |(k : ℚ) - v.val * n| ≤ 1 / 2 + n / 2 ^ 23 := by
    intro v fv w0 w1
    have vn : 0 ≤ v.val * n := by positivity
    have vn' : v.val * n ≤ n := by nlinarith
    have e : v * s = round (v.sgn ^^ s.sgn) (v.val * n) := by rw [mul_fin fv hs.1, hs.2]
    obtain ⟨f, l, u⟩ := round_between_ints (r := v.val * n) (by rw [abs_of_nonneg vn]; linarith) (v.sgn ^^ s.sgn)
    have er := round_error f
    rw [← e] at f l u er
    have fl0 : (0 : ℤ) ≤ ⌊v.val * n⌋ := Int.floor_nonneg.2 vn
    have cl : ⌈v.val * n⌉ ≤ n := Int.ceil_le.2 vn'
    have x0 : 0 ≤ (v * s).val := le_trans (by exact_mod_cast fl0) l
    have x1 : (v * s).val ≤ n := u.trans (by exact_mod_cast cl)
    obtain ⟨g1, g2⟩ := isFin_roundF f
    have hb := halfAway_between (v * s).val
    have k0 : 0 ≤ halfAway (v * s).val := le_trans (Int.floor_nonneg.2 x0) hb.1
    have k1 : halfAway (v * s).val ≤ n := hb.2.trans (Int.ceil_le.2 x1)
    refine ⟨_, ⟨g1, g2⟩, k0, k1, ?_, ?_, ?_⟩
    · intro hv
      have : (v * s).val ≤ 0 := by
        refine u.trans ?_
        rw [hv, zero_mul, Int.ceil_zero, Int.cast_zero]
      have := hb.2.trans (Int.ceil_le.2 (by push_cast; exact this : (v * s).val ≤ ((0 : ℤ) : ℚ)))
      omega
    · intro hv
      have : (n : ℚ) ≤ (v * s).val := by
        refine le_trans ?_ l
        rw [hv, one_mul, Int.floor_intCast]
      have := (Int.le_floor.2 this).trans hb.1
      omega
    · have hc := halfAway_close (v * s).val
      rw [abs_of_nonneg vn] at er
      have : (halfAway (v * s).val : ℚ) - v.val * n = (halfAway (v * s).val - (v * s).val) + ((v * s).val - v.val * n) := by ring
      rw [this]
      refine (abs_add_le _ _).trans (add_le_add hc (er.trans ?_))
      norm_num at nq vn' ⊢; linarith
  rcases clamp_cases hc le01 with ⟨a, b⟩ | ⟨a, b⟩ | ⟨a, a', b⟩ <;> rw [b]
  · obtain ⟨k, i, k0, k1, z, -, -⟩ := main (lit 0) f0 (by rw [v0]) (by rw [v0]; norm_num)
    refine ⟨k, i, k0, k1, fun _ => z v0, fun h => absurd (h.2.2.trans_lt a.2.2) (not_lt.2 le01.2.2), fun h _ => absurd a.2.2 (not_lt.2 h.2.2)⟩
  · obtain ⟨k, i, k0, k1, -, z, -⟩ := main (lit 1) f1 (by rw [v1]; norm_num) (by rw [v1])
    exact ⟨k, i, k0, k1, fun h => absurd (a.2.2.trans_le h.2.2) (not_lt.2 le01.2.2), fun _ => z v1, fun _ h => absurd a.2.2 (not_lt.2 h.2.2)⟩
  · have w0 := key_le_iff.1 a.2.2
    have w1 := key_le_iff.1 a'.2.2
    rw [v0] at w0
    rw [v1] at w1
    have fc : c.IsFin = true := by
      rw [isFin_iff hc]
      have b0 := a.2.2
      have b1 := a'.2.2
      rw [show (lit 0 : F32).key = 0 by decide +kernel] at b0
      rw [show (lit 1 : F32).key = 2 ^ 149 by decide +kernel] at b1
      norm_num at b1 ⊢
      omega
    obtain ⟨k, i, k0, k1, z0, z1, er⟩ := main c fc w0 w1
    refine ⟨k, i, k0, k1, fun h => z0 (le_antisymm ?_ w0), fun h => z1 (le_antisymm w1 ?_), fun _ _ => er⟩
    · have := key_le_iff.1 h.2.2
      rwa [v0] at this
    · have := key_le_iff.1 h.2.2
      rwa [v1] at this

theorem quantise_back {x s : F32} {k n : ℤ} (hx : IsInt x k) (hs : IsInt s n) (k0 : 0 ≤ k) (k1 : k ≤ n) (n1 : 1 ≤ n) (n2 : n ≤ 2 ^ 21) :
    IsInt (F.round (F.clamp (x / s) (lit 0) (lit 1) * s)) k := by
  have v1 : (lit 1 : F32).val = 1 := by decide +kernel
  have v0 : (lit 0 : F32).val = 0 := by decide +kernel
  obtain ⟨c1, -, c3, c4, c5, c6⟩ := there_and_back hx.1 (by rw [hx.2]; exact_mod_cast k0) hs n1 n2 (by rw [hx.2]; exact_mod_cast k1)
  rw [clamp_inside ⟨by decide +kernel, isFin_ne_nan c1, key_le_iff.2 (by rw [v0]; exact c3)⟩ ⟨isFin_ne_nan c1, by decide +kernel, key_le_iff.2 (by rw [v1]; exact c4)⟩]
  obtain ⟨g1, g2⟩ := isFin_roundF c5
  refine ⟨g1, ?_⟩
  rw [g2]
  congr 1
  have hc := _root_.abs_le.1 (halfAway_close (x / s * s).val)
  rw [hx.2] at c6
  have c6' := abs_lt.1 c6
  have a : ((halfAway (x / s * s).val : ℤ) : ℚ) < ((k + 1 : ℤ) : ℚ) := by push_cast; linarith
  have b : ((k - 1 : ℤ) : ℚ) < ((halfAway (x / s * s).val : ℤ) : ℚ) := by push_cast; linarith
  have a' : halfAway (x / s * s).val < k + 1 := by exact_mod_cast a
  have b' : k - 1 < halfAway (x / s * s).val := by exact_mod_cast b
  omega

theorem wrap_index {u s : F32} {n : ℤ} (fu : u.IsFin = true) (hs : IsInt s n) (n1 : 1 ≤ n) (n2 : n ≤ 2 ^ 24) :
    ∃ k : ℤ, IsInt (F.floor (F.fract u * s)) k ∧ 0 ≤ k ∧ k ≤ n ∧ (k = n ↔ (F.fract u).val = 1) := by
  have v1 : (lit 1 : F32).val = 1 := by decide +kernel
  have v0 : (lit 0 : F32).val = 0 := by decide +kernel
  have f1 : (lit 1 : F32).IsFin = true := by decide +kernel
  have f0 : (lit 0 : F32).IsFin = true := by decide +kernel
  have r0 := Int.fract_nonneg u.val
  have r1 := (Int.fract_lt_one u.val).le
  have e := fract_eq_round fu
  have ff : (F.fract u).IsFin = true := by
    rw [e]; exact isFin_round_of_between f0 f1 (by rw [v0]; exact r0) (by rw [v1]; exact r1) _
  have w0 : 0 ≤ (F.fract u).val := by
    have := key_le_iff.1 (le_key_round f0 (x := Int.fract u.val) (by rw [v0]; exact r0) false)
    rwa [v0, ← e] at this
  have w1 : (F.fract u).val ≤ 1 := by
    have := key_le_iff.1 (key_round_le f1 (x := Int.fract u.val) (by rw [v1]; exact r1) false)
    rwa [v1, ← e] at this
  rcases w1.lt_or_eq with h | h
  · obtain ⟨k, i, k0, k1, -, -⟩ := pixel_index ff w0 h hs n1 n2
    exact ⟨k, i, k0, k1.le, fun g => absurd g k1.ne, fun g => absurd g h.ne⟩
  · have m : (F.fract u * s).IsFin = true ∧ (F.fract u * s).val = n := by
      rw [mul_fin ff hs.1, h, one_mul]
      have := round_eq_val hs.1 rfl ((F.fract u).sgn ^^ s.sgn)
      rwa [hs.2] at this ⊢
    refine ⟨n, ⟨isFin_floor m.1, ?_⟩, by omega, le_rfl, fun _ => h, fun _ => rfl⟩
    rw [val_floor m.1, m.2, Int.floor_intCast]

end Zcm.F32
