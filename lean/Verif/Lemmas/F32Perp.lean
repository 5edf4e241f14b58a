import Verif.Lemmas.F32Between
import Verif.Lemmas.F32Fract
import Verif.Lemmas.F32Range

/-!
# Perpendicular vectors in binary32
-/

set_option exponentiation.threshold 300

namespace Zcm

open F32 InnerProductGeometry
open scoped RealInnerProductSpace

theorem normSq_exactly (w : V3 F32) : ‖exactly w‖ ^ 2 = (w.x.val : ℝ) ^ 2 + (w.y.val : ℝ) ^ 2 + (w.z.val : ℝ) ^ 2 := by
  rw [EuclideanSpace.norm_sq_eq, Fin.sum_univ_three]
  simp only [Real.norm_eq_abs, sq_abs]
  rfl

theorem inner_exactly (v w : V3 F32) :
    ⟪exactly v, exactly w⟫ = (v.x.val : ℝ) * w.x.val + (v.y.val : ℝ) * w.y.val + (v.z.val : ℝ) * w.z.val := inner_eq_dot _ _

theorem F32.val_negR (a : F32) : (((-a).val : ℚ) : ℝ) = -(a.val : ℝ) := by rw [val_neg]; push_cast; rfl

theorem F32.val_lit_zeroR : (((lit 0 : F32).val : ℚ) : ℝ) = 0 := by rw [val_lit_zero]; norm_num

theorem orthogonal_cases (v : V3 F32) :
    (F.abs v.x > F.abs v.z ∧ V3.orthogonal v = ⟨-v.y, v.x, lit 0⟩) ∨ (¬ F.abs v.x > F.abs v.z ∧ V3.orthogonal v = ⟨lit 0, -v.z, v.y⟩) := by
  unfold V3.orthogonal
  split_ifs with h
  · exact .inl ⟨h, rfl⟩
  · exact .inr ⟨h, rfl⟩

theorem orthogonal_exact {v : V3 F32} (hv : v.Finite) :
    (V3.orthogonal v).Finite ∧ ⟪exactly (V3.orthogonal v), exactly v⟫ = 0 ∧
    ‖exactly v‖ ^ 2 / 2 ≤ ‖exactly (V3.orthogonal v)‖ ^ 2 ∧ ‖exactly (V3.orthogonal v)‖ ^ 2 ≤ ‖exactly v‖ ^ 2 := by
  have fx : v.x.IsFin = true := hv 0
  have fy : v.y.IsFin = true := hv 1
  have fz : v.z.IsFin = true := hv 2
  rw [inner_exactly, normSq_exactly, normSq_exactly]
  rcases orthogonal_cases v with ⟨h, e⟩ | ⟨h, e⟩
  · have k := lt_val_of_lt h
    rw [val_fabs, val_fabs] at k
    have k := sq_lt_sq.2 k
    rw [e]
    refine ⟨fun i => ?_, ?_, ?_, ?_⟩
    · fin_cases i
      exacts [(isFin_neg _).trans fy, fx, isFin_lit_zero]
    · simp only [val_negR, val_lit_zeroR]; ring
    · simp only [val_negR, val_lit_zeroR]; nlinarith [sq_nonneg (v.y.val : ℝ)]
    · simp only [val_negR, val_lit_zeroR]; nlinarith [sq_nonneg (v.z.val : ℝ)]
  · have k := le_val_of_not_lt (isFin_fabs fz) (isFin_fabs fx) h
    rw [val_fabs, val_fabs] at k
    have k := sq_le_sq.2 k
    rw [e]
    refine ⟨fun i => ?_, ?_, ?_, ?_⟩
    · fin_cases i
      exacts [isFin_lit_zero, (isFin_neg _).trans fz, fy]
    · simp only [val_negR, val_lit_zeroR]; ring
    · simp only [val_negR, val_lit_zeroR]; nlinarith [sq_nonneg (v.y.val : ℝ)]
    · simp only [val_negR, val_lit_zeroR]; nlinarith [sq_nonneg (v.x.val : ℝ)]

theorem F32.add_neg_self {a : F32} (h : a.IsFin = true) : (a + -a).IsFin = true ∧ (a + -a).val = 0 := by
  rw [add_fin h ((isFin_neg _).trans h), val_neg, _root_.add_neg_cancel]
  generalize (a.sgn && (-a).sgn) = s
  cases s <;> decide +kernel

theorem F32.neg_add_self {a : F32} (h : a.IsFin = true) : (-a + a).IsFin = true ∧ (-a + a).val = 0 := by
  rw [add_comm']; exact F32.add_neg_self h

theorem F32.zero_mul_val {a b : F32} (ha : a.IsFin = true) (h0 : a.val = 0) (hb : b.IsFin = true) : (a * b).IsFin = true ∧ (a * b).val = 0 := by
  rw [mul_fin ha hb, h0, zero_mul]
  generalize (a.sgn ^^ b.sgn) = s
  cases s <;> decide +kernel

theorem F32.add_zero_val {a b : F32} (ha : a.IsFin = true) (hb : b.IsFin = true) (h0 : b.val = 0) :
    (a + b).IsFin = true ∧ (a + b).val = a.val := by
  rw [add_fin ha hb, h0, add_zero]
  exact round_eq_val ha rfl _

theorem orthogonal_dot {v : V3 F32} (hv : v.Finite) (h1 : (v.x * v.y).IsFin = true) (h2 : (v.y * v.z).IsFin = true) :
    (V3.dot (V3.orthogonal v) v == lit 0) = true := by
  have fx : v.x.IsFin = true := hv 0
  have fz : v.z.IsFin = true := hv 2
  have goal : ∀ d : F32, d.IsFin = true ∧ d.val = 0 → (d == lit 0) = true := fun d h =>
    beq_iff.2 ⟨isFin_ne_nan h.1, isFin_ne_nan isFin_lit_zero, by rw [key_eq_iff, h.2, val_lit_zero]⟩
  apply goal
  rcases orthogonal_cases v with ⟨h, e⟩ | ⟨h, e⟩
  · rw [e]
    change (-v.y * v.x + v.x * v.y + lit 0 * v.z).IsFin = true ∧ (-v.y * v.x + v.x * v.y + lit 0 * v.z).val = 0
    rw [neg_mul', mul_comm' v.y v.x]
    obtain ⟨a, b⟩ := F32.neg_add_self h1
    obtain ⟨c, d⟩ := F32.zero_mul_val (b := v.z) isFin_lit_zero val_lit_zero fz
    have := F32.add_zero_val a c d
    exact ⟨this.1, this.2.trans b⟩
  · rw [e]
    change (lit 0 * v.x + -v.z * v.y + v.y * v.z).IsFin = true ∧ (lit 0 * v.x + -v.z * v.y + v.y * v.z).val = 0
    rw [neg_mul', mul_comm' v.z v.y]
    obtain ⟨c, d⟩ := F32.zero_mul_val (b := v.x) isFin_lit_zero val_lit_zero fx
    have n2 : (-(v.y * v.z)).IsFin = true := (isFin_neg _).trans h2
    obtain ⟨p, q⟩ := F32.add_zero_val n2 c d
    rw [add_comm'] at p q
    rw [add_fin p h2, q, val_neg, _root_.neg_add_cancel]
    generalize ((_ : F32).sgn && (_ : F32).sgn) = s
    cases s <;> decide +kernel

/-! ### The branchless version -/

/-- over the reals: the vector `(k, 0, 1) × v` is not short -/
theorem branchless_length {x y z k η : ℝ} (hη' : η ≤ 1 / 2 ^ 16) (hk : 0 ≤ k) (hR : 1 - η ≤ x ^ 2 + y ^ 2 + z ^ 2)
    (hR' : x ^ 2 + y ^ 2 + z ^ 2 ≤ 1 + η)
    (h : |x| ≤ 1 / 2 + η ∧ |k - (|x| + 1 / 2)| ≤ η ∨ 1 / 2 - η ≤ |x| ∧ |k - (|x| - 1 / 2)| ≤ η) :
    0.1296 ≤ y ^ 2 + (x - k * z) ^ 2 + (k * y) ^ 2 := by
  set R := x ^ 2 + y ^ 2 + z ^ 2 with hRd
  set t := |x| with ht
  have t0 : 0 ≤ t := abs_nonneg x
  have tx : t ^ 2 = x ^ 2 := sq_abs x
  have zr : z ^ 2 ≤ R - t ^ 2 := by rw [tx]; nlinarith [sq_nonneg y]
  set S := Real.sqrt (R - t ^ 2) with hS
  have nn : 0 ≤ R - t ^ 2 := (sq_nonneg z).trans zr
  have S2 : S ^ 2 = R - t ^ 2 := Real.sq_sqrt nn
  have S0 : 0 ≤ S := Real.sqrt_nonneg _
  have zS : |z| ≤ S := Real.abs_le_sqrt zr
  have id : y ^ 2 + (x - k * z) ^ 2 + (k * y) ^ 2 = (k ^ 2 + 1) * R - (k * x + z) ^ 2 := by rw [hRd]; ring
  have c : (k * x + z) ^ 2 ≤ (k * t + S) ^ 2 := by
    rw [sq_le_sq, abs_of_nonneg (by positivity : 0 ≤ k * t + S)]
    refine (abs_add_le _ _).trans ?_
    rw [abs_mul, abs_of_nonneg hk]
    linarith
  have low : (k * S - t) ^ 2 ≤ y ^ 2 + (x - k * z) ^ 2 + (k * y) ^ 2 := by
    rw [id]
    have : (k ^ 2 + 1) * R - (k * t + S) ^ 2 = (k * S - t) ^ 2 := by
      have : R = S ^ 2 + t ^ 2 := by linarith
      rw [this]; ring
    linarith
  refine le_trans ?_ low
  rcases h with ⟨h1, h2⟩ | ⟨h1, h2⟩
  · -- `k` about `t + 1/2`
    have k1 : t + 1 / 2 - η ≤ k := by linarith [(abs_le.1 h2).1]
    have key : t + 0.36 ≤ k * S := by
      have a : t + 0.36 ≤ (t + 0.4999) * S := by
        refine le_of_sq_le_sq ?_ (by positivity)
        rw [mul_pow, S2]
        have r : 0.9999 - t ^ 2 ≤ R - t ^ 2 := by norm_num at *; linarith
        have t1 : t ≤ 0.5001 := by norm_num at *; linarith
        refine le_trans ?_ (mul_le_mul_of_nonneg_left r (sq_nonneg _))
        nlinarith [mul_nonneg t0 (sub_nonneg.2 t1), mul_nonneg (mul_nonneg t0 t0) (sub_nonneg.2 t1),
          mul_nonneg (mul_nonneg (mul_nonneg t0 t0) t0) (sub_nonneg.2 t1)]
      refine a.trans (mul_le_mul_of_nonneg_right ?_ S0)
      norm_num at *
      linarith
    have := pow_le_pow_left₀ (by norm_num) (show (0.36 : ℝ) ≤ k * S - t by linarith) 2
    exact le_trans (by norm_num) this
  · have k1 : k ≤ t - 1 / 2 + η := by linarith [(abs_le.1 h2).2]
    have S1 : S ≤ 1 := by
      refine le_of_sq_le_sq ?_ zero_le_one
      rw [S2]
      norm_num at *
      nlinarith
    have : k * S ≤ k := mul_le_of_le_one_right hk S1
    have := pow_le_pow_left₀ (by norm_num) (show (0.4 : ℝ) ≤ t - k * S by norm_num at *; linarith) 2
    rw [← neg_sub, neg_sq]
    exact le_trans (by norm_num) this

/-- the factor `fract(|x| + 0.5)` -/
theorem branchless_factor {x : F32} (hx : x.IsFin = true) (hb : |(x.val : ℝ)| ≤ 2 ^ 100) :
    (F.fract (F.abs x + lit 0.5)).IsFin = true ∧ (0 : ℝ) ≤ (F.fract (F.abs x + lit 0.5)).val ∧
    ((F.fract (F.abs x + lit 0.5)).val : ℝ) ≤ 1 ∧
    (|(x.val : ℝ)| ≤ 1.4 → |(x.val : ℝ)| ≤ 1 / 2 + 1 / 2 ^ 20 ∧ |((F.fract (F.abs x + lit 0.5)).val : ℝ) - (|(x.val : ℝ)| + 1 / 2)| ≤ 1 / 2 ^ 20 ∨
      1 / 2 - 1 / 2 ^ 20 ≤ |(x.val : ℝ)| ∧ |((F.fract (F.abs x + lit 0.5)).val : ℝ) - (|(x.val : ℝ)| - 1 / 2)| ≤ 1 / 2 ^ 20) := by
  have hf : (lit 0.5 : F32).IsFin = true ∧ (lit 0.5 : F32).val = 1 / 2 := by decide +kernel
  have fa := isFin_fabs hx
  have va : (F.abs x).val = |x.val| := by
    have := val_fabs x
    exact_mod_cast this
  have b : |x.val| ≤ 2 ^ 100 := by exact_mod_cast hb
  have fs : (F.abs x + lit 0.5).IsFin = true := by
    rw [add_fin fa hf.1]
    apply isFin_round
    rw [va, hf.2, abs_of_nonneg (by positivity)]
    norm_num at *
    linarith
  have es := add_error fa hf.1 fs
  rw [va, hf.2] at es
  have ef := fract_eq_round fs
  generalize F.abs x + lit 0.5 = s at *
  have r := round_between isFin_lit_one (Int.fract_nonneg s.val) (by rw [val_lit_one]; exact (Int.fract_lt_one s.val).le) false
  rw [← ef, val_lit_one] at r
  have er : |(F.fract s).val - Int.fract s.val| ≤ 1 / 2 ^ 23 := by
    have f := r.1
    rw [ef] at f
    have := round_error f
    rw [← ef, abs_of_nonneg (Int.fract_nonneg s.val)] at this
    have h1 := (Int.fract_lt_one s.val).le
    norm_num at *
    linarith
  refine ⟨r.1, by exact_mod_cast r.2.1, by exact_mod_cast r.2.2, fun h => ?_⟩
  have hq : |x.val| ≤ 7 / 5 := by
    have h' : ((|x.val| : ℚ) : ℝ) ≤ ((7 / 5 : ℚ) : ℝ) := by
      push_cast
      norm_num at h ⊢
      exact h
    exact Rat.cast_le.1 h'
  have x0 := abs_nonneg x.val
  rw [abs_of_nonneg (by positivity : 0 ≤ |x.val| + 1 / 2)] at es
  have es' : |s.val - (|x.val| + 1 / 2)| ≤ 1 / 2 ^ 22 := by
    norm_num at *
    linarith
  obtain ⟨e1, e2⟩ := _root_.abs_le.1 es'
  obtain ⟨r1, r2⟩ := _root_.abs_le.1 er
  have s0 : 0 ≤ s.val := by norm_num at e1 ⊢; linarith
  rcases lt_or_ge s.val 1 with c | c
  · left
    have fr : Int.fract s.val = s.val := Int.fract_eq_self.2 ⟨s0, c⟩
    rw [fr] at r1 r2
    have a1 : |x.val| ≤ 1 / 2 + 1 / 2 ^ 20 := by norm_num at *; linarith
    have a2 : |(F.fract s).val - (|x.val| + 1 / 2)| ≤ 1 / 2 ^ 20 := by
      rw [_root_.abs_le]; constructor <;> · norm_num at *; linarith
    constructor
    · have := (Rat.cast_le (K := ℝ)).2 a1; push_cast at this; exact this
    · have := (Rat.cast_le (K := ℝ)).2 a2; push_cast at this; exact this
  · right
    have fr : Int.fract s.val = s.val - 1 := by
      rw [Int.fract_eq_iff]
      exact ⟨by linarith, by norm_num at *; linarith, 1, by push_cast; ring⟩
    rw [fr] at r1 r2
    have a1 : 1 / 2 - 1 / 2 ^ 20 ≤ |x.val| := by norm_num at *; linarith
    have a2 : |(F.fract s).val - (|x.val| - 1 / 2)| ≤ 1 / 2 ^ 20 := by
      rw [_root_.abs_le]; constructor <;> · norm_num at *; linarith
    constructor
    · have := (Rat.cast_le (K := ℝ)).2 a1; push_cast at this; exact this
    · have := (Rat.cast_le (K := ℝ)).2 a2; push_cast at this; exact this

/-- the computed vector is near `(k, 0, 1) × v` -/
theorem branchless_near {v : V3 F32} (hv : v.Finite) (hb : ∀ i, |((coord v i).val : ℝ)| ≤ 2 ^ 100) :
    let k := F.fract (F.abs v.x + lit 0.5)
    let w := V3.orthogonal_branchless v
    w.Finite ∧ (w.x.val : ℝ) = -v.y.val ∧
    |(w.y.val : ℝ) - (v.x.val - k.val * v.z.val)| ≤ (|(v.x.val : ℝ)| + 2.1 * |(v.z.val : ℝ)|) / 2 ^ 24 + 1 / 2 ^ 148 ∧
    |(w.z.val : ℝ) - k.val * v.y.val| ≤ |(v.y.val : ℝ)| / 2 ^ 24 + 1 / 2 ^ 150 := by
  intro k w
  have fx : v.x.IsFin = true := hv 0
  have fy : v.y.IsFin = true := hv 1
  have fz : v.z.IsFin = true := hv 2
  obtain ⟨fk, k0, k1, -⟩ := branchless_factor fx (hb 0)
  change k.IsFin = true at fk
  have k0 : 0 ≤ k.val := by exact_mod_cast k0
  have k1 : k.val ≤ 1 := by exact_mod_cast k1
  have bx : |v.x.val| ≤ 2 ^ 100 := by exact_mod_cast hb 0
  have yb : |v.y.val| ≤ 2 ^ 100 := by exact_mod_cast hb 1
  have bz : |v.z.val| ≤ 2 ^ 100 := by exact_mod_cast hb 2
  have pr : ∀ a : F32, a.IsFin = true → |a.val| ≤ 2 ^ 100 → (k * a).IsFin = true ∧ |k.val * a.val| ≤ |a.val| := by
    intro a fa ba
    have m : |k.val * a.val| ≤ |a.val| := by
      rw [abs_mul, abs_of_nonneg k0]
      exact mul_le_of_le_one_left (abs_nonneg _) k1
    refine ⟨?_, m⟩
    rw [mul_fin fk fa]
    exact isFin_round (m.trans (ba.trans (by norm_num)))
  obtain ⟨fy', my⟩ := pr _ fy yb
  obtain ⟨fz', mz⟩ := pr _ fz bz
  have ey : |(k * v.y).val - k.val * v.y.val| ≤ |v.y.val| / 2 ^ 24 + 1 / 2 ^ 150 := (mul_error fk fy fy').trans (by gcongr)
  have ez : |(k * v.z).val - k.val * v.z.val| ≤ |v.z.val| / 2 ^ 24 + 1 / 2 ^ 150 := (mul_error fk fz fz').trans (by gcongr)
  have hw : w = ⟨-v.y, v.x - k * v.z, k * v.y⟩ := rfl
  generalize k * v.z = p at *
  have bp : |p.val| ≤ |v.z.val| + (|v.z.val| / 2 ^ 24 + 1 / 2 ^ 150) := by
    have := abs_sub_abs_le_abs_sub p.val (k.val * v.z.val)
    linarith
  have bs : |v.x.val - p.val| ≤ |v.x.val| + (|v.z.val| + (|v.z.val| / 2 ^ 24 + 1 / 2 ^ 150)) := (abs_sub _ _).trans (by linarith)
  have fs : (v.x - p).IsFin = true := by
    rw [sub_fin fx fz']
    apply isFin_round
    norm_num at bs bx bz ⊢
    linarith
  have es := sub_error fx fz' fs
  have e2 : |(v.x - p).val - (v.x.val - k.val * v.z.val)| ≤ (|v.x.val| + 2.1 * |v.z.val|) / 2 ^ 24 + 1 / 2 ^ 148 := by
    have t := abs_sub_le (v.x - p).val (v.x.val - p.val) (v.x.val - k.val * v.z.val)
    rw [show v.x.val - p.val - (v.x.val - k.val * v.z.val) = -(p.val - k.val * v.z.val) by ring, abs_neg] at t
    have z0 := abs_nonneg v.z.val
    norm_num at es ez bs t ⊢
    linarith
  refine ⟨fun i => ?_, ?_, ?_, ?_⟩
  · rw [hw]
    fin_cases i
    exacts [(isFin_neg _).trans fy, fs, fy']
  · rw [hw]; exact val_negR _
  · rw [hw]
    have := (Rat.cast_le (K := ℝ)).2 e2
    push_cast at this
    exact this
  · rw [hw]
    have := (Rat.cast_le (K := ℝ)).2 ey
    push_cast at this
    exact this

end Zcm
