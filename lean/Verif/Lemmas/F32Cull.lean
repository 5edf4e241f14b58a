import Verif.Lemmas.F32Mono
import Verif.Lemmas.F32Box
import Verif.Lemmas.F32Approx
import Verif.Lemmas.F32Mesh
import Verif.Spec.Cull
import Verif.Props.C81
import Verif.Props.C85
import Verif.Props.C25

/-!
# Boxes and planes in float arithmetic
-/

set_option exponentiation.threshold 300

namespace Zcm

open F32

theorem gt_zero_iff {n : F32} (f : n.IsFin = true) : (n > lit 0 ↔ 0 < n.val) ∧ (¬ n > lit 0 ↔ n.val ≤ 0) := by
  have z : (lit 0 : F32).val = 0 := by decide +kernel
  have : n > lit 0 ↔ 0 < n.val := by
    constructor
    · rintro ⟨-, -, k⟩
      have := key_lt_iff.1 k
      rwa [z] at this
    · intro h
      exact ⟨by decide +kernel, isFin_ne_nan f, key_lt_iff.2 (by rwa [z])⟩
  exact ⟨this, by rw [this, not_lt]⟩

/-- the corner in the direction of the normal, one coordinate -/
theorem corner_coordinate {n lo hi x : F32} (fn : n.IsFin = true) (fl : lo.IsFin = true) (fh : hi.IsFin = true) (fx : x.IsFin = true)
    (h1 : lo ≤ x) (h2 : x ≤ hi) :
    n * x ≤ n * F.mixB lo hi (decide (n > lit 0)) ∧ n * F.mixB hi lo (decide (n > lit 0)) ≤ n * x := by
  have z : (lit 0 : F32).val = 0 := by decide +kernel
  unfold F.mixB
  by_cases h : n > lit 0
  · have h0 : lit 0 ≤ n := ⟨by decide +kernel, isFin_ne_nan fn, h.2.2.le⟩
    rw [decide_eq_true h, if_pos rfl, if_pos rfl]
    exact ⟨((C85_float x hi n fx fh fn h2).2.2.2.2.2.1 h0).2, ((C85_float lo x n fl fx fn h1).2.2.2.2.2.1 h0).2⟩
  · have h0 : n ≤ lit 0 := ⟨isFin_ne_nan fn, by decide +kernel, key_le_iff.2 (by rw [z]; exact (gt_zero_iff fn).2.1 h)⟩
    rw [decide_eq_false h, if_neg (by decide), if_neg (by decide)]
    exact ⟨((C85_float lo x n fl fx fn h1).2.2.2.2.2.2.1 h0).2, ((C85_float x hi n fx fh fn h2).2.2.2.2.2.2.1 h0).2⟩

/-- the same for exact points -/
theorem corner_exact {n lo hi : F32} {x : ℝ} (fn : n.IsFin = true) (h1 : (lo.val : ℝ) ≤ x) (h2 : x ≤ hi.val) :
    (n.val : ℝ) * x ≤ n.val * (F.mixB lo hi (decide (n > lit 0))).val := by
  unfold F.mixB
  by_cases h : n > lit 0
  · rw [decide_eq_true h, if_pos rfl]
    have : (0 : ℝ) < n.val := by exact_mod_cast (gt_zero_iff fn).1.1 h
    exact mul_le_mul_of_nonneg_left h2 this.le
  · rw [decide_eq_false h, if_neg (by decide)]
    have : (n.val : ℝ) ≤ 0 := by exact_mod_cast (gt_zero_iff fn).2.1 h
    exact mul_le_mul_of_nonpos_left h1 this

theorem abs_le_of_between {lo hi x : F32} {M : ℚ} (h1 : lo ≤ x) (h2 : x ≤ hi) (l : |lo.val| ≤ M) (h : |hi.val| ≤ M) : |x.val| ≤ M := by
  have a := key_le_iff.1 h1.2.2
  have b := key_le_iff.1 h2.2.2
  rw [abs_le] at *
  constructor <;> linarith [l.1, l.2, h.1, h.2]

theorem prod_le {n x : F32} (h1 : |n.val| ≤ 2 ^ 60) (h2 : |x.val| ≤ 2 ^ 60) : |n.val * x.val| ≤ 2 ^ 120 := by
  rw [abs_mul, show (2 : ℚ) ^ 120 = 2 ^ 60 * 2 ^ 60 by norm_num]
  exact mul_le_mul h1 h2 (abs_nonneg _) (by norm_num)

/-- the sign of a plane test -/
theorem lt_zero_of_le {a b : F32} (h : a ≤ b) (g : b < lit 0) : a < lit 0 := ⟨h.1, by decide +kernel, lt_of_le_of_lt h.2.2 g.2.2⟩

/-- adding the offset of the plane -/
theorem near_offset {x d : F32} {r e S : ℝ} (hx : Near x r e) (fd : d.IsFin = true) (h : |r + d.val| ≤ S) (hS : S + e ≤ 2 ^ 125) :
    Near (x + d) (r + d.val) (e + 1 / 2 ^ 24 * (S + e)) := by
  obtain ⟨fx, ex⟩ := hx
  have k : |(x.val : ℝ) + d.val| ≤ S + e := by
    have := abs_add_le ((x.val : ℝ) - r) (r + d.val)
    rw [show (x.val : ℝ) - r + (r + d.val) = x.val + d.val by ring] at this
    linarith
  have f : (x + d).IsFin = true := by
    rw [add_fin fx fd]
    refine isFin_round ?_
    have : ((|x.val + d.val| : ℚ) : ℝ) ≤ ((2 ^ 125 : ℚ) : ℝ) := by push_cast; exact k.trans (by exact_mod_cast hS)
    have : |x.val + d.val| ≤ 2 ^ 125 := by exact_mod_cast this
    exact this.trans (by norm_num)
  refine ⟨f, ?_⟩
  have e1 := add_error_rel f
  have e1 : |((x + d).val : ℝ) - (x.val + d.val)| ≤ 1 / 2 ^ 24 * |(x.val : ℝ) + d.val| := by
    have := (Rat.cast_le (K := ℝ)).2 e1
    push_cast at this
    linarith
  have := abs_add_le (((x + d).val : ℝ) - (x.val + d.val)) ((x.val : ℝ) - r)
  rw [show ((x + d).val : ℝ) - (x.val + d.val) + ((x.val : ℝ) - r) = (x + d).val - (r + d.val) by ring] at this
  have q : 1 / 2 ^ 24 * |(x.val : ℝ) + d.val| ≤ 1 / 2 ^ 24 * (S + e) := by gcongr
  linarith

theorem planeScale_le {n : ℕ} {lo hi nor : Fin n → F32} {d : F32} (g : OrdinaryCull lo hi nor d) (hn : n ≤ 4) : planeScale lo hi nor d ≤ 2 ^ 123 := by
  have c : ∀ {q : ℚ} {k : ℕ}, |q| ≤ 2 ^ k → |(q : ℝ)| ≤ 2 ^ k := fun h => by
    have := (Rat.cast_le (K := ℝ)).2 h
    push_cast at this
    exact this
  have b : ∀ i, |((nor i).val : ℝ)| * max |((lo i).val : ℝ)| |((hi i).val : ℝ)| ≤ 2 ^ 120 := fun i => by
    rw [show (2 : ℝ) ^ 120 = 2 ^ 60 * 2 ^ 60 by norm_num]
    exact mul_le_mul (c (g.nor_le i)) (max_le (c (g.lo_le i)) (c (g.hi_le i))) (le_max_of_le_left (abs_nonneg _)) (by norm_num)
  have s : ∑ i, |((nor i).val : ℝ)| * max |((lo i).val : ℝ)| |((hi i).val : ℝ)| ≤ n * 2 ^ 120 := by
    refine (Finset.sum_le_sum fun i _ => b i).trans ?_
    simp
  have n4 : (n : ℝ) ≤ 4 := by exact_mod_cast hn
  have d' := c g.d_le
  have s4 : (n : ℝ) * 2 ^ 120 ≤ 4 * 2 ^ 120 := by gcongr
  unfold planeScale
  norm_num at s4 d' s ⊢
  linarith

/-- the plane test at a point of the box is accurate -/
theorem near_plane {n : ℕ} {lo hi nor y : Fin n → F32} {d x : F32} (g : OrdinaryCull lo hi nor d) (hn : n ≤ 4) (hy : InsideBox lo hi y)
    (a : AccurateSum x nor y) :
    Near (x + d) (exactSide nor d fun i => (y i).val) (5.1 / 2 ^ 24 * planeScale lo hi nor d + 1 / 2 ^ 146) := by
  have S2 := planeScale_le g hn
  have pi : ∀ i, |((nor i).val : ℝ) * (y i).val| ≤ |((nor i).val : ℝ)| * max |((lo i).val : ℝ)| |((hi i).val : ℝ)| := fun i => by
    rw [abs_mul]
    refine mul_le_mul_of_nonneg_left ?_ (abs_nonneg _)
    have h1 : ((lo i).val : ℝ) ≤ (y i).val := by exact_mod_cast key_le_iff.1 (hy i).2.1.2.2
    have h2 : ((y i).val : ℝ) ≤ (hi i).val := by exact_mod_cast key_le_iff.1 (hy i).2.2.2.2
    exact abs_le_max_abs_abs h1 h2
  have sum : ∑ i, |((nor i).val : ℝ) * (y i).val| ≤ planeScale lo hi nor d - |(d.val : ℝ)| := by
    unfold planeScale
    linarith [Finset.sum_le_sum fun i (_ : i ∈ Finset.univ) => pi i]
  have d0 := abs_nonneg (d.val : ℝ)
  have fx : x.IsFin = true := by
    refine a.1 (fun i => ⟨(g.fin i).2.2, (hy i).1⟩) ?_
    have : ((∑ i, |(nor i).val * (y i).val| : ℚ) : ℝ) ≤ ((2 ^ 126 : ℚ) : ℝ) := by
      push_cast
      refine sum.trans ?_
      norm_num at S2 ⊢
      linarith
    exact_mod_cast this
  have e := (Rat.cast_le (K := ℝ)).2 (a.2 fx)
  push_cast at e
  have n4 : (n : ℝ) ≤ 4 := by exact_mod_cast hn
  have pw : ((1 : ℝ) + 1 / 2 ^ 24) ^ n - 1 ≤ 4.001 / 2 ^ 24 := by
    calc ((1 : ℝ) + 1 / 2 ^ 24) ^ n - 1 ≤ (1 + 1 / 2 ^ 24) ^ 4 - 1 := by gcongr; norm_num
      _ ≤ _ := by norm_num
  have sn : 0 ≤ ∑ i, |((nor i).val : ℝ) * (y i).val| := Finset.sum_nonneg fun i _ => abs_nonneg _
  have S0 : 0 ≤ planeScale lo hi nor d := by linarith
  have nx : Near x (∑ i, ((nor i).val : ℝ) * (y i).val) (4.001 / 2 ^ 24 * planeScale lo hi nor d + 4 / 2 ^ 149) := by
    refine ⟨fx, e.trans ?_⟩
    have k1 : (((1 : ℝ) + 1 / 2 ^ 24) ^ n - 1) * ∑ i, |((nor i).val : ℝ) * (y i).val| ≤ 4.001 / 2 ^ 24 * planeScale lo hi nor d :=
      mul_le_mul pw (by linarith) sn (by norm_num)
    have k2 : (n : ℝ) / 2 ^ 149 ≤ 4 / 2 ^ 149 := by gcongr
    exact add_le_add k1 k2
  have k : |∑ i, ((nor i).val : ℝ) * (y i).val + d.val| ≤ planeScale lo hi nor d := by
    have := abs_add_le (∑ i, ((nor i).val : ℝ) * (y i).val) d.val
    have := Finset.abs_sum_le_sum_abs (fun i => ((nor i).val : ℝ) * (y i).val) Finset.univ
    linarith
  have f := near_offset nx g.d_fin k (by
    generalize planeScale lo hi nor d = S at *
    norm_num at *
    linarith)
  refine f.mono ?_
  generalize planeScale lo hi nor d = S at *
  norm_num
  linarith

/-- the exact corner -/
theorem exactSide_le {n : ℕ} {lo hi nor far : Fin n → F32} {d : F32} {x : Fin n → ℝ} (fn : ∀ i, (nor i).IsFin = true)
    (hf : ∀ i, far i = F.mixB (lo i) (hi i) (decide (nor i > lit 0))) (hx : ∀ i, ((lo i).val : ℝ) ≤ x i ∧ x i ≤ (hi i).val) :
    exactSide nor d x ≤ exactSide nor d fun i => (far i).val := by
  unfold exactSide
  have := Finset.sum_le_sum fun i (_ : i ∈ Finset.univ) => (hf i ▸ corner_exact (fn i) (hx i).1 (hx i).2 :
    ((nor i).val : ℝ) * x i ≤ (nor i).val * (far i).val)
  linarith

/-- the corner is a corner -/
theorem corner_inside {n : ℕ} {lo hi nor far : Fin n → F32} {d : F32} (g : OrdinaryCull lo hi nor d)
    (hf : ∀ i, far i = F.mixB (lo i) (hi i) (decide (nor i > lit 0))) : InsideBox lo hi far := fun i => by
  rw [hf]
  unfold F.mixB
  split_ifs
  · exact ⟨(g.fin i).2.1, g.ordered i, le_refl' (isFin_ne_nan (g.fin i).2.1)⟩
  · exact ⟨(g.fin i).1, le_refl' (isFin_ne_nan (g.fin i).1), g.ordered i⟩

end Zcm
