import Verif.Spec.Leibniz
import Verif.Lemmas.F32Approx
import Verif.Model.Matrix
import Mathlib.LinearAlgebra.Matrix.NonsingularInverse
import Mathlib.Tactic.LinearCombination
import Mathlib.Tactic.Ring

/-!
# Error analysis of determinants, adjugates and inverses in the binary32 model
-/

set_option exponentiation.threshold 300

namespace Zcm

/-! ### Leibniz terms of small matrices -/

theorem perms2 : (Finset.univ : Finset (Equiv.Perm (Fin 2))).val.map (fun σ => (σ 0, σ 1)) = {(0, 1), (1, 0)} := by
  decide +kernel
theorem perms3 : (Finset.univ : Finset (Equiv.Perm (Fin 3))).val.map (fun σ => (σ 0, σ 1, σ 2)) =
    {(0, 1, 2), (0, 2, 1), (1, 0, 2), (1, 2, 0), (2, 1, 0), (2, 0, 1)} := by
  decide +kernel
theorem perms4 : (Finset.univ : Finset (Equiv.Perm (Fin 4))).val.map (fun σ => (σ 0, σ 1, σ 2, σ 3)) =
    {(0, 1, 2, 3), (0, 1, 3, 2), (0, 2, 1, 3), (0, 2, 3, 1), (0, 3, 2, 1), (0, 3, 1, 2), (1, 0, 2, 3), (1, 0, 3, 2),
     (1, 2, 0, 3), (1, 2, 3, 0), (1, 3, 2, 0), (1, 3, 0, 2), (2, 1, 0, 3), (2, 1, 3, 0), (2, 0, 1, 3), (2, 0, 3, 1),
     (2, 3, 0, 1), (2, 3, 1, 0), (3, 1, 2, 0), (3, 1, 0, 2), (3, 2, 1, 0), (3, 2, 0, 1), (3, 0, 2, 1), (3, 0, 1, 2)} := by
  decide +kernel

theorem termSize_one (A : Matrix (Fin 1) (Fin 1) ℚ) : termSize A = |A 0 0| := by
  unfold termSize
  simp

theorem termSize_two (A : Matrix (Fin 2) (Fin 2) ℚ) : termSize A = |A 0 0| * |A 1 1| + |A 1 0| * |A 0 1| := by
  have h := congrArg (fun s : Multiset (Fin 2 × Fin 2) => (s.map fun p => |A p.1 0| * |A p.2 1|).sum) perms2
  simp only [Multiset.map_map] at h
  unfold termSize
  simp only [Fin.prod_univ_two]
  refine Eq.trans h ?_
  simp

theorem termSize_three (A : Matrix (Fin 3) (Fin 3) ℚ) : termSize A =
    |A 0 0| * (|A 1 1| * |A 2 2| + |A 2 1| * |A 1 2|) + |A 1 0| * (|A 0 1| * |A 2 2| + |A 2 1| * |A 0 2|) +
      |A 2 0| * (|A 0 1| * |A 1 2| + |A 1 1| * |A 0 2|) := by
  have h := congrArg (fun s : Multiset (Fin 3 × Fin 3 × Fin 3) =>
    (s.map fun p => |A p.1 0| * |A p.2.1 1| * |A p.2.2 2|).sum) perms3
  simp only [Multiset.map_map] at h
  unfold termSize
  simp only [Fin.prod_univ_three]
  refine Eq.trans h ?_
  simp
  ring

theorem termSize_four (A : Matrix (Fin 4) (Fin 4) ℚ) : termSize A =
    |A 0 0| * termSize (A.submatrix (Fin.succAbove 0) Fin.succ) + |A 1 0| * termSize (A.submatrix (Fin.succAbove 1) Fin.succ) +
      |A 2 0| * termSize (A.submatrix (Fin.succAbove 2) Fin.succ) + |A 3 0| * termSize (A.submatrix (Fin.succAbove 3) Fin.succ) := by
  have h := congrArg (fun s : Multiset (Fin 4 × Fin 4 × Fin 4 × Fin 4) =>
    (s.map fun p => |A p.1 0| * |A p.2.1 1| * |A p.2.2.1 2| * |A p.2.2.2 3|).sum) perms4
  simp only [Multiset.map_map] at h
  refine Eq.trans (Eq.trans (by unfold termSize; simp only [Fin.prod_univ_four]; rfl) h) ?_
  simp only [termSize_three]
  simp [Fin.succAbove]
  ring

/-- the entries of `adjugate(mat4)`, written out -/
theorem adjugate_entry4 {α : Type} [Add α] [Sub α] [Mul α] [Div α] [Neg α] [FloatOps α] (m : M4 α) :
    entry (M4.adjugate m) 0 0 = (entry m 1 1 * (entry m 2 2 * entry m 3 3 - entry m 3 2 * entry m 2 3) - entry m 1 2 * (entry m 2 1 * entry m 3 3 - entry m 3 1 * entry m 2 3) +
      entry m 1 3 * (entry m 2 1 * entry m 3 2 - entry m 3 1 * entry m 2 2)) * lit (1) ∧
    entry (M4.adjugate m) 1 0 = (entry m 1 0 * (entry m 2 2 * entry m 3 3 - entry m 3 2 * entry m 2 3) - entry m 1 2 * (entry m 2 0 * entry m 3 3 - entry m 3 0 * entry m 2 3) +
      entry m 1 3 * (entry m 2 0 * entry m 3 2 - entry m 3 0 * entry m 2 2)) * lit (-1) ∧
    entry (M4.adjugate m) 2 0 = (entry m 1 0 * (entry m 2 1 * entry m 3 3 - entry m 3 1 * entry m 2 3) - entry m 1 1 * (entry m 2 0 * entry m 3 3 - entry m 3 0 * entry m 2 3) +
      entry m 1 3 * (entry m 2 0 * entry m 3 1 - entry m 3 0 * entry m 2 1)) * lit (1) ∧
    entry (M4.adjugate m) 3 0 = (entry m 1 0 * (entry m 2 1 * entry m 3 2 - entry m 3 1 * entry m 2 2) - entry m 1 1 * (entry m 2 0 * entry m 3 2 - entry m 3 0 * entry m 2 2) +
      entry m 1 2 * (entry m 2 0 * entry m 3 1 - entry m 3 0 * entry m 2 1)) * lit (-1) ∧
    entry (M4.adjugate m) 0 1 = (entry m 0 1 * (entry m 2 2 * entry m 3 3 - entry m 3 2 * entry m 2 3) - entry m 0 2 * (entry m 2 1 * entry m 3 3 - entry m 3 1 * entry m 2 3) +
      entry m 0 3 * (entry m 2 1 * entry m 3 2 - entry m 3 1 * entry m 2 2)) * lit (-1) ∧
    entry (M4.adjugate m) 1 1 = (entry m 0 0 * (entry m 2 2 * entry m 3 3 - entry m 3 2 * entry m 2 3) - entry m 0 2 * (entry m 2 0 * entry m 3 3 - entry m 3 0 * entry m 2 3) +
      entry m 0 3 * (entry m 2 0 * entry m 3 2 - entry m 3 0 * entry m 2 2)) * lit (1) ∧
    entry (M4.adjugate m) 2 1 = (entry m 0 0 * (entry m 2 1 * entry m 3 3 - entry m 3 1 * entry m 2 3) - entry m 0 1 * (entry m 2 0 * entry m 3 3 - entry m 3 0 * entry m 2 3) +
      entry m 0 3 * (entry m 2 0 * entry m 3 1 - entry m 3 0 * entry m 2 1)) * lit (-1) ∧
    entry (M4.adjugate m) 3 1 = (entry m 0 0 * (entry m 2 1 * entry m 3 2 - entry m 3 1 * entry m 2 2) - entry m 0 1 * (entry m 2 0 * entry m 3 2 - entry m 3 0 * entry m 2 2) +
      entry m 0 2 * (entry m 2 0 * entry m 3 1 - entry m 3 0 * entry m 2 1)) * lit (1) ∧
    entry (M4.adjugate m) 0 2 = (entry m 0 1 * (entry m 1 2 * entry m 3 3 - entry m 3 2 * entry m 1 3) - entry m 0 2 * (entry m 1 1 * entry m 3 3 - entry m 3 1 * entry m 1 3) +
      entry m 0 3 * (entry m 1 1 * entry m 3 2 - entry m 3 1 * entry m 1 2)) * lit (1) ∧
    entry (M4.adjugate m) 1 2 = (entry m 0 0 * (entry m 1 2 * entry m 3 3 - entry m 3 2 * entry m 1 3) - entry m 0 2 * (entry m 1 0 * entry m 3 3 - entry m 3 0 * entry m 1 3) +
      entry m 0 3 * (entry m 1 0 * entry m 3 2 - entry m 3 0 * entry m 1 2)) * lit (-1) ∧
    entry (M4.adjugate m) 2 2 = (entry m 0 0 * (entry m 1 1 * entry m 3 3 - entry m 3 1 * entry m 1 3) - entry m 0 1 * (entry m 1 0 * entry m 3 3 - entry m 3 0 * entry m 1 3) +
      entry m 0 3 * (entry m 1 0 * entry m 3 1 - entry m 3 0 * entry m 1 1)) * lit (1) ∧
    entry (M4.adjugate m) 3 2 = (entry m 0 0 * (entry m 1 1 * entry m 3 2 - entry m 3 1 * entry m 1 2) - entry m 0 1 * (entry m 1 0 * entry m 3 2 - entry m 3 0 * entry m 1 2) +
      entry m 0 2 * (entry m 1 0 * entry m 3 1 - entry m 3 0 * entry m 1 1)) * lit (-1) ∧
    entry (M4.adjugate m) 0 3 = (entry m 0 1 * (entry m 1 2 * entry m 2 3 - entry m 2 2 * entry m 1 3) - entry m 0 2 * (entry m 1 1 * entry m 2 3 - entry m 2 1 * entry m 1 3) +
      entry m 0 3 * (entry m 1 1 * entry m 2 2 - entry m 2 1 * entry m 1 2)) * lit (-1) ∧
    entry (M4.adjugate m) 1 3 = (entry m 0 0 * (entry m 1 2 * entry m 2 3 - entry m 2 2 * entry m 1 3) - entry m 0 2 * (entry m 1 0 * entry m 2 3 - entry m 2 0 * entry m 1 3) +
      entry m 0 3 * (entry m 1 0 * entry m 2 2 - entry m 2 0 * entry m 1 2)) * lit (1) ∧
    entry (M4.adjugate m) 2 3 = (entry m 0 0 * (entry m 1 1 * entry m 2 3 - entry m 2 1 * entry m 1 3) - entry m 0 1 * (entry m 1 0 * entry m 2 3 - entry m 2 0 * entry m 1 3) +
      entry m 0 3 * (entry m 1 0 * entry m 2 1 - entry m 2 0 * entry m 1 1)) * lit (-1) ∧
    entry (M4.adjugate m) 3 3 = (entry m 0 0 * (entry m 1 1 * entry m 2 2 - entry m 2 1 * entry m 1 2) - entry m 0 1 * (entry m 1 0 * entry m 2 2 - entry m 2 0 * entry m 1 2) +
      entry m 0 2 * (entry m 1 0 * entry m 2 1 - entry m 2 0 * entry m 1 1)) * lit (1) :=
  ⟨rfl, rfl, rfl, rfl, rfl, rfl, rfl, rfl, rfl, rfl, rfl, rfl, rfl, rfl, rfl, rfl⟩

/-- `determinant(mat4)`, written out -/
theorem determinant_entries4 {α : Type} [Add α] [Sub α] [Mul α] [Div α] [Neg α] [FloatOps α] (m : M4 α) : M4.determinant m =
    entry m 0 0 * (entry m 1 1 * (entry m 2 2 * entry m 3 3 - entry m 3 2 * entry m 2 3) - entry m 1 2 * (entry m 2 1 * entry m 3 3 - entry m 3 1 * entry m 2 3) + entry m 1 3 * (entry m 2 1 * entry m 3 2 - entry m 3 1 * entry m 2 2)) +
    entry m 0 1 * -(entry m 1 0 * (entry m 2 2 * entry m 3 3 - entry m 3 2 * entry m 2 3) - entry m 1 2 * (entry m 2 0 * entry m 3 3 - entry m 3 0 * entry m 2 3) + entry m 1 3 * (entry m 2 0 * entry m 3 2 - entry m 3 0 * entry m 2 2)) +
    entry m 0 2 * (entry m 1 0 * (entry m 2 1 * entry m 3 3 - entry m 3 1 * entry m 2 3) - entry m 1 1 * (entry m 2 0 * entry m 3 3 - entry m 3 0 * entry m 2 3) + entry m 1 3 * (entry m 2 0 * entry m 3 1 - entry m 3 0 * entry m 2 1)) +
    entry m 0 3 * -(entry m 1 0 * (entry m 2 1 * entry m 3 2 - entry m 3 1 * entry m 2 2) - entry m 1 1 * (entry m 2 0 * entry m 3 2 - entry m 3 0 * entry m 2 2) + entry m 1 2 * (entry m 2 0 * entry m 3 1 - entry m 3 0 * entry m 2 1)) := rfl

namespace F32

/-! ### Computed sums of products of matrix entries -/

/-- `x` is a computed value of `r`, a sum of at most `N` products of `d + 2` entries, all at most `B`, of total magnitude `m`,
with at most `k` successive roundings per term and `c` possible underflows. -/
structure Poly (B : ℚ) (x : F32) (r m : ℚ) (k c N d : ℕ) : Prop where
  fin : x.IsFin = true
  le : |r| ≤ m
  size : m ≤ N * B ^ (d + 2)
  err : |x.val - r| ≤ ((1 + 1 / 2 ^ 24) ^ k - 1) * m + c * (1 / 2 ^ 150) * (1 + 1 / 2 ^ 24) ^ k * B ^ d

/-- the ranges of the parameters in all uses -/
structure Small (k c N d : ℕ) : Prop where
  k : k ≤ 10
  c : c ≤ 40
  N : N ≤ 24
  d : d ≤ 2

theorem Poly.nonneg {B : ℚ} {x : F32} {r m : ℚ} {k c N d : ℕ} (h : Poly B x r m k c N d) : 0 ≤ m :=
  (abs_nonneg r).trans h.le

theorem Poly.mono {B : ℚ} {x : F32} {r m : ℚ} {k c N d l : ℕ} (hB : 1 ≤ B) (h : Poly B x r m k c N d) (hkl : k ≤ l) :
    Poly B x r m l c N d := by
  refine ⟨h.fin, h.le, h.size, h.err.trans ?_⟩
  have m0 := h.nonneg
  have : (1 + 1 / 2 ^ 24 : ℚ) ^ k ≤ (1 + 1 / 2 ^ 24) ^ l := pow_le_pow_right₀ (by norm_num) hkl
  have b0 : (0 : ℚ) ≤ B ^ d := by positivity
  gcongr

theorem Poly.abs_le {B : ℚ} {x : F32} {r m : ℚ} {k c N d : ℕ} (h : Poly B x r m k c N d) (hB : 1 ≤ B) (hB' : B ≤ 2 ^ 30)
    (hs : Small k c N d) : |x.val| ≤ (1 + 1 / 2 ^ 20) * m + 1 := by
  have m0 := h.nonneg
  have t : |x.val| ≤ |x.val - r| + |r| := by
    calc |x.val| = |(x.val - r) + r| := by congr 1; ring
      _ ≤ _ := abs_add_le _ _
  have p10 : (1 + 1 / 2 ^ 24 : ℚ) ^ k ≤ (1 + 1 / 2 ^ 24) ^ 10 := pow_le_pow_right₀ (by norm_num) hs.k
  have pn : (1 + 1 / 2 ^ 24 : ℚ) ^ 10 ≤ 1 + 1 / 2 ^ 20 := by norm_num
  have q : ((1 + 1 / 2 ^ 24 : ℚ) ^ k - 1) * m ≤ 1 / 2 ^ 20 * m := mul_le_mul_of_nonneg_right (by linarith) m0
  have hc : (c : ℚ) ≤ 40 := by exact_mod_cast hs.c
  have hb : B ^ d ≤ 2 ^ 60 := by
    calc B ^ d ≤ B ^ 2 := pow_le_pow_right₀ hB hs.d
      _ ≤ (2 ^ 30) ^ 2 := by gcongr
      _ = _ := by norm_num
  have b0 : (0 : ℚ) ≤ B ^ d := by positivity
  have : (c : ℚ) * (1 / 2 ^ 150) * (1 + 1 / 2 ^ 24) ^ k * B ^ d ≤ 40 * (1 / 2 ^ 150) * 2 * 2 ^ 60 := by
    gcongr
    linarith
  have : (40 : ℚ) * (1 / 2 ^ 150) * 2 * 2 ^ 60 ≤ 1 := by norm_num
  have := h.err
  have := h.le
  linarith

theorem Poly.abs_lt {B : ℚ} {x : F32} {r m : ℚ} {k c N d : ℕ} (h : Poly B x r m k c N d) (hB : 1 ≤ B) (hB' : B ≤ 2 ^ 30)
    (hs : Small k c N d) : |x.val| ≤ 2 ^ 125 := by
  have a := h.abs_le hB hB' hs
  have hN : (N : ℚ) ≤ 24 := by exact_mod_cast hs.N
  have hb : B ^ (d + 2) ≤ 2 ^ 120 := by
    calc B ^ (d + 2) ≤ B ^ 4 := pow_le_pow_right₀ hB (by have := hs.d; omega)
      _ ≤ (2 ^ 30) ^ 4 := by gcongr
      _ = _ := by norm_num
  have : m ≤ 24 * 2 ^ 120 := by
    refine h.size.trans ?_
    have : (0 : ℚ) ≤ B ^ (d + 2) := by positivity
    gcongr
  have : (1 + 1 / 2 ^ 20 : ℚ) * m ≤ (1 + 1 / 2 ^ 20) * (24 * 2 ^ 120) := by gcongr
  have : (1 + 1 / 2 ^ 20 : ℚ) * (24 * 2 ^ 120) + 1 ≤ 2 ^ 125 := by norm_num
  linarith

theorem poly_mul {B : ℚ} {a b : F32} (hB : 1 ≤ B) (hB' : B ≤ 2 ^ 30) (ha : a.IsFin = true ∧ |a.val| ≤ B)
    (hb : b.IsFin = true ∧ |b.val| ≤ B) : Poly B (a * b) (a.val * b.val) (|a.val| * |b.val|) 1 1 1 0 := by
  have hs : |a.val * b.val| ≤ 1 * B ^ 2 := by
    rw [abs_mul, sq, one_mul]
    exact mul_le_mul ha.2 hb.2 (abs_nonneg _) (by linarith)
  have hfin : (a * b).IsFin = true := by
    refine isFin_mul_of_le ha.1 hb.1 (hs.trans ?_)
    calc 1 * B ^ 2 ≤ 1 * (2 ^ 30) ^ 2 := by gcongr
      _ ≤ _ := by norm_num
  have h := approx_mul hfin
  refine ⟨hfin, by rw [abs_mul], by rw [← abs_mul]; simpa using hs, ?_⟩
  have := h.err
  rw [abs_mul (a.val)] at this
  simpa using this

theorem Poly.neg {B : ℚ} {x : F32} {r m : ℚ} {k c N d : ℕ} (h : Poly B x r m k c N d) : Poly B (-x) (-r) m k c N d := by
  refine ⟨by simpa using h.fin, by rw [abs_neg]; exact h.le, h.size, ?_⟩
  rw [val_neg, show -x.val - -r = -(x.val - r) by ring, abs_neg]
  exact h.err

theorem Poly.add {B : ℚ} {x y : F32} {r m r' m' : ℚ} {k c c' N N' d : ℕ} (hB : 1 ≤ B) (hB' : B ≤ 2 ^ 30)
    (hx : Poly B x r m k c N d) (hy : Poly B y r' m' k c' N' d) (hs : Small k c N d) (hs' : Small k c' N' d) :
    Poly B (x + y) (r + r') (m + m') (k + 1) (c + c') (N + N') d := by
  have h : (x + y).IsFin = true := by
    rw [add_fin hx.fin hy.fin]
    refine isFin_round ?_
    have := hx.abs_lt hB hB' hs
    have := hy.abs_lt hB hB' hs'
    have := abs_add_le x.val y.val
    have : (2 : ℚ) ^ 125 + 2 ^ 125 ≤ (2 ^ 24 - 1) * 2 ^ 104 := by norm_num
    linarith
  refine ⟨h, (abs_add_le _ _).trans (add_le_add hx.le hy.le), ?_, ?_⟩
  · have := hx.size
    have := hy.size
    push_cast
    linarith
  have e := add_error_rel h
  have e1 := hx.err
  have e2 := hy.err
  have t1 : |(x + y).val - (r + r')| ≤ |(x + y).val - (x.val + y.val)| + (|x.val - r| + |y.val - r'|) := by
    calc |(x + y).val - (r + r')| = |((x + y).val - (x.val + y.val)) + ((x.val - r) + (y.val - r'))| := by
          congr 1; ring
      _ ≤ _ := (abs_add_le _ _).trans (add_le_add le_rfl (abs_add_le _ _))
  have t2 : |x.val + y.val| ≤ (m + m') + (|x.val - r| + |y.val - r'|) := by
    calc |x.val + y.val| = |(r + r') + ((x.val - r) + (y.val - r'))| := by congr 1; ring
      _ ≤ |r + r'| + |(x.val - r) + (y.val - r')| := abs_add_le _ _
      _ ≤ (|r| + |r'|) + (|x.val - r| + |y.val - r'|) := add_le_add (abs_add_le _ _) (abs_add_le _ _)
      _ ≤ _ := by have := hx.le; have := hy.le; linarith
  push_cast
  rw [pow_succ]
  have e3 : |x.val - r| + |y.val - r'| ≤ ((1 + 1 / 2 ^ 24) ^ k - 1) * (m + m') +
      (c + c') * (1 / 2 ^ 150) * (1 + 1 / 2 ^ 24) ^ k * B ^ d := by linarith
  generalize (1 + 1 / 2 ^ 24 : ℚ) ^ k = p at *
  generalize (1 / 2 ^ 150 : ℚ) = η at *
  generalize |x.val - r| + |y.val - r'| = E at *
  have : |(x + y).val - (r + r')| ≤ (m + m') / 2 ^ 24 + (1 + 1 / 2 ^ 24) * E := by
    have : |x.val + y.val| / 2 ^ 24 ≤ ((m + m') + E) / 2 ^ 24 := by gcongr
    linarith
  refine this.trans ?_
  have : (1 + 1 / 2 ^ 24 : ℚ) * E ≤ (1 + 1 / 2 ^ 24) * ((p - 1) * (m + m') + (c + c') * η * p * B ^ d) := by gcongr
  linarith

theorem Poly.sub {B : ℚ} {x y : F32} {r m r' m' : ℚ} {k c c' N N' d : ℕ} (hB : 1 ≤ B) (hB' : B ≤ 2 ^ 30)
    (hx : Poly B x r m k c N d) (hy : Poly B y r' m' k c' N' d) (hs : Small k c N d) (hs' : Small k c' N' d) :
    Poly B (x - y) (r - r') (m + m') (k + 1) (c + c') (N + N') d := by
  rw [F32.sub_eq, sub_eq_add_neg r]
  exact hx.add hB hB' hy.neg hs hs'

/-- multiplication by an entry -/
theorem Poly.mul {B : ℚ} {a x : F32} {r m : ℚ} {k c N d : ℕ} (hB : 1 ≤ B) (hB' : B ≤ 2 ^ 30)
    (ha : a.IsFin = true ∧ |a.val| ≤ B) (hx : Poly B x r m k c N d) (hs : Small k c N (d + 1)) :
    Poly B (a * x) (a.val * r) (|a.val| * m) (k + 1) (c + 1) N (d + 1) := by
  have m0 := hx.nonneg
  have a0 := abs_nonneg a.val
  have hsz : |a.val| * m ≤ N * B ^ (d + 1 + 2) := by
    calc |a.val| * m ≤ B * (N * B ^ (d + 2)) := mul_le_mul ha.2 hx.size m0 (by linarith)
      _ = _ := by ring
  have hx1 := hx.abs_le hB hB' ⟨hs.k, hs.c, hs.N, by have := hs.d; omega⟩
  have hfin : (a * x).IsFin = true := by
    refine isFin_mul_of_le ha.1 hx.fin ?_
    rw [abs_mul]
    have h1 : |a.val| * |x.val| ≤ |a.val| * ((1 + 1 / 2 ^ 20) * m + 1) := mul_le_mul_of_nonneg_left hx1 a0
    have hN : (N : ℚ) ≤ 24 := by exact_mod_cast hs.N
    have hb : B ^ (d + 1 + 2) ≤ 2 ^ 120 := by
      calc B ^ (d + 1 + 2) ≤ B ^ 4 := pow_le_pow_right₀ hB (by have := hs.d; omega)
        _ ≤ (2 ^ 30) ^ 4 := by gcongr
        _ = _ := by norm_num
    have h2 : |a.val| * m ≤ 24 * 2 ^ 120 := by
      refine hsz.trans ?_
      have : (0 : ℚ) ≤ B ^ (d + 1 + 2) := by positivity
      gcongr
    have h3 : |a.val| ≤ 2 ^ 30 := ha.2.trans hB'
    have : (1 + 1 / 2 ^ 20 : ℚ) * (24 * 2 ^ 120) + 2 ^ 30 ≤ 2 ^ 126 := by norm_num
    have : |a.val| * ((1 + 1 / 2 ^ 20) * m + 1) = (1 + 1 / 2 ^ 20) * (|a.val| * m) + |a.val| := by ring
    have : (1 + 1 / 2 ^ 20 : ℚ) * (|a.val| * m) ≤ (1 + 1 / 2 ^ 20) * (24 * 2 ^ 120) := by gcongr
    linarith
  refine ⟨hfin, by rw [abs_mul]; exact mul_le_mul_of_nonneg_left hx.le a0, hsz, ?_⟩
  have e := mul_error ha.1 hx.fin hfin
  have ex := hx.err
  have t1 : |(a * x).val - a.val * r| ≤ |(a * x).val - a.val * x.val| + |a.val| * |x.val - r| := by
    calc |(a * x).val - a.val * r| = |((a * x).val - a.val * x.val) + a.val * (x.val - r)| := by congr 1; ring
      _ ≤ _ := (abs_add_le _ _).trans (by rw [abs_mul])
  have t2 : |a.val * x.val| ≤ |a.val| * m + |a.val| * |x.val - r| := by
    rw [abs_mul, ← mul_add]
    refine mul_le_mul_of_nonneg_left ?_ a0
    calc |x.val| = |r + (x.val - r)| := by congr 1; ring
      _ ≤ _ := (abs_add_le _ _).trans (add_le_add hx.le le_rfl)
  have t3 : |a.val| * |x.val - r| ≤ ((1 + 1 / 2 ^ 24) ^ k - 1) * (|a.val| * m) +
      c * (1 / 2 ^ 150) * (1 + 1 / 2 ^ 24) ^ k * B ^ (d + 1) := by
    calc |a.val| * |x.val - r| ≤ |a.val| * (((1 + 1 / 2 ^ 24) ^ k - 1) * m + c * (1 / 2 ^ 150) * (1 + 1 / 2 ^ 24) ^ k * B ^ d) :=
          mul_le_mul_of_nonneg_left ex a0
      _ = ((1 + 1 / 2 ^ 24) ^ k - 1) * (|a.val| * m) + c * (1 / 2 ^ 150) * (1 + 1 / 2 ^ 24) ^ k * (B ^ d * |a.val|) := by ring
      _ ≤ _ := by
        have : B ^ d * |a.val| ≤ B ^ (d + 1) := by
          rw [pow_succ]; exact mul_le_mul_of_nonneg_left ha.2 (by positivity)
        gcongr
  have hbd : 1 ≤ B ^ (d + 1) := one_le_pow₀ hB
  have p1 : (1 : ℚ) ≤ (1 + 1 / 2 ^ 24) ^ k := one_le_pow₀ (by norm_num)
  push_cast
  rw [pow_succ (1 + 1 / 2 ^ 24 : ℚ)]
  generalize (1 + 1 / 2 ^ 24 : ℚ) ^ k = p at *
  have hη : (0 : ℚ) < 1 / 2 ^ 150 := by positivity
  generalize (1 / 2 ^ 150 : ℚ) = η at *
  generalize |a.val| * |x.val - r| = E at *
  generalize |a.val| * m = W at *
  generalize B ^ (d + 1) = T at *
  have : |(a * x).val - a.val * r| ≤ W / 2 ^ 24 + (1 + 1 / 2 ^ 24) * E + η := by
    have : |a.val * x.val| / 2 ^ 24 ≤ (W + E) / 2 ^ 24 := by gcongr
    linarith
  refine this.trans ?_
  have h1 : (1 + 1 / 2 ^ 24 : ℚ) * E ≤ (1 + 1 / 2 ^ 24) * ((p - 1) * W + c * η * p * T) := by gcongr
  have h2 : η ≤ η * (p * (1 + 1 / 2 ^ 24)) * T := by
    have : 1 ≤ p * (1 + 1 / 2 ^ 24) * T := by
      have : 1 ≤ p * (1 + 1 / 2 ^ 24) := by linarith
      nlinarith
    calc η = η * 1 := by ring
      _ ≤ η * (p * (1 + 1 / 2 ^ 24) * T) := mul_le_mul_of_nonneg_left this hη.le
      _ = _ := by ring
  linarith

theorem Poly.congr {B : ℚ} {x : F32} {r m r' m' : ℚ} {k c N d : ℕ} (h : Poly B x r m k c N d) (hr : r = r') (hm : m = m') :
    Poly B x r' m' k c N d := by
  subst hr hm; exact h

theorem mul_negOne (x : F32) : x * lit (-1) = -x := by
  have : (lit (-1) : F32) = -(lit 1) := by decide +kernel
  rw [this, mul_neg', mul_one']

/-- an entry and its bound -/
abbrev Ent (B : ℚ) (a : F32) : Prop := a.IsFin = true ∧ |a.val| ≤ B

theorem Ent.neg {B : ℚ} {a : F32} (h : Ent B a) : Ent B (-a) := by
  refine ⟨by simpa using h.1, ?_⟩
  rw [val_neg, abs_neg]; exact h.2

/-- a 2×2 determinant -/
theorem poly_cof2 {B : ℚ} (hB : 1 ≤ B) (hB' : B ≤ 2 ^ 30) {a b c d : F32} (ha : Ent B a) (hb : Ent B b) (hc : Ent B c)
    (hd : Ent B d) : Poly B (a * b - c * d) (a.val * b.val - c.val * d.val) (|a.val| * |b.val| + |c.val| * |d.val|) 2 2 2 0 :=
  (poly_mul hB hB' ha hb).sub hB hB' (poly_mul hB hB' hc hd) ⟨by norm_num, by norm_num, by norm_num, by norm_num⟩
    ⟨by norm_num, by norm_num, by norm_num, by norm_num⟩

/-- a 3×3 determinant expanded along one line -/
theorem poly_cof3 {B : ℚ} (hB : 1 ≤ B) (hB' : B ≤ 2 ^ 30) {a b c x y z : F32} {r s t m n o : ℚ} (ha : Ent B a) (hb : Ent B b)
    (hc : Ent B c) (hx : Poly B x r m 2 2 2 0) (hy : Poly B y s n 2 2 2 0) (hz : Poly B z t o 2 2 2 0) :
    Poly B (a * x - b * y + c * z) (a.val * r - b.val * s + c.val * t) (|a.val| * m + |b.val| * n + |c.val| * o) 5 9 6 1 := by
  have s1 : Small 2 2 2 1 := ⟨by norm_num, by norm_num, by norm_num, by norm_num⟩
  have s2 : Small 3 3 2 1 := ⟨by norm_num, by norm_num, by norm_num, by norm_num⟩
  have s3 : Small 4 6 4 1 := ⟨by norm_num, by norm_num, by norm_num, by norm_num⟩
  have s4 : Small 4 3 2 1 := ⟨by norm_num, by norm_num, by norm_num, by norm_num⟩
  exact ((hx.mul hB hB' ha s1).sub hB hB' (hy.mul hB hB' hb s1) s2 s2).add hB hB'
    ((hz.mul hB hB' hc s1).mono hB (by norm_num)) s3 s4

/-- a 4×4 determinant expanded along one line, summed from left to right -/
theorem poly_cof4 {B : ℚ} (hB : 1 ≤ B) (hB' : B ≤ 2 ^ 30) {a b c d x y z w : F32} {r s t u m n o p : ℚ} (ha : Ent B a)
    (hb : Ent B b) (hc : Ent B c) (hd : Ent B d) (hx : Poly B x r m 5 9 6 1) (hy : Poly B y s n 5 9 6 1)
    (hz : Poly B z t o 5 9 6 1) (hw : Poly B w u p 5 9 6 1) :
    Poly B (a * x + b * y + c * z + d * w) (a.val * r + b.val * s + c.val * t + d.val * u)
      (|a.val| * m + |b.val| * n + |c.val| * o + |d.val| * p) 9 40 24 2 := by
  have s1 : Small 5 9 6 2 := ⟨by norm_num, by norm_num, by norm_num, by norm_num⟩
  have s2 : Small 6 10 6 2 := ⟨by norm_num, by norm_num, by norm_num, by norm_num⟩
  have s3 : Small 7 20 12 2 := ⟨by norm_num, by norm_num, by norm_num, by norm_num⟩
  have s4 : Small 7 10 6 2 := ⟨by norm_num, by norm_num, by norm_num, by norm_num⟩
  have s5 : Small 8 30 18 2 := ⟨by norm_num, by norm_num, by norm_num, by norm_num⟩
  have s6 : Small 8 10 6 2 := ⟨by norm_num, by norm_num, by norm_num, by norm_num⟩
  exact ((((hx.mul hB hB' ha s1).add hB hB' (hy.mul hB hB' hb s1) s2 s2).add hB hB'
    ((hz.mul hB hB' hc s1).mono hB (by norm_num)) s3 s4)).add hB hB' ((hw.mul hB hB' hd s1).mono hB (by norm_num)) s5 s6

/-- the same, summed in pairs -/
theorem poly_cof4' {B : ℚ} (hB : 1 ≤ B) (hB' : B ≤ 2 ^ 30) {a b c d x y z w : F32} {r s t u m n o p : ℚ} (ha : Ent B a)
    (hb : Ent B b) (hc : Ent B c) (hd : Ent B d) (hx : Poly B x r m 5 9 6 1) (hy : Poly B y s n 5 9 6 1)
    (hz : Poly B z t o 5 9 6 1) (hw : Poly B w u p 5 9 6 1) :
    Poly B ((a * x + b * y) + (c * z + d * w)) ((a.val * r + b.val * s) + (c.val * t + d.val * u))
      ((|a.val| * m + |b.val| * n) + (|c.val| * o + |d.val| * p)) 8 40 24 2 := by
  have s1 : Small 5 9 6 2 := ⟨by norm_num, by norm_num, by norm_num, by norm_num⟩
  have s2 : Small 6 10 6 2 := ⟨by norm_num, by norm_num, by norm_num, by norm_num⟩
  have s3 : Small 7 20 12 2 := ⟨by norm_num, by norm_num, by norm_num, by norm_num⟩
  exact ((hx.mul hB hB' ha s1).add hB hB' (hy.mul hB hB' hb s1) s2 s2).add hB hB'
    ((hz.mul hB hB' hc s1).add hB hB' (hw.mul hB hB' hd s1) s2 s2) s3 s3

/-! ### Determinants and adjugates -/

theorem det2 {B : ℚ} (hB : 1 ≤ B) (hB' : B ≤ 2 ^ 30) {m : M2 F32} (h : BoundedBy m B) :
    Poly B (M2.determinant m) (exactMat m).det (termSize (exactMat m)) 2 2 2 0 := by
  refine (poly_cof2 hB hB' (h 0 0) (h 1 1) (h 1 0) (h 0 1)).congr ?_ ?_
  · rw [Matrix.det_fin_two]; simp only [exactMat, Matrix.of_apply]
  · rw [termSize_two]; simp only [exactMat, Matrix.of_apply]; ring

theorem det3 {B : ℚ} (hB : 1 ≤ B) (hB' : B ≤ 2 ^ 30) {m : M3 F32} (h : BoundedBy m B) :
    Poly B (M3.determinant m) (exactMat m).det (termSize (exactMat m)) 5 9 6 1 := by
  have c : ∀ i j k l, Poly B _ _ _ 2 2 2 0 := fun i j k l => poly_cof2 hB hB' (h i j) (h k l) (h k j) (h i l)
  refine (poly_cof3 hB hB' (h 0 0) (h 1 0) (h 2 0) (c 1 1 2 2) (c 0 1 2 2) (c 0 1 1 2)).congr ?_ ?_
  · rw [Matrix.det_fin_three]; simp only [exactMat, Matrix.of_apply]; ring
  · rw [termSize_three]; simp only [exactMat, Matrix.of_apply]; ring

/-- the expansion along the first column, as `inverseTranspose(mat3)` computes it -/
theorem det3' {B : ℚ} (hB : 1 ≤ B) (hB' : B ≤ 2 ^ 30) {m : M3 F32} (h : BoundedBy m B) :
    Poly B (m.c0.x * (m.c1.y * m.c2.z - m.c1.z * m.c2.y) - m.c0.y * (m.c1.x * m.c2.z - m.c1.z * m.c2.x) +
      m.c0.z * (m.c1.x * m.c2.y - m.c1.y * m.c2.x)) (exactMat m).det (termSize (exactMat m)) 5 9 6 1 := by
  have c : ∀ i j k l, Poly B _ _ _ 2 2 2 0 := fun i j k l => poly_cof2 hB hB' (h i j) (h k l) (h i l) (h k j)
  refine (poly_cof3 hB hB' (h 0 0) (h 0 1) (h 0 2) (c 1 1 2 2) (c 1 0 2 2) (c 1 0 2 1)).congr ?_ ?_
  · rw [Matrix.det_fin_three]; simp only [exactMat, Matrix.of_apply]; ring
  · rw [termSize_three]; simp only [exactMat, Matrix.of_apply]


/-- a minor of a 4×4 matrix: columns `i`, `j`, `k` and rows `p`, `q`, `s` -/
theorem minor_poly {B : ℚ} (hB : 1 ≤ B) (hB' : B ≤ 2 ^ 30) {m : M4 F32} (h : BoundedBy m B) (i j k p q s : Fin 4) :
    Poly B (entry m i p * (entry m j q * entry m k s - entry m k q * entry m j s) -
        entry m i q * (entry m j p * entry m k s - entry m k p * entry m j s) +
        entry m i s * (entry m j p * entry m k q - entry m k p * entry m j q))
      ((exactMat m).submatrix ![p, q, s] ![i, j, k]).det (termSize ((exactMat m).submatrix ![p, q, s] ![i, j, k])) 5 9 6 1 := by
  have e : ∀ i j k l, Poly B _ _ _ 2 2 2 0 := fun i j k l => poly_cof2 hB hB' (h i j) (h k l) (h k j) (h i l)
  have A : ∀ r c, (exactMat m) r c = (entry m c r).val := fun _ _ => rfl
  refine (poly_cof3 hB hB' (h i p) (h i q) (h i s) (e j q k s) (e j p k s) (e j p k q)).congr ?_ ?_
  · rw [Matrix.det_fin_three]
    simp only [Matrix.submatrix_apply, A, Matrix.cons_val]
    ring
  · rw [termSize_three]
    simp only [Matrix.submatrix_apply, A, Matrix.cons_val]
    ring

theorem det4 {B : ℚ} (hB : 1 ≤ B) (hB' : B ≤ 2 ^ 30) {m : M4 F32} (h : BoundedBy m B) :
    Poly B (M4.determinant m) (exactMat m).det (termSize (exactMat m)) 9 40 24 2 := by
  have P := minor_poly hB hB' h
  have s0 : Fin.succAbove (0 : Fin 4) = ![1, 2, 3] := by decide
  have s1 : Fin.succAbove (1 : Fin 4) = ![0, 2, 3] := by decide
  have s2 : Fin.succAbove (2 : Fin 4) = ![0, 1, 3] := by decide
  have s3 : Fin.succAbove (3 : Fin 4) = ![0, 1, 2] := by decide
  have s : (Fin.succ : Fin 3 → Fin 4) = ![1, 2, 3] := by decide
  rw [determinant_entries4]
  refine (poly_cof4 hB hB' (h 0 0) (h 0 1) (h 0 2) (h 0 3) (P 1 2 3 1 2 3) (P 1 2 3 0 2 3).neg (P 1 2 3 0 1 3)
    (P 1 2 3 0 1 2).neg).congr ?_ ?_
  · rw [Matrix.det_succ_column_zero (exactMat m), Fin.sum_univ_four, s, s0, s1, s2, s3]
    change _ = (-1) ^ 0 * (entry m 0 0).val * _ + (-1) ^ 1 * (entry m 0 1).val * _ + (-1) ^ 2 * (entry m 0 2).val * _ +
      (-1) ^ 3 * (entry m 0 3).val * _
    ring
  · rw [termSize_four, s, s0, s1, s2, s3]; rfl

theorem adj2 {B : ℚ} {m : M2 F32} (h : BoundedBy m B) (r c : Fin 2) :
    Ent B (entry (M2.adjugate m) c r) ∧ (entry (M2.adjugate m) c r).val = (exactMat m).adjugate r c ∧
      |(exactMat m).adjugate r c| = minorSize (exactMat m) r c := by
  unfold minorSize
  rw [Matrix.adjugate_fin_two, termSize_one]
  fin_cases r <;> fin_cases c
  · exact ⟨h 1 1, rfl, rfl⟩
  · exact ⟨Ent.neg (h 1 0), val_neg _, by simp [exactMat]⟩
  · exact ⟨Ent.neg (h 0 1), val_neg _, by simp [exactMat]⟩
  · exact ⟨h 0 0, rfl, rfl⟩

theorem adj3 {B : ℚ} (hB : 1 ≤ B) (hB' : B ≤ 2 ^ 30) {m : M3 F32} (h : BoundedBy m B) (r c : Fin 3) :
    Poly B (entry (M3.adjugate m) c r) ((exactMat m).adjugate r c) (minorSize (exactMat m) r c) 2 2 2 0 := by
  have e : ∀ i j k l, Poly B _ _ _ 2 2 2 0 := fun i j k l => poly_cof2 hB hB' (h i j) (h k l) (h k j) (h i l)
  unfold minorSize
  rw [Matrix.adjugate_fin_three, termSize_two]
  fin_cases r <;> fin_cases c
  · refine (e 1 1 2 2).congr ?_ ?_ <;> simp [exactMat, Fin.succAbove] <;> ring
  · refine (e 1 0 2 2).neg.congr ?_ ?_ <;> simp [exactMat, Fin.succAbove] <;> ring
  · refine (e 1 0 2 1).congr ?_ ?_ <;> simp [exactMat, Fin.succAbove] <;> ring
  · refine (e 0 1 2 2).neg.congr ?_ ?_ <;> simp [exactMat, Fin.succAbove] <;> ring
  · refine (e 0 0 2 2).congr ?_ ?_ <;> simp [exactMat, Fin.succAbove] <;> ring
  · refine (e 0 0 2 1).neg.congr ?_ ?_ <;> simp [exactMat, Fin.succAbove] <;> ring
  · refine (e 0 1 1 2).congr ?_ ?_ <;> simp [exactMat, Fin.succAbove] <;> ring
  · refine (e 0 0 1 2).neg.congr ?_ ?_ <;> simp [exactMat, Fin.succAbove] <;> ring
  · refine (e 0 0 1 1).congr ?_ ?_ <;> simp [exactMat, Fin.succAbove] <;> ring

theorem adj4 {B : ℚ} (hB : 1 ≤ B) (hB' : B ≤ 2 ^ 30) {m : M4 F32} (h : BoundedBy m B) (r c : Fin 4) :
    Poly B (entry (M4.adjugate m) c r) ((exactMat m).adjugate r c) (minorSize (exactMat m) r c) 5 9 6 1 := by
  have pos : ∀ {x : F32} {r m : ℚ}, Poly B x r m 5 9 6 1 → Poly B (x * lit 1) r m 5 9 6 1 := fun g => by rwa [mul_one']
  have neg : ∀ {x : F32} {r m : ℚ}, Poly B x r m 5 9 6 1 → Poly B (x * lit (-1)) (-r) m 5 9 6 1 := fun g => by
    rw [mul_negOne]; exact g.neg
  have P := minor_poly hB hB' h
  have s0 : Fin.succAbove (0 : Fin 4) = ![1, 2, 3] := by decide
  have s1 : Fin.succAbove (1 : Fin 4) = ![0, 2, 3] := by decide
  have s2 : Fin.succAbove (2 : Fin 4) = ![0, 1, 3] := by decide
  have s3 : Fin.succAbove (3 : Fin 4) = ![0, 1, 2] := by decide
  unfold minorSize
  rw [Matrix.adjugate_fin_succ_eq_det_submatrix]
  obtain ⟨E0, E1, E2, E3, E4, E5, E6, E7, E8, E9, E10, E11, E12, E13, E14, E15⟩ := adjugate_entry4 m
  generalize M4.adjugate m = X at *
  generalize exactMat m = A at *
  fin_cases r <;> fin_cases c
  · change Poly B (entry X 0 0) ((-1) ^ 0 * (A.submatrix (Fin.succAbove 0) (Fin.succAbove 0)).det) (termSize (A.submatrix (Fin.succAbove 0) (Fin.succAbove 0))) 5 9 6 1
    rw [E0, s0]; exact (pos (P 1 2 3 1 2 3)).congr (by ring) rfl
  · change Poly B (entry X 1 0) ((-1) ^ 1 * (A.submatrix (Fin.succAbove 1) (Fin.succAbove 0)).det) (termSize (A.submatrix (Fin.succAbove 1) (Fin.succAbove 0))) 5 9 6 1
    rw [E1, s1, s0]; exact (neg (P 1 2 3 0 2 3)).congr (by ring) rfl
  · change Poly B (entry X 2 0) ((-1) ^ 2 * (A.submatrix (Fin.succAbove 2) (Fin.succAbove 0)).det) (termSize (A.submatrix (Fin.succAbove 2) (Fin.succAbove 0))) 5 9 6 1
    rw [E2, s2, s0]; exact (pos (P 1 2 3 0 1 3)).congr (by ring) rfl
  · change Poly B (entry X 3 0) ((-1) ^ 3 * (A.submatrix (Fin.succAbove 3) (Fin.succAbove 0)).det) (termSize (A.submatrix (Fin.succAbove 3) (Fin.succAbove 0))) 5 9 6 1
    rw [E3, s3, s0]; exact (neg (P 1 2 3 0 1 2)).congr (by ring) rfl
  · change Poly B (entry X 0 1) ((-1) ^ 1 * (A.submatrix (Fin.succAbove 0) (Fin.succAbove 1)).det) (termSize (A.submatrix (Fin.succAbove 0) (Fin.succAbove 1))) 5 9 6 1
    rw [E4, s0, s1]; exact (neg (P 0 2 3 1 2 3)).congr (by ring) rfl
  · change Poly B (entry X 1 1) ((-1) ^ 2 * (A.submatrix (Fin.succAbove 1) (Fin.succAbove 1)).det) (termSize (A.submatrix (Fin.succAbove 1) (Fin.succAbove 1))) 5 9 6 1
    rw [E5, s1]; exact (pos (P 0 2 3 0 2 3)).congr (by ring) rfl
  · change Poly B (entry X 2 1) ((-1) ^ 3 * (A.submatrix (Fin.succAbove 2) (Fin.succAbove 1)).det) (termSize (A.submatrix (Fin.succAbove 2) (Fin.succAbove 1))) 5 9 6 1
    rw [E6, s2, s1]; exact (neg (P 0 2 3 0 1 3)).congr (by ring) rfl
  · change Poly B (entry X 3 1) ((-1) ^ 4 * (A.submatrix (Fin.succAbove 3) (Fin.succAbove 1)).det) (termSize (A.submatrix (Fin.succAbove 3) (Fin.succAbove 1))) 5 9 6 1
    rw [E7, s3, s1]; exact (pos (P 0 2 3 0 1 2)).congr (by ring) rfl
  · change Poly B (entry X 0 2) ((-1) ^ 2 * (A.submatrix (Fin.succAbove 0) (Fin.succAbove 2)).det) (termSize (A.submatrix (Fin.succAbove 0) (Fin.succAbove 2))) 5 9 6 1
    rw [E8, s0, s2]; exact (pos (P 0 1 3 1 2 3)).congr (by ring) rfl
  · change Poly B (entry X 1 2) ((-1) ^ 3 * (A.submatrix (Fin.succAbove 1) (Fin.succAbove 2)).det) (termSize (A.submatrix (Fin.succAbove 1) (Fin.succAbove 2))) 5 9 6 1
    rw [E9, s1, s2]; exact (neg (P 0 1 3 0 2 3)).congr (by ring) rfl
  · change Poly B (entry X 2 2) ((-1) ^ 4 * (A.submatrix (Fin.succAbove 2) (Fin.succAbove 2)).det) (termSize (A.submatrix (Fin.succAbove 2) (Fin.succAbove 2))) 5 9 6 1
    rw [E10, s2]; exact (pos (P 0 1 3 0 1 3)).congr (by ring) rfl
  · change Poly B (entry X 3 2) ((-1) ^ 5 * (A.submatrix (Fin.succAbove 3) (Fin.succAbove 2)).det) (termSize (A.submatrix (Fin.succAbove 3) (Fin.succAbove 2))) 5 9 6 1
    rw [E11, s3, s2]; exact (neg (P 0 1 3 0 1 2)).congr (by ring) rfl
  · change Poly B (entry X 0 3) ((-1) ^ 3 * (A.submatrix (Fin.succAbove 0) (Fin.succAbove 3)).det) (termSize (A.submatrix (Fin.succAbove 0) (Fin.succAbove 3))) 5 9 6 1
    rw [E12, s0, s3]; exact (neg (P 0 1 2 1 2 3)).congr (by ring) rfl
  · change Poly B (entry X 1 3) ((-1) ^ 4 * (A.submatrix (Fin.succAbove 1) (Fin.succAbove 3)).det) (termSize (A.submatrix (Fin.succAbove 1) (Fin.succAbove 3))) 5 9 6 1
    rw [E13, s1, s3]; exact (pos (P 0 1 2 0 2 3)).congr (by ring) rfl
  · change Poly B (entry X 2 3) ((-1) ^ 5 * (A.submatrix (Fin.succAbove 2) (Fin.succAbove 3)).det) (termSize (A.submatrix (Fin.succAbove 2) (Fin.succAbove 3))) 5 9 6 1
    rw [E14, s2, s3]; exact (neg (P 0 1 2 0 1 3)).congr (by ring) rfl
  · change Poly B (entry X 3 3) ((-1) ^ 6 * (A.submatrix (Fin.succAbove 3) (Fin.succAbove 3)).det) (termSize (A.submatrix (Fin.succAbove 3) (Fin.succAbove 3))) 5 9 6 1
    rw [E15, s3]; exact (pos (P 0 1 2 0 1 2)).congr (by ring) rfl

/-! ### Division by the determinant -/

/-- The quotient of a computed numerator by a computed denominator of moderate condition. -/
theorem quotient_error {A D Q a d t M U H : ℚ} (hd : 0 < |d|) (hat : |a| ≤ t) (hA : |A - a| ≤ 6 / 2 ^ 24 * t + U)
    (hU : 0 ≤ U) (hM : |d| ≤ M) (hD : |D - d| ≤ 10 / 2 ^ 24 * M + |d| / 2 ^ 30) (hk : M ≤ 2 ^ 18 * |d|)
    (hQ : |Q - A / D| ≤ 3 / 2 ^ 24 * |A / D| + H) :
    3 / 4 * |d| ≤ |D| ∧ |A / D| ≤ 3 / 2 * ((t + U) / |d|) ∧
      |Q - a / d| ≤ M / |d| * (t / |d|) / 2 ^ 19 + 2 * (U / |d|) + H := by
  have t0 : 0 ≤ t := (abs_nonneg a).trans hat
  have hDd : 3 / 4 * |d| ≤ |D| := by
    have : |d| ≤ |D| + |D - d| := by
      calc |d| = |D - (D - d)| := by congr 1; ring
        _ ≤ _ := abs_sub _ _
    linarith
  have D0 : 0 < |D| := by linarith
  have Dne : D ≠ 0 := abs_pos.mp D0
  have dne : d ≠ 0 := abs_pos.mp hd
  have inv : ∀ w : ℚ, 0 ≤ w → w / |D| ≤ 4 / 3 * (w / |d|) := by
    intro w hw
    rw [div_le_iff₀ D0]
    calc w = 4 / 3 * (w / |d|) * (3 / 4 * |d|) := by field_simp
      _ ≤ _ := mul_le_mul_of_nonneg_left hDd (by positivity)
  set X : ℚ := t / |d| with hX
  set V : ℚ := U / |d| with hV
  have X0 : 0 ≤ X := by positivity
  have V0 : 0 ≤ V := by positivity
  have k1 : 1 ≤ M / |d| := by rw [one_le_div hd]; exact hM
  have XY : X ≤ M / |d| * X := by nlinarith
  -- numerator
  have hAa : |(A - a) / D| ≤ 4 / 3 * (6 / 2 ^ 24 * X + V) := by
    rw [abs_div]
    calc |A - a| / |D| ≤ (6 / 2 ^ 24 * t + U) / |D| := by gcongr
      _ ≤ 4 / 3 * ((6 / 2 ^ 24 * t + U) / |d|) := inv _ (by positivity)
      _ = _ := by rw [hX, hV]; field_simp
  have hq : |A / D| ≤ 4 / 3 * ((1 + 6 / 2 ^ 24) * X + V) := by
    rw [abs_div]
    have : |A| ≤ (1 + 6 / 2 ^ 24) * t + U := by
      have : |A| ≤ |A - a| + |a| := by
        calc |A| = |(A - a) + a| := by congr 1; ring
          _ ≤ _ := abs_add_le _ _
      linarith
    calc |A| / |D| ≤ ((1 + 6 / 2 ^ 24) * t + U) / |D| := by gcongr
      _ ≤ 4 / 3 * (((1 + 6 / 2 ^ 24) * t + U) / |d|) := inv _ (by positivity)
      _ = _ := by rw [hX, hV]; field_simp
  -- denominator
  have hDd' : |a * (d - D) / (D * d)| ≤ 4 / 3 * (10 / 2 ^ 24 * (M / |d| * X) + X / 2 ^ 30) := by
    have e1 : |d - D| / |d| ≤ 10 / 2 ^ 24 * (M / |d|) + 1 / 2 ^ 30 := by
      rw [abs_sub_comm, div_le_iff₀ hd]
      refine hD.trans (le_of_eq ?_)
      field_simp
    have e2 : |a| / |D| ≤ 4 / 3 * X := by
      calc |a| / |D| ≤ t / |D| := by gcongr
        _ ≤ _ := inv t t0
    have : |a * (d - D) / (D * d)| = (|a| / |D|) * (|d - D| / |d|) := by
      rw [abs_div, abs_mul, abs_mul]; field_simp
    rw [this]
    calc (|a| / |D|) * (|d - D| / |d|) ≤ (4 / 3 * X) * (10 / 2 ^ 24 * (M / |d|) + 1 / 2 ^ 30) :=
          mul_le_mul e2 e1 (by positivity) (by positivity)
      _ = _ := by ring
  refine ⟨hDd, ?_, ?_⟩
  · rw [add_div]
    linarith
  · have e : Q - a / d = (Q - A / D) + ((A - a) / D + a * (d - D) / (D * d)) := by
      field_simp
      ring
    have : |Q - a / d| ≤ |Q - A / D| + (|(A - a) / D| + |a * (d - D) / (D * d)|) := by
      rw [e]
      exact (abs_add_le _ _).trans (add_le_add le_rfl (abs_add_le _ _))
    linarith

/-- the computed numerator and denominator of an entry of the inverse are close enough to apply `quotient_error` -/
structure Ready (B : ℚ) (A D : F32) (a d t M : ℚ) : Prop where
  finA : A.IsFin = true
  finD : D.IsFin = true
  a_le : |a| ≤ t
  d_le : |d| ≤ M
  errA : |A.val - a| ≤ 6 / 2 ^ 24 * t + B / 2 ^ 146
  errD : |D.val - d| ≤ 10 / 2 ^ 24 * M + |d| / 2 ^ 30
  D_le : |D.val| ≤ 2 ^ 125
  d_ge : B ≤ 2 ^ 110 * |d|
  t_le : t ≤ 6 * 2 ^ 110 * |d|
  cond : M ≤ 2 ^ 18 * |d|

theorem Ready.bounds {B : ℚ} {A D : F32} {a d t M : ℚ} (hB : 1 ≤ B) (h : Ready B A D a d t M) :
    0 < |d| ∧ D.val ≠ 0 ∧ 1 / 2 ^ 125 ≤ |1 / D.val| ∧ |1 / D.val| ≤ 2 ^ 111 ∧ |A.val / D.val| ≤ 2 ^ 115 := by
  have hd : 0 < |d| := by
    have := h.d_ge
    have : 0 < 2 ^ 110 * |d| := by linarith
    exact (pos_iff_pos_of_mul_pos this).1 (by positivity)
  obtain ⟨h1, h2, -⟩ := quotient_error (Q := A.val / D.val) (H := 0) hd h.a_le h.errA (by positivity) h.d_le h.errD h.cond
    (by simp)
  have D0 : 0 < |D.val| := by linarith
  refine ⟨hd, abs_pos.mp D0, ?_, ?_, ?_⟩
  · rw [abs_div, abs_one, div_le_div_iff₀ (by positivity) D0]
    have := h.D_le
    linarith
  · rw [abs_div, abs_one, div_le_iff₀ D0]
    have := h.d_ge
    have e : (2 : ℚ) ^ 111 = 2 * 2 ^ 110 := by norm_num
    rw [e]
    nlinarith
  · refine h2.trans ?_
    have : (t + B / 2 ^ 146) / |d| ≤ 7 * 2 ^ 110 := by
      rw [div_le_iff₀ hd]
      have := h.t_le
      have := h.d_ge
      have : B / 2 ^ 146 ≤ B := div_le_self (by linarith) (by norm_num)
      linarith
    calc 3 / 2 * ((t + B / 2 ^ 146) / |d|) ≤ 3 / 2 * (7 * 2 ^ 110) := by linarith
      _ ≤ _ := by norm_num

/-- multiplication by the computed reciprocal -/
theorem Ready.mul {B : ℚ} {A D : F32} {a d t M : ℚ} (hB : 1 ≤ B) (h : Ready B A D a d t M) :
    (A * (lit 1 / D)).IsFin = true ∧
    |(A * (lit 1 / D)).val - a / d| ≤ M / |d| * (t / |d|) / 2 ^ 19 + B / |d| / 2 ^ 145 + 1 / 2 ^ 150 := by
  obtain ⟨hd, Dne, b1, b2, b3⟩ := h.bounds hB
  have e := div_fin isFin_lit_one h.finD Dne
  rw [val_lit_one] at e
  have finR : (lit 1 / D : F32).IsFin = true := by
    rw [e]; exact isFin_round (b2.trans (by norm_num))
  have eR : |(lit 1 / D : F32).val - 1 / D.val| ≤ |1 / D.val| / 2 ^ 24 := by
    rw [e] at finR ⊢
    exact round_error_rel finR (le_trans (by norm_num) b1)
  set R := (lit 1 / D : F32) with hR
  have e1 : |A.val * R.val - A.val / D.val| ≤ |A.val / D.val| / 2 ^ 24 := by
    calc |A.val * R.val - A.val / D.val| = |A.val| * |R.val - 1 / D.val| := by rw [← abs_mul]; congr 1; ring
      _ ≤ |A.val| * (|1 / D.val| / 2 ^ 24) := by gcongr
      _ = _ := by rw [abs_div, abs_div, abs_one]; ring
  have e2 : |A.val * R.val| ≤ (1 + 1 / 2 ^ 24) * |A.val / D.val| := by
    calc |A.val * R.val| = |(A.val * R.val - A.val / D.val) + A.val / D.val| := by congr 1; ring
      _ ≤ _ := (abs_add_le _ _).trans (by linarith)
  have fin : (A * R).IsFin = true := by
    refine isFin_mul_of_le h.finA finR (e2.trans ?_)
    calc (1 + 1 / 2 ^ 24) * |A.val / D.val| ≤ (1 + 1 / 2 ^ 24) * 2 ^ 115 := by gcongr
      _ ≤ _ := by norm_num
  refine ⟨fin, ?_⟩
  have e3 := mul_error h.finA finR fin
  have e4 : |(A * R).val - A.val / D.val| ≤ 3 / 2 ^ 24 * |A.val / D.val| + 1 / 2 ^ 150 := by
    have : |(A * R).val - A.val / D.val| ≤ |(A * R).val - A.val * R.val| + |A.val * R.val - A.val / D.val| := by
      calc |(A * R).val - A.val / D.val| = |((A * R).val - A.val * R.val) + (A.val * R.val - A.val / D.val)| := by
            congr 1; ring
        _ ≤ _ := abs_add_le _ _
    have := abs_nonneg (A.val / D.val)
    linarith
  obtain ⟨-, -, q⟩ := quotient_error hd h.a_le h.errA (by positivity) h.d_le h.errD h.cond e4
  have : 2 * (B / 2 ^ 146 / |d|) = B / |d| / 2 ^ 145 := by field_simp
  linarith

/-- division by the computed determinant -/
theorem Ready.div {B : ℚ} {A D : F32} {a d t M : ℚ} (hB : 1 ≤ B) (h : Ready B A D a d t M) :
    (A / D).IsFin = true ∧
    |(A / D).val - a / d| ≤ M / |d| * (t / |d|) / 2 ^ 19 + B / |d| / 2 ^ 145 + 1 / 2 ^ 150 := by
  obtain ⟨hd, Dne, b1, b2, b3⟩ := h.bounds hB
  have e := div_fin h.finA h.finD Dne
  have fin : (A / D).IsFin = true := by
    rw [e]; exact isFin_round (b3.trans (by norm_num))
  refine ⟨fin, ?_⟩
  have e4 : |(A / D).val - A.val / D.val| ≤ 3 / 2 ^ 24 * |A.val / D.val| + 1 / 2 ^ 150 := by
    have : |(A / D).val - A.val / D.val| ≤ |A.val / D.val| / 2 ^ 24 + 1 / 2 ^ 150 := by
      rw [e] at fin ⊢; exact round_error fin
    have := abs_nonneg (A.val / D.val)
    linarith
  obtain ⟨-, -, q⟩ := quotient_error hd h.a_le h.errA (by positivity) h.d_le h.errD h.cond e4
  have : 2 * (B / 2 ^ 146 / |d|) = B / |d| / 2 ^ 145 := by field_simp
  linarith

/-- numerator and denominator from `Poly` -/
theorem ready_of_poly {B : ℚ} {A D : F32} {a d t M : ℚ} {k c N e k' c' N' e' : ℕ} (hB : 1 ≤ B) (hB' : B ≤ 2 ^ 30)
    (hA : Poly B A a t k c N e) (hD : Poly B D d M k' c' N' e') (sD : Small k' c' N' e')
    (hk : k ≤ 5) (hc : c ≤ 9) (hN : N ≤ 6) (he : e ≤ 1) (hk' : k' ≤ 9)
    (hbig : B ^ (e + 2) ≤ 2 ^ 110 * |d|) (hde : e' ≤ e + 1) (hcond : M ≤ 2 ^ 18 * |d|) : Ready B A D a d t M := by
  have t0 := hA.nonneg
  have M0 := hD.nonneg
  have p1 : (1 + 1 / 2 ^ 24 : ℚ) ^ k ≤ (1 + 1 / 2 ^ 24) ^ 5 := pow_le_pow_right₀ (by norm_num) hk
  have p2 : (1 + 1 / 2 ^ 24 : ℚ) ^ k' ≤ (1 + 1 / 2 ^ 24) ^ 9 := pow_le_pow_right₀ (by norm_num) hk'
  have n1 : (1 + 1 / 2 ^ 24 : ℚ) ^ 5 ≤ 1 + 6 / 2 ^ 24 := by norm_num
  have n2 : (1 + 1 / 2 ^ 24 : ℚ) ^ 9 ≤ 1 + 10 / 2 ^ 24 := by norm_num
  have hBe : B ^ e ≤ B := by
    calc B ^ e ≤ B ^ 1 := pow_le_pow_right₀ hB he
      _ = B := pow_one B
  have hBe' : B ^ e' ≤ B ^ (e + 2) := pow_le_pow_right₀ hB (by omega)
  have c1 : (c : ℚ) ≤ 9 := by exact_mod_cast hc
  have c2 : (c' : ℚ) ≤ 40 := by exact_mod_cast sD.c
  have N1 : (N : ℚ) ≤ 6 := by exact_mod_cast hN
  have b0 : (0 : ℚ) ≤ B ^ e := by positivity
  have b0' : (0 : ℚ) ≤ B ^ e' := by positivity
  refine ⟨hA.fin, hD.fin, hA.le, hD.le, hA.err.trans ?_, hD.err.trans ?_, hD.abs_lt hB hB' sD, ?_, ?_, hcond⟩
  · have : ((1 + 1 / 2 ^ 24 : ℚ) ^ k - 1) * t ≤ 6 / 2 ^ 24 * t := by gcongr; linarith
    have : (c : ℚ) * (1 / 2 ^ 150) * (1 + 1 / 2 ^ 24) ^ k * B ^ e ≤ 9 * (1 / 2 ^ 150) * (1 + 6 / 2 ^ 24) * B := by
      gcongr; linarith
    have : (9 : ℚ) * (1 / 2 ^ 150) * (1 + 6 / 2 ^ 24) * B ≤ 1 / 2 ^ 146 * B := by
      gcongr; norm_num
    have : 1 / 2 ^ 146 * B = B / 2 ^ 146 := by ring
    linarith
  · have : ((1 + 1 / 2 ^ 24 : ℚ) ^ k' - 1) * M ≤ 10 / 2 ^ 24 * M := by gcongr; linarith
    have : (c' : ℚ) * (1 / 2 ^ 150) * (1 + 1 / 2 ^ 24) ^ k' * B ^ e' ≤ 40 * (1 / 2 ^ 150) * (1 + 10 / 2 ^ 24) * (2 ^ 110 * |d|) := by
      gcongr
      · linarith
      · exact hBe'.trans hbig
    have : (40 : ℚ) * (1 / 2 ^ 150) * (1 + 10 / 2 ^ 24) * (2 ^ 110 * |d|) = (40 * (1 / 2 ^ 150) * (1 + 10 / 2 ^ 24) * 2 ^ 110) * |d| := by
      ring
    have : (40 * (1 / 2 ^ 150) * (1 + 10 / 2 ^ 24) * 2 ^ 110 : ℚ) * |d| ≤ 1 / 2 ^ 30 * |d| := by
      gcongr; norm_num
    linarith
  · refine le_trans ?_ hbig
    calc B = B ^ 1 := (pow_one B).symm
      _ ≤ _ := pow_le_pow_right₀ hB (by omega)
  · calc t ≤ N * B ^ (e + 2) := hA.size
      _ ≤ 6 * (2 ^ 110 * |d|) := by gcongr
      _ = _ := by ring

theorem ready2 {B : ℚ} (hB : 1 ≤ B) (hB' : B ≤ 2 ^ 30) {m : M2 F32} (h : BoundedBy m B) (r c : Fin 2)
    (hbig : B ≤ 2 ^ 110 * |(exactMat m).det|) (hcond : termSize (exactMat m) ≤ 2 ^ 18 * |(exactMat m).det|) :
    Ready B (entry (M2.adjugate m) c r) (M2.determinant m) ((exactMat m).adjugate r c) (exactMat m).det
      (minorSize (exactMat m) r c) (termSize (exactMat m)) := by
  obtain ⟨a1, a2, a3⟩ := adj2 h r c
  have hD := det2 hB hB' h
  have M0 := hD.nonneg
  have d0 := abs_nonneg (exactMat m).det
  refine ⟨a1.1, hD.fin, a3.le, hD.le, ?_, hD.err.trans ?_,
    hD.abs_lt hB hB' ⟨by norm_num, by norm_num, by norm_num, by norm_num⟩, hbig, ?_, hcond⟩
  · rw [a2, sub_self, abs_zero, ← a3]; positivity
  · have n2 : (1 + 1 / 2 ^ 24 : ℚ) ^ 2 ≤ 1 + 10 / 2 ^ 24 := by norm_num
    have : ((1 + 1 / 2 ^ 24 : ℚ) ^ 2 - 1) * termSize (exactMat m) ≤ 10 / 2 ^ 24 * termSize (exactMat m) := by
      gcongr; linarith
    have : ((2 : ℕ) : ℚ) * (1 / 2 ^ 150) * (1 + 1 / 2 ^ 24) ^ 2 * B ^ 0 ≤ 1 / 2 ^ 148 * B := by
      have : ((2 : ℕ) : ℚ) * (1 / 2 ^ 150) * (1 + 1 / 2 ^ 24) ^ 2 * B ^ 0 ≤ 1 / 2 ^ 148 := by norm_num
      refine this.trans ?_
      calc (1 / 2 ^ 148 : ℚ) = 1 / 2 ^ 148 * 1 := by ring
        _ ≤ _ := by gcongr
    have : (1 / 2 ^ 148 : ℚ) * B ≤ 1 / 2 ^ 148 * (2 ^ 110 * |(exactMat m).det|) := by gcongr
    have : (1 / 2 ^ 148 : ℚ) * (2 ^ 110 * |(exactMat m).det|) = |(exactMat m).det| / 2 ^ 38 := by ring
    have : |(exactMat m).det| / 2 ^ 38 ≤ |(exactMat m).det| / 2 ^ 30 := by gcongr <;> norm_num
    linarith
  · rw [← a3, ← a2]
    have := a1.2
    linarith

theorem ready3 {B : ℚ} (hB : 1 ≤ B) (hB' : B ≤ 2 ^ 30) {m : M3 F32} {D : F32}
    (hD : Poly B D (exactMat m).det (termSize (exactMat m)) 5 9 6 1) (h : BoundedBy m B) (r c : Fin 3)
    (hbig : B ^ 2 ≤ 2 ^ 110 * |(exactMat m).det|) (hcond : termSize (exactMat m) ≤ 2 ^ 18 * |(exactMat m).det|) :
    Ready B (entry (M3.adjugate m) c r) D ((exactMat m).adjugate r c) (exactMat m).det
      (minorSize (exactMat m) r c) (termSize (exactMat m)) :=
  ready_of_poly hB hB' (adj3 hB hB' h r c) hD ⟨by norm_num, by norm_num, by norm_num, by norm_num⟩
    (by norm_num) (by norm_num) (by norm_num) (by norm_num) (by norm_num) hbig (by norm_num) hcond

theorem ready4 {B : ℚ} (hB : 1 ≤ B) (hB' : B ≤ 2 ^ 30) {m : M4 F32} {D : F32}
    (hD : Poly B D (exactMat m).det (termSize (exactMat m)) 9 40 24 2) (h : BoundedBy m B) (r c : Fin 4)
    (hbig : B ^ 3 ≤ 2 ^ 110 * |(exactMat m).det|) (hcond : termSize (exactMat m) ≤ 2 ^ 18 * |(exactMat m).det|) :
    Ready B (entry (M4.adjugate m) c r) D ((exactMat m).adjugate r c) (exactMat m).det
      (minorSize (exactMat m) r c) (termSize (exactMat m)) :=
  ready_of_poly hB hB' (adj4 hB hB' h r c) hD ⟨by norm_num, by norm_num, by norm_num, by norm_num⟩
    (by norm_num) (by norm_num) (by norm_num) (by norm_num) (by norm_num) hbig (by norm_num) hcond

/-- the determinant as `inverse(mat4)` computes it, from the first row of its adjugate -/
theorem det4' {B : ℚ} (hB : 1 ≤ B) (hB' : B ≤ 2 ^ 30) {m : M4 F32} (h : BoundedBy m B) :
    Poly B ((m.c0.x * entry (M4.adjugate m) 0 0 + m.c0.y * entry (M4.adjugate m) 1 0) +
      (m.c0.z * entry (M4.adjugate m) 2 0 + m.c0.w * entry (M4.adjugate m) 3 0))
      (exactMat m).det (termSize (exactMat m)) 9 40 24 2 := by
  have a := fun c => adj4 hB hB' h 0 c
  refine ((poly_cof4' hB hB' (h 0 0) (h 0 1) (h 0 2) (h 0 3) (a 0) (a 1) (a 2) (a 3)).mono hB (by norm_num)).congr ?_ ?_
  · have e := congrFun (congrFun (Matrix.adjugate_mul (exactMat m)) 0) 0
    rw [Matrix.mul_apply, Fin.sum_univ_four] at e
    simp only [Matrix.smul_apply, Matrix.one_apply_eq, smul_eq_mul, mul_one] at e
    rw [← e]
    simp only [exactMat, Matrix.of_apply]
    ring
  · rw [termSize_four]
    simp only [minorSize, Fin.succAbove_zero]
    simp only [exactMat, Matrix.of_apply]
    ring

theorem inv_apply {n : ℕ} (A : Matrix (Fin n) (Fin n) ℚ) (r c : Fin n) : A⁻¹ r c = A.adjugate r c / A.det := by
  rw [Matrix.inv_def, Ring.inverse_eq_inv', Matrix.smul_apply, smul_eq_mul]
  ring

/-- an approximation with an error smaller than the number has its sign -/
theorem sign_of_error {x r e : ℚ} (h : |x - r| ≤ e) (he : e < |r|) : (0 < x ↔ 0 < r) ∧ (x < 0 ↔ r < 0) := by
  obtain ⟨h1, h2⟩ := abs_le.mp h
  rcases lt_abs.mp he with h3 | h3
  · exact ⟨⟨fun _ => by linarith [abs_nonneg (x - r)], fun _ => by linarith⟩, ⟨fun _ => by linarith, fun _ => by linarith [abs_nonneg (x - r)]⟩⟩
  · exact ⟨⟨fun _ => by linarith, fun _ => by linarith [abs_nonneg (x - r)]⟩, ⟨fun _ => by linarith [abs_nonneg (x - r)], fun _ => by linarith⟩⟩

end F32

/-- `inverseTranspose(mat4)` repeats `adjugateTranspose(mat4)` and `determinant(mat4)` -/
theorem inverseTranspose_entry4 {α : Type} [Add α] [Sub α] [Mul α] [Div α] [Neg α] [FloatOps α] (m : M4 α)
    (r c : Fin 4) : entry (M4.inverseTranspose m) r c = entry (M4.adjugateTranspose m) r c / M4.determinant m := by
  fin_cases r <;> fin_cases c <;> rfl

theorem transpose_entry4 {α : Type} (m : M4 α) (r c : Fin 4) : entry (M4.transpose m) r c = entry m c r := by
  fin_cases r <;> fin_cases c <;> simp [entry, coord, M4.transpose]

end Zcm
