import Verif.Lemmas.F32Approx
import Verif.Spec.Polynomial
import Mathlib.Analysis.Complex.ExponentialBounds

/-!
# Horner's rule in float arithmetic
-/

set_option exponentiation.threshold 300

namespace Zcm

open F32

theorem powerSum_append (t : ℝ) (cs : List ℝ) (c : ℝ) : powerSum t (cs ++ [c]) = powerSum t cs * t + c := by
  induction cs with
  | nil => simp [powerSum]
  | cons a cs ih =>
    rw [List.cons_append, powerSum, powerSum, ih, List.length_append, List.length_singleton, pow_succ]
    ring

theorem polyScale_append (t : ℝ) (cs : List ℝ) (c : ℝ) :
    polyScale t (cs ++ [c]) = polyScale t cs * |t| + (|c| + 1 / 2 ^ 125) := by
  unfold polyScale
  rw [List.map_append, List.map_singleton, powerSum_append]

theorem polyScale_nonneg (t : ℝ) (cs : List ℝ) : 0 ≤ polyScale t cs := by
  induction cs using List.reverseRecOn with
  | nil => exact le_rfl
  | append_singleton cs c ih =>
    rw [polyScale_append]
    positivity

theorem abs_powerSum_le (t : ℝ) (cs : List ℝ) : |powerSum t cs| ≤ polyScale t cs := by
  induction cs using List.reverseRecOn with
  | nil => simp [powerSum, polyScale]
  | append_singleton cs c ih =>
    rw [polyScale_append, powerSum_append]
    refine (abs_add_le _ _).trans ?_
    rw [abs_mul]
    have : |powerSum t cs| * |t| ≤ polyScale t cs * |t| := by gcongr
    have : (0 : ℝ) ≤ 1 / 2 ^ 125 := by positivity
    linarith

/-- one step of Horner's rule -/
theorem horner_step {a t c : F32} {A H g : ℝ} (hg : 1 ≤ g) (hA : |A| ≤ H) (he : |(a.val : ℝ) - A| ≤ (g - 1) * H)
    (hf : (a * t + c).IsFin = true) (ha : a.IsFin = true) (ht : t.IsFin = true) :
    |((a * t + c).val : ℝ) - (A * t.val + c.val)| ≤
      (g * (1 + 1 / 2 ^ 24) ^ 2 - 1) * (H * |(t.val : ℝ)| + (|(c.val : ℝ)| + 1 / 2 ^ 125)) := by
  obtain ⟨fp, fc⟩ := isFin_of_add hf
  have e1 := (Rat.cast_le (K := ℝ)).2 (mul_error ha ht fp)
  have e2 := (Rat.cast_le (K := ℝ)).2 (add_error_rel hf)
  push_cast at e1 e2
  generalize ((a * t + c).val : ℝ) = r at *
  generalize ((a * t).val : ℝ) = p at *
  generalize (a.val : ℝ) = x at *
  generalize (t.val : ℝ) = s at *
  generalize (c.val : ℝ) = d at *
  have H0 : 0 ≤ H := (abs_nonneg A).trans hA
  have hx : |x| ≤ g * H := by
    have := abs_add_le (x - A) A
    rw [sub_add_cancel] at this
    linarith
  rw [abs_mul] at e1
  have xs : |x| * |s| ≤ g * (H * |s|) := by
    rw [← mul_assoc]; gcongr
  have k1 : |x * s - A * s| ≤ (g - 1) * (H * |s|) := by
    rw [← sub_mul, abs_mul, ← mul_assoc]
    gcongr
  have hp : |p| ≤ (1 + 1 / 2 ^ 24) * (g * (H * |s|)) + 1 / 2 ^ 150 := by
    have := abs_add_le (p - x * s) (x * s)
    rw [sub_add_cancel, abs_mul x s] at this
    linarith
  have k2 : |p + d| ≤ |p| + |d| := abs_add_le _ _
  have tri : |r - (A * s + d)| ≤ |r - (p + d)| + (|p - x * s| + |x * s - A * s|) := by
    have : r - (A * s + d) = (r - (p + d)) + ((p - x * s) + (x * s - A * s)) := by ring
    rw [this]
    exact (abs_add_le _ _).trans (add_le_add le_rfl (abs_add_le _ _))
  have Hs : 0 ≤ H * |s| := by positivity
  have gHs : H * |s| ≤ g * (H * |s|) := le_mul_of_one_le_left Hs hg
  have w : 2 / 2 ^ 24 * (|d| + 1 / 2 ^ 125) ≤ (g * (1 + 1 / 2 ^ 24) ^ 2 - 1) * (|d| + 1 / 2 ^ 125) := by
    gcongr
    nlinarith
  have d0 := abs_nonneg d
  rw [mul_add]
  have ex : (g * (1 + 1 / 2 ^ 24) ^ 2 - 1) * (H * |s|) =
      g * (H * |s|) * (1 + 1 / 2 ^ 24) ^ 2 - H * |s| := by ring
  have ex2 : (g - 1) * (H * |s|) = g * (H * |s|) - H * |s| := by ring
  rw [ex]
  rw [ex2] at k1
  generalize g * (H * |s|) = Q at *
  generalize H * |s| = W at *
  generalize (g * (1 + 1 / 2 ^ 24) ^ 2 - 1) * (|d| + 1 / 2 ^ 125) = Z at *
  generalize |d| = D at *
  norm_num at *
  linarith

theorem isFin_of_horner {t : F32} {cs : List F32} {a : F32} (h : (horner t a cs).IsFin = true) : a.IsFin = true := by
  unfold horner at h
  induction cs generalizing a with
  | nil => exact h
  | cons c cs ih =>
    rw [List.foldl_cons] at h
    have := (isFin_of_add (ih h)).1
    exact (isFin_of_mul this).1

/-- Horner's rule, any number of coefficients -/
theorem horner_error {t a : F32} {cs : List F32} (ht : t.IsFin = true) (h : (horner t a cs).IsFin = true) :
    |((horner t a cs).val : ℝ) - powerSum t.val ((a :: cs).map fun c => (c.val : ℝ))| ≤
      ((1 + 1 / 2 ^ 24) ^ (2 * cs.length) - 1) * polyScale t.val ((a :: cs).map fun c => (c.val : ℝ)) := by
  induction cs using List.reverseRecOn with
  | nil => simp [horner, powerSum]
  | append_singleton cs c ih =>
    have e : horner t a (cs ++ [c]) = horner t a cs * t + c := by
      unfold horner; rw [List.foldl_append, List.foldl_cons, List.foldl_nil]
    rw [e] at h ⊢
    have f := (isFin_of_mul (isFin_of_add h).1).1
    rw [← List.cons_append, List.map_append, List.map_singleton, powerSum_append, polyScale_append, List.length_append,
      List.length_singleton, show 2 * (cs.length + 1) = 2 * cs.length + 2 by ring, pow_add]
    exact horner_step (one_le_pow₀ (by norm_num)) (abs_powerSum_le _ _) (ih f) h f ht

theorem horner_growth {n : ℕ} (hn : n ≤ 2 ^ 15) :
    (1 + 1 / 2 ^ 24 : ℝ) ^ (2 * n) ≤ 1.01 ∧ (1 + 1 / 2 ^ 24 : ℝ) ^ (2 * n) - 1 ≤ n / 2 ^ 22 := by
  have n0 : (n : ℝ) ≤ 2 ^ 15 := by exact_mod_cast hn
  have nn : (0 : ℝ) ≤ n := n.cast_nonneg
  have key : (1 + 1 / 2 ^ 24 : ℝ) ^ (2 * n) ≤ 1 + n / 2 ^ 22 := by
    have e : (1 + 1 / 2 ^ 24 : ℝ) ^ (2 * n) ≤ Real.exp (n / 2 ^ 23) := by
      have := Real.add_one_le_exp (1 / 2 ^ 24 : ℝ)
      calc (1 + 1 / 2 ^ 24 : ℝ) ^ (2 * n) ≤ Real.exp (1 / 2 ^ 24) ^ (2 * n) := by
            apply pow_le_pow_left₀ (by positivity)
            linarith
        _ = _ := by rw [← Real.exp_nat_mul]; congr 1; push_cast; ring
    have h : |(n / 2 ^ 23 : ℝ)| ≤ 1 := by
      rw [abs_of_nonneg (by positivity)]
      linarith
    have b := (abs_le.1 (Real.abs_exp_sub_one_le h)).2
    rw [abs_of_nonneg (by positivity)] at b
    have : (n / 2 ^ 22 : ℝ) = 2 * (n / 2 ^ 23) := by ring
    rw [this]
    linarith
  refine ⟨key.trans ?_, by linarith⟩
  linarith

/-- no overflow in Horner's rule -/
theorem horner_isFin {t a : F32} {cs : List F32} (ht : t.IsFin = true) (fl : ∀ c ∈ a :: cs, c.IsFin = true)
    (hn : cs.length ≤ 2 ^ 15)
    (hb : ∀ j ≤ cs.length, polyScale t.val ((a :: cs.take j).map fun c => (c.val : ℝ)) ≤ 2 ^ 125) :
    (horner t a cs).IsFin = true := by
  induction cs using List.reverseRecOn with
  | nil => exact fl a (List.mem_cons_self ..)
  | append_singleton cs c ih =>
    have e : horner t a (cs ++ [c]) = horner t a cs * t + c := by
      unfold horner; rw [List.foldl_append, List.foldl_cons, List.foldl_nil]
    rw [List.length_append, List.length_singleton] at hn hb
    have f := ih (fun x hx => fl x (by
        rcases List.mem_cons.1 hx with h | h
        · exact h ▸ List.mem_cons_self ..
        · exact List.mem_cons_of_mem _ (List.mem_append_left _ h))) (by omega) fun j hj => by
      have := hb j (by omega)
      rwa [List.take_append_of_le_length hj] at this
    have fc : c.IsFin = true := fl c (List.mem_cons_of_mem _ (List.mem_append_right _ (List.mem_singleton.2 rfl)))
    have err := horner_error ht f
    have g := horner_growth (n := cs.length) (by omega)
    have A := abs_powerSum_le t.val ((a :: cs).map fun c => (c.val : ℝ))
    have H0 := polyScale_nonneg t.val ((a :: cs).map fun c => (c.val : ℝ))
    have T := hb (cs.length + 1) le_rfl
    rw [show (cs ++ [c]).take (cs.length + 1) = cs ++ [c] by
        rw [List.take_of_length_le]; simp, ← List.cons_append, List.map_append, List.map_singleton, polyScale_append] at T
    rw [e]
    generalize horner t a cs = x at *
    generalize powerSum t.val ((a :: cs).map fun c => (c.val : ℝ)) = P at *
    generalize polyScale t.val ((a :: cs).map fun c => (c.val : ℝ)) = H at *
    have hx : |(x.val : ℝ)| ≤ 1.01 * H := by
      have t1 := abs_add_le ((x.val : ℝ) - P) P
      rw [sub_add_cancel] at t1
      have : ((1 + 1 / 2 ^ 24 : ℝ) ^ (2 * cs.length) - 1) * H ≤ (1.01 - 1) * H := by gcongr; exact g.1
      linarith
    have hxt : |(x.val : ℝ) * t.val| ≤ 1.01 * (H * |(t.val : ℝ)|) := by
      rw [abs_mul, ← mul_assoc]
      gcongr
    have c0 := abs_nonneg (c.val : ℝ)
    have Ht : 0 ≤ H * |(t.val : ℝ)| := by positivity
    have s0 : |(x.val : ℝ) * t.val| ≤ 1.01 * 2 ^ 125 := by
      refine hxt.trans ?_
      have : (0 : ℝ) ≤ 1 / 2 ^ 125 := by positivity
      linarith
    have fp : (x * t).IsFin = true := by
      refine isFin_mul_of_le f ht ((Rat.cast_le (K := ℝ)).1 ?_)
      push_cast
      exact s0.trans (by norm_num)
    have e1 := (Rat.cast_le (K := ℝ)).2 (mul_error f ht fp)
    push_cast at e1
    rw [add_fin fp fc]
    refine isFin_round ((Rat.cast_le (K := ℝ)).1 ?_)
    push_cast
    have t2 := abs_add_le ((x * t).val : ℝ) c.val
    have t3 := abs_add_le (((x * t).val : ℝ) - x.val * t.val) (x.val * t.val)
    rw [sub_add_cancel] at t3
    generalize |(x.val : ℝ) * t.val| = Q at *
    generalize |(c.val : ℝ)| = D at *
    generalize H * |(t.val : ℝ)| = W at *
    generalize |((x * t).val : ℝ) + c.val| = R at *
    generalize |((x * t).val : ℝ) - x.val * t.val| = E at *
    generalize |((x * t).val : ℝ)| = F at *
    norm_num at *
    linarith

/-- a number within `n * 2^-22` of the exact polynomial -/
theorem horner_near {t a : F32} {cs : List F32} (ht : t.IsFin = true) (fl : ∀ c ∈ a :: cs, c.IsFin = true)
    (hn : cs.length ≤ 2 ^ 15)
    (hb : ∀ j ≤ cs.length, polyScale t.val ((a :: cs.take j).map fun c => (c.val : ℝ)) ≤ 2 ^ 125) :
    (horner t a cs).IsFin = true ∧
      |((horner t a cs).val : ℝ) - powerSum t.val ((a :: cs).map fun c => (c.val : ℝ))| ≤
        cs.length / 2 ^ 22 * polyScale t.val ((a :: cs).map fun c => (c.val : ℝ)) := by
  have f := horner_isFin ht fl hn hb
  refine ⟨f, (horner_error ht f).trans ?_⟩
  have := polyScale_nonneg t.val ((a :: cs).map fun c => (c.val : ℝ))
  gcongr
  exact (horner_growth hn).2

end Zcm
