import Verif.Lemmas.F32Approx
import Verif.Spec.Clip
import Verif.Spec.Motion
import Mathlib.Tactic.Positivity

/-!
# Motion computed step by step in float arithmetic
-/

set_option exponentiation.threshold 300

namespace Zcm

open F32

/-- one update `x += v * w` of a computed number by a computed rate -/
theorem near_update {x v w : F32} {X U e f D R : ℝ} (hx : Near x X e) (hv : Near v U f) (fw : w.IsFin = true) (hw : |(w.val : ℝ)| ≤ D)
    (h1 : |X| ≤ R) (h2 : |X + U * w.val| ≤ R) (hR : R ≤ 2 ^ 100) (he : e ≤ 2 ^ 100) (hf : f * D ≤ 2 ^ 100) :
    Near (x + v * w) (X + U * w.val) (e + 1 / 2 ^ 24 * e + 3.001 / 2 ^ 24 * R + 1.001 * (f * D) + 1 / 2 ^ 149) := by
  obtain ⟨fx, ex⟩ := hx
  obtain ⟨fv, ev⟩ := hv
  have f0 : 0 ≤ f := (abs_nonneg _).trans ev
  have D0 : 0 ≤ D := (abs_nonneg _).trans hw
  have m1 : |(v.val : ℝ) * w.val - U * w.val| ≤ f * D := by
    rw [← sub_mul, abs_mul]
    exact mul_le_mul ev hw (abs_nonneg _) f0
  have m2 : |U * w.val| ≤ 2 * R := by
    have := abs_sub (X + U * w.val) X
    rw [add_sub_cancel_left] at this
    linarith
  have m3 : |(v.val : ℝ) * w.val| ≤ 2 * R + f * D := by
    have := abs_add_le ((v.val : ℝ) * w.val - U * w.val) (U * w.val)
    rw [sub_add_cancel] at this
    linarith
  have fp : (v * w).IsFin = true := by
    refine isFin_mul_of_le fv fw ((Rat.cast_le (K := ℝ)).1 ?_)
    push_cast
    refine m3.trans ?_
    norm_num at hR hf ⊢
    linarith
  have e1 := (Rat.cast_le (K := ℝ)).2 (mul_error fv fw fp)
  push_cast at e1
  generalize (U * w.val : ℝ) = M at *
  generalize (v.val : ℝ) * w.val = m at *
  have R0 : 0 ≤ R := (abs_nonneg X).trans h1
  have fD0 : 0 ≤ f * D := by positivity
  have e0 : 0 ≤ e := (abs_nonneg _).trans ex
  have s1 : |(x.val : ℝ) + (v * w).val - (X + M)| ≤ e + (|((v * w).val : ℝ) - m| + f * D) := by
    have : (x.val : ℝ) + (v * w).val - (X + M) = (x.val - X) + (((v * w).val - m) + (m - M)) := by ring
    rw [this]
    exact (abs_add_le _ _).trans (add_le_add ex ((abs_add_le _ _).trans (add_le_add le_rfl m1)))
  have s2 : |(x.val : ℝ) + (v * w).val| ≤ |(x.val : ℝ) + (v * w).val - (X + M)| + |X + M| := by
    have := abs_add_le ((x.val : ℝ) + (v * w).val - (X + M)) (X + M)
    rwa [sub_add_cancel] at this
  have fs : (x + v * w).IsFin = true := by
    rw [add_fin fx fp]
    refine isFin_round ((Rat.cast_le (K := ℝ)).1 ?_)
    push_cast
    norm_num at *
    linarith
  have e2 := (Rat.cast_le (K := ℝ)).2 (add_error_rel fs)
  push_cast at e2
  refine ⟨fs, ?_⟩
  have t := abs_add_le (((x + v * w).val : ℝ) - (x.val + (v * w).val)) ((x.val : ℝ) + (v * w).val - (X + M))
  rw [sub_add_sub_cancel] at t
  generalize f * D = g at *
  norm_num at *
  linarith

theorem motion_snoc {V S : Type} [HMul V S V] (ad : V → V → V) (p v : V) (l : List (V × S)) (f : V × S) :
    motion ad p v (l ++ [f]) = (ad (motion ad p v l).1 (ad (motion ad p v l).2 (f.1 * f.2) * f.2), ad (motion ad p v l).2 (f.1 * f.2)) := by
  unfold motion
  rw [List.foldl_append, List.foldl_cons, List.foldl_nil]

theorem exactMotion_snoc (p v : F32) (l : List (F32 × F32)) (f : F32 × F32) :
    exactMotion p v (l ++ [f]) = ((exactMotion p v l).1 + ((exactMotion p v l).2 + f.1.val * f.2.val) * f.2.val,
      (exactMotion p v l).2 + f.1.val * f.2.val) := by
  unfold exactMotion
  rw [List.map_append, List.map_singleton, motion_snoc]

/-- the growth of the error of the velocity -/
theorem velocity_growth {k : ℕ} {V : ℝ} (hk : k ≤ 2 ^ 15) (V0 : 0 ≤ V) :
    k * (3.1 / 2 ^ 24 * V + 1 / 2 ^ 148) + 1 / 2 ^ 24 * (k * (3.1 / 2 ^ 24 * V + 1 / 2 ^ 148)) + 3.001 / 2 ^ 24 * V + 1 / 2 ^ 149 ≤
      (k + 1) * (3.1 / 2 ^ 24 * V + 1 / 2 ^ 148) := by
  have k1 : (k : ℝ) ≤ 2 ^ 15 := by exact_mod_cast hk
  have h : (k : ℝ) * (3.1 / 2 ^ 24 * V + 1 / 2 ^ 148) ≤ 2 ^ 15 * (3.1 / 2 ^ 24 * V + 1 / 2 ^ 148) := by gcongr
  rw [add_mul, one_mul]
  generalize (k : ℝ) * (3.1 / 2 ^ 24 * V + 1 / 2 ^ 148) = Q at *
  norm_num at *
  linarith

/-- the growth of the error of the position -/
theorem position_growth {k : ℕ} {P W : ℝ} (hk : k ≤ 2 ^ 15) (P0 : 0 ≤ P) (W0 : 0 ≤ W) :
    (k * (3.1 / 2 ^ 24 * P + 1 / 2 ^ 148) + 1.01 * k ^ 2 * W) +
      1 / 2 ^ 24 * (k * (3.1 / 2 ^ 24 * P + 1 / 2 ^ 148) + 1.01 * k ^ 2 * W) + 3.001 / 2 ^ 24 * P + 1.001 * ((k + 1) * W) + 1 / 2 ^ 149 ≤
      (k + 1) * (3.1 / 2 ^ 24 * P + 1 / 2 ^ 148) + 1.01 * (k + 1) ^ 2 * W := by
  have h := velocity_growth hk P0
  have k0 : (0 : ℝ) ≤ k := k.cast_nonneg
  have k1 : (k : ℝ) ≤ 2 ^ 15 := by exact_mod_cast hk
  have g : 1.01 * (k : ℝ) ^ 2 * W ≤ 1.01 * 2 ^ 15 * (k * W) := by
    have : 1.01 * (k : ℝ) ^ 2 * W = 1.01 * k * (k * W) := by ring
    rw [this]
    gcongr
  have e : 1.01 * ((k : ℝ) + 1) ^ 2 * W = 1.01 * k ^ 2 * W + 2.02 * (k * W) + 1.01 * W := by ring
  have kW : 0 ≤ (k : ℝ) * W := by positivity
  rw [e, add_mul (k : ℝ) 1 W, one_mul]
  generalize (k : ℝ) * W = q at *
  generalize 1.01 * (k : ℝ) ^ 2 * W = r at *
  generalize (k : ℝ) * (3.1 / 2 ^ 24 * P + 1 / 2 ^ 148) = s at *
  generalize ((k : ℝ) + 1) * (3.1 / 2 ^ 24 * P + 1 / 2 ^ 148) = t at *
  norm_num at *
  linarith

theorem near_motion {p v : F32} {P V D : ℝ} {steps : List (F32 × F32)} (h : GoodMotion p v steps P V D) :
    Near (motion (· + ·) p v steps).2 (exactMotion p v steps).2 (steps.length * (3.1 / 2 ^ 24 * V + 1 / 2 ^ 148)) ∧
    Near (motion (· + ·) p v steps).1 (exactMotion p v steps).1
      (steps.length * (3.1 / 2 ^ 24 * P + 1 / 2 ^ 148) + 1.01 * steps.length ^ 2 * ((3.1 / 2 ^ 24 * V + 1 / 2 ^ 148) * D)) := by
  induction steps using List.reverseRecOn with
  | nil =>
    simp only [motion, exactMotion, List.foldl_nil, List.map_nil, List.length_nil, Nat.cast_zero]
    exact ⟨⟨h.fin.2.1, by simp⟩, ⟨h.fin.1, by simp⟩⟩
  | append_singleton l f ih =>
    have hl := h.len
    rw [List.length_append, List.length_singleton] at hl
    have g : GoodMotion p v l P V D :=
      ⟨⟨h.fin.1, h.fin.2.1, fun s hs => h.fin.2.2 s (List.mem_append_left _ hs)⟩, by omega,
        fun s hs => h.dt_le s (List.mem_append_left _ hs), fun s hs => h.within s (hs.trans (List.prefix_append _ _)),
        h.P_le, h.V_le, h.D_le⟩
    obtain ⟨nv, np⟩ := ih g
    have mem : f ∈ l ++ [f] := List.mem_append_right _ (List.mem_singleton.2 rfl)
    obtain ⟨fa, fd⟩ := h.fin.2.2 f mem
    have dD := h.dt_le f mem
    obtain ⟨b1, b2⟩ := g.within l (List.prefix_refl _)
    obtain ⟨c1, c2⟩ := h.within _ (List.prefix_refl _)
    rw [motion_snoc, exactMotion_snoc] at *
    have P0 : 0 ≤ P := (abs_nonneg _).trans b1
    have V0 : 0 ≤ V := (abs_nonneg _).trans b2
    have D0 : 0 ≤ D := (abs_nonneg _).trans dD
    have P2 := h.P_le
    have V2 := h.V_le
    have D2 := h.D_le
    have n1 : ((l.length : ℝ) + 1) ≤ 2 ^ 15 := by exact_mod_cast hl
    have n0 : (l.length : ℝ) ≤ 2 ^ 15 := by linarith
    have cV : 3.1 / 2 ^ 24 * V + 1 / 2 ^ 148 ≤ 2 ^ 60 := by norm_num at V2 ⊢; linarith
    have cP : 3.1 / 2 ^ 24 * P + 1 / 2 ^ 148 ≤ 2 ^ 80 := by norm_num at P2 ⊢; linarith
    have sv := near_update nv (v := f.1) (U := f.1.val) (f := 0) ⟨fa, by simp⟩ fd dD b2 c2 (V2.trans (by norm_num)) (by
      calc (l.length : ℝ) * (3.1 / 2 ^ 24 * V + 1 / 2 ^ 148) ≤ 2 ^ 15 * 2 ^ 60 := by gcongr
        _ ≤ _ := by norm_num) (by norm_num)
    have nv' : Near ((motion (· + ·) p v l).2 + f.1 * f.2) ((exactMotion p v l).2 + f.1.val * f.2.val)
        ((l.length + 1) * (3.1 / 2 ^ 24 * V + 1 / 2 ^ 148)) := by
      refine ⟨sv.1, sv.2.trans ?_⟩
      have := velocity_growth (show l.length ≤ 2 ^ 15 by omega) V0
      rw [zero_mul, mul_zero, add_zero]
      exact this
    refine ⟨?_, ?_⟩
    · rw [List.length_append, List.length_singleton]
      push_cast
      exact nv'
    · have sp := near_update np nv' fd dD b1 c1 P2 (by
        calc (l.length : ℝ) * (3.1 / 2 ^ 24 * P + 1 / 2 ^ 148) + 1.01 * l.length ^ 2 * ((3.1 / 2 ^ 24 * V + 1 / 2 ^ 148) * D)
            ≤ 2 ^ 15 * 2 ^ 80 + 1.01 * (2 ^ 15) ^ 2 * (2 ^ 40 * 2 ^ 20) := by
              have : 3.1 / 2 ^ 24 * V + 1 / 2 ^ 148 ≤ 2 ^ 40 := by norm_num at V2 ⊢; linarith
              gcongr
          _ ≤ _ := by norm_num) (by
        calc ((l.length : ℝ) + 1) * (3.1 / 2 ^ 24 * V + 1 / 2 ^ 148) * D ≤ 2 ^ 15 * 2 ^ 60 * 2 ^ 20 := by gcongr
          _ ≤ _ := by norm_num)
      refine ⟨sp.1, sp.2.trans ?_⟩
      have := position_growth (W := (3.1 / 2 ^ 24 * V + 1 / 2 ^ 148) * D) (show l.length ≤ 2 ^ 15 by omega) P0 (by positivity)
      rw [List.length_append, List.length_singleton]
      push_cast
      rw [mul_assoc ((l.length : ℝ) + 1) _ D]
      exact this

end Zcm
