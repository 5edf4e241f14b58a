import Verif.Lemmas.F32Mix
import Verif.Spec.Curve
import Mathlib.Data.Nat.Choose.Sum

/-!
# Repeated interpolation of floats
-/

set_option exponentiation.threshold 300

namespace Zcm

open F32

/-- the next degree is an interpolation of two curves of the degree before -/
theorem bezier_succ (p : ℕ → ℝ) (n : ℕ) (t : ℝ) :
    bezier p (n + 1) t = wayFrom (bezier p n t) (bezier (fun k => p (k + 1)) n t) t := by
  have h := Finset.sum_choose_succ_mul (fun i j => t ^ i * (1 - t) ^ j * p i) n
  have e1 : bezier p (n + 1) t = ∑ i ∈ Finset.range (n + 2), ((n + 1).choose i : ℝ) * (t ^ i * (1 - t) ^ (n + 1 - i) * p i) := by
    unfold bezier
    exact Finset.sum_congr rfl fun i _ => by ring
  have e2 : (1 - t) * bezier p n t = ∑ i ∈ Finset.range (n + 1), (n.choose i : ℝ) * (t ^ i * (1 - t) ^ (n + 1 - i) * p i) := by
    unfold bezier
    rw [Finset.mul_sum]
    refine Finset.sum_congr rfl fun i hi => ?_
    rw [Finset.mem_range] at hi
    rw [show n + 1 - i = (n - i) + 1 by omega, pow_succ]
    ring
  have e3 : t * bezier (fun k => p (k + 1)) n t =
      ∑ i ∈ Finset.range (n + 1), (n.choose i : ℝ) * (t ^ (i + 1) * (1 - t) ^ (n - i) * p (i + 1)) := by
    unfold bezier
    rw [Finset.mul_sum]
    exact Finset.sum_congr rfl fun i _ => by ring
  rw [e1, h, ← e2, ← e3]
  unfold wayFrom
  ring

theorem way_between {x y t lo hi : ℝ} (h0 : 0 ≤ t) (h1 : t ≤ 1) (hx : lo ≤ x ∧ x ≤ hi) (hy : lo ≤ y ∧ y ≤ hi) :
    lo ≤ wayFrom x y t ∧ wayFrom x y t ≤ hi := by
  have e : wayFrom x y t = (1 - t) * x + t * y := by unfold wayFrom; ring
  rw [e]
  constructor <;> nlinarith

theorem bezier_between {n : ℕ} {t lo hi : ℝ} (h0 : 0 ≤ t) (h1 : t ≤ 1) :
    ∀ {p : ℕ → ℝ}, (∀ k ≤ n, lo ≤ p k ∧ p k ≤ hi) → lo ≤ bezier p n t ∧ bezier p n t ≤ hi := by
  induction n with
  | zero => intro p h; simpa [bezier] using h 0 le_rfl
  | succ n ih =>
    intro p h
    rw [bezier_succ]
    exact way_between h0 h1 (ih fun k hk => h k (by omega)) (ih fun k hk => h (k + 1) (by omega))

theorem way_lip {x y x' y' t e : ℝ} (h0 : 0 ≤ t) (h1 : t ≤ 1) (hx : |x - x'| ≤ e) (hy : |y - y'| ≤ e) :
    |wayFrom x y t - wayFrom x' y' t| ≤ e := by
  have h := way_between h0 h1 (abs_le.1 hx) (abs_le.1 hy)
  have : wayFrom x y t - wayFrom x' y' t = wayFrom (x - x') (y - y') t := by unfold wayFrom; ring
  rw [this]
  exact abs_le.2 h

/-- one step: the error grows by a fixed amount -/
theorem mix_step {x y t : F32} {X Y M : ℝ} {n : ℕ} (ft : t.IsFin = true) (h0 : 0 ≤ (t.val : ℝ)) (h1 : (t.val : ℝ) ≤ 1)
    (hM : M ≤ 2 ^ 123) (hX : |X| ≤ M) (hY : |Y| ≤ M) (hn : n ≤ 2 ^ 15)
    (hx : Near x X (n * (M / 2 ^ 21 + 1 / 2 ^ 148))) (hy : Near y Y (n * (M / 2 ^ 21 + 1 / 2 ^ 148))) :
    Near (F.mix x y t) (wayFrom X Y t.val) ((n + 1 : ℕ) * (M / 2 ^ 21 + 1 / 2 ^ 148)) := by
  have hn' : (n : ℝ) ≤ 2 ^ 15 := by exact_mod_cast hn
  have n0 : (0 : ℝ) ≤ n := Nat.cast_nonneg n
  have M0 : 0 ≤ M := (abs_nonneg X).trans hX
  have E : n * (M / 2 ^ 21 + 1 / 2 ^ 148) ≤ M / 2 ^ 6 + 1 / 2 ^ 133 := by
    calc n * (M / 2 ^ 21 + 1 / 2 ^ 148) ≤ 2 ^ 15 * (M / 2 ^ 21 + 1 / 2 ^ 148) := by gcongr
      _ = _ := by ring
  have bx : |(x.val : ℝ)| ≤ M + (M / 2 ^ 6 + 1 / 2 ^ 133) := by
    have := abs_add_le ((x.val : ℝ) - X) X
    rw [sub_add_cancel] at this
    linarith [hx.2]
  have bY : |(y.val : ℝ)| ≤ M + (M / 2 ^ 6 + 1 / 2 ^ 133) := by
    have := abs_add_le ((y.val : ℝ) - Y) Y
    rw [sub_add_cancel] at this
    linarith [hy.2]
  have big : M + (M / 2 ^ 6 + 1 / 2 ^ 133) ≤ 2 ^ 124 := by norm_num at *; linarith
  obtain ⟨f, e⟩ := mix_near hx.1 hy.1 ft (bx.trans big) (bY.trans big) (abs_le.2 ⟨by linarith, h1⟩)
  refine ⟨f, ?_⟩
  have l := way_lip h0 h1 hx.2 hy.2
  have w1 := abs_le.2 (way_between h0 h1 (abs_le.1 bx) (abs_le.1 bY))
  have w2 : |(t.val : ℝ) * (y.val - x.val)| ≤ 2 * (M + (M / 2 ^ 6 + 1 / 2 ^ 133)) := by
    rw [abs_mul, abs_of_nonneg h0]
    refine (mul_le_of_le_one_left (abs_nonneg _) h1).trans ((abs_sub _ _).trans ?_)
    linarith
  have tri := abs_sub_le ((F.mix x y t).val : ℝ) (wayFrom x.val y.val t.val) (wayFrom X Y t.val)
  refine tri.trans ?_
  push_cast
  rw [add_mul, one_mul]
  norm_num at *
  linarith

/-- de Casteljau's scheme in float arithmetic -/
theorem casteljau_near {t : F32} {M : ℝ} (ft : t.IsFin = true) (h0 : 0 ≤ (t.val : ℝ)) (h1 : (t.val : ℝ) ≤ 1)
    (hM : M ≤ 2 ^ 123) {n : ℕ} : n ≤ 2 ^ 15 → ∀ {p : ℕ → F32} {k : ℕ}, (∀ j ≤ n, (p (k + j)).IsFin = true ∧ |((p (k + j)).val : ℝ)| ≤ M) →
    Near (casteljau (fun x y => F.mix x y t) p n k) (bezier (fun j => ((p (k + j)).val : ℝ)) n t.val)
      (n * (M / 2 ^ 21 + 1 / 2 ^ 148)) := by
  induction n with
  | zero =>
    intro _ p k h
    refine ⟨(h 0 le_rfl).1, ?_⟩
    simp [casteljau, bezier]
  | succ n ih =>
    intro hn p k h
    rw [bezier_succ]
    have a := ih (by omega) (p := p) (k := k) fun j hj => h j (by omega)
    have b := ih (by omega) (p := p) (k := k + 1) fun j hj => by
      have := h (j + 1) (by omega)
      rwa [show k + (j + 1) = k + 1 + j by omega] at this
    have e : (fun j => ((p (k + 1 + j)).val : ℝ)) = fun j => ((p (k + (j + 1))).val : ℝ) := by
      funext j; rw [show k + 1 + j = k + (j + 1) by omega]
    rw [e] at b
    exact mix_step ft h0 h1 hM (abs_le.2 (bezier_between h0 h1 fun j hj => abs_le.1 (h j (by omega)).2))
      (abs_le.2 (bezier_between h0 h1 fun j hj => abs_le.1 (h (j + 1) (by omega)).2)) (by omega) a b

/-- following targets in float arithmetic -/
theorem follow_near {t : F32} {M : ℝ} (ft : t.IsFin = true) (h0 : 0 ≤ (t.val : ℝ)) (h1 : (t.val : ℝ) ≤ 1)
    (hM : M ≤ 2 ^ 123) {x : F32} (fx : x.IsFin = true) (bx : |(x.val : ℝ)| ≤ M) {ys : List F32} (hn : ys.length ≤ 2 ^ 15)
    (hy : ∀ y ∈ ys, y.IsFin = true ∧ |(y.val : ℝ)| ≤ M) :
    Near (follow (fun x y => F.mix x y t) x ys) (follow (fun x y => wayFrom x y t.val) (x.val : ℝ) (ys.map fun y => (y.val : ℝ)))
      (ys.length * (M / 2 ^ 21 + 1 / 2 ^ 148)) := by
  have M0 : 0 ≤ M := (abs_nonneg _).trans bx
  have key : |follow (fun x y => wayFrom x y t.val) (x.val : ℝ) (ys.map fun y => (y.val : ℝ))| ≤ M ∧
    Near (follow (fun x y => F.mix x y t) x ys) (follow (fun x y => wayFrom x y t.val) (x.val : ℝ) (ys.map fun y => (y.val : ℝ)))
      (ys.length * (M / 2 ^ 21 + 1 / 2 ^ 148)) := by
    unfold follow
    induction ys using List.reverseRecOn with
    | nil => exact ⟨bx, fx, by simp⟩
    | append_singleton ys y ih =>
      have hn' : ys.length ≤ 2 ^ 15 := by rw [List.length_append] at hn; omega
      obtain ⟨b, s⟩ := ih hn' fun y h => hy y (List.mem_append_left _ h)
      have u := hy y (by simp)
      rw [List.map_append, List.foldl_append, List.map_singleton, List.foldl_cons, List.foldl_nil, List.foldl_append,
        List.foldl_cons, List.foldl_nil, List.length_append, List.length_singleton]
      exact ⟨abs_le.2 (way_between h0 h1 (abs_le.1 b) (abs_le.1 u.2)),
        mix_step ft h0 h1 hM b u.2 hn' s ⟨u.1, by rw [sub_self, abs_zero]; positivity⟩⟩
  exact key.2

/-- following one target, any number of steps -/
theorem settle {t : F32} (ft : t.IsFin = true) (h0 : 1 / 2 ^ 20 ≤ (t.val : ℝ)) (h1 : (t.val : ℝ) ≤ 1)
    {x y : F32} (fx : x.IsFin = true) (fy : y.IsFin = true) (bx : |(x.val : ℝ)| ≤ 2 ^ 120) (hy : |(y.val : ℝ)| ≤ 2 ^ 120) (n : ℕ) :
    Near (follow (fun x y => F.mix x y t) x (List.replicate n y)) y.val
      ((1 - t.val / 2) ^ n * |(x.val : ℝ) - y.val| + (|(y.val : ℝ)| / 2 ^ 23 + 1 / 2 ^ 147) / t.val) := by
  have t0 : (0 : ℝ) < t.val := lt_of_lt_of_le (by norm_num) h0
  set T := (t.val : ℝ) with hT
  set Y := (y.val : ℝ) with hY
  have Y0 := abs_nonneg Y
  set S := (|Y| / 2 ^ 23 + 1 / 2 ^ 147) / T with hS
  have S0 : 0 ≤ S := by positivity
  have ST : S * T = |Y| / 2 ^ 23 + 1 / 2 ^ 147 := by rw [hS]; field_simp
  have Sb : S ≤ 2 ^ 119 := by
    rw [hS, div_le_iff₀ t0]
    norm_num at *
    linarith
  have d0 : |(x.val : ℝ) - Y| ≤ 2 ^ 121 := (abs_sub _ _).trans (by norm_num at *; linarith)
  induction n with
  | zero => exact ⟨fx, by simpa [follow] using S0⟩
  | succ n ih =>
    rw [List.replicate_succ', follow, List.foldl_append, List.foldl_cons, List.foldl_nil]
    change Near (F.mix (follow (fun x y => F.mix x y t) x (List.replicate n y)) y t) _ _
    obtain ⟨f, e⟩ := ih
    generalize follow (fun x y => F.mix x y t) x (List.replicate n y) = z at *
    have q0 : 0 ≤ 1 - T / 2 := by linarith
    have q1 : (1 - T / 2) ^ n ≤ 1 := pow_le_one₀ q0 (by linarith)
    have qn : 0 ≤ (1 - T / 2) ^ n := pow_nonneg q0 n
    have hD : (1 - T / 2) ^ n * |(x.val : ℝ) - Y| ≤ 2 ^ 121 :=
      (mul_le_of_le_one_left (abs_nonneg _) q1).trans d0
    rw [pow_succ, mul_right_comm]
    have D0 : 0 ≤ (1 - T / 2) ^ n * |(x.val : ℝ) - Y| := by positivity
    generalize (1 - T / 2) ^ n * |(x.val : ℝ) - Y| = D at *
    have bz : |(z.val : ℝ)| ≤ 2 ^ 124 := by
      have := abs_add_le ((z.val : ℝ) - Y) Y
      rw [sub_add_cancel] at this
      norm_num at *
      linarith
    obtain ⟨fz, ez⟩ := mix_near f fy ft bz (hy.trans (by norm_num)) (abs_le.2 ⟨by linarith, h1⟩)
    refine ⟨fz, ?_⟩
    have w : wayFrom z.val Y T - Y = (1 - T) * (z.val - Y) := by unfold wayFrom; ring
    have w1 : |wayFrom z.val Y T - Y| = (1 - T) * |(z.val : ℝ) - Y| := by
      rw [w, abs_mul, abs_of_nonneg (by linarith)]
    have w2 : |T * (Y - z.val)| = T * |(z.val : ℝ) - Y| := by
      rw [abs_mul, abs_of_pos t0, abs_sub_comm]
    have w3 : |wayFrom z.val Y T| ≤ (1 - T) * |(z.val : ℝ) - Y| + |Y| := by
      have := abs_add_le (wayFrom z.val Y T - Y) Y
      rw [sub_add_cancel, w1] at this
      exact this
    have tri := abs_sub_le ((F.mix z y t).val : ℝ) (wayFrom z.val Y T) Y
    rw [w1] at tri
    rw [w2] at ez
    have A0 := abs_nonneg ((z.val : ℝ) - Y)
    generalize |(z.val : ℝ) - Y| = A at *
    generalize |wayFrom (z.val : ℝ) Y T| = W at *
    have TA : T * A ≤ T * (D + S) := by gcongr
    have c : (1 - T) * A + ((1 - T) * A + |Y| + 2.001 * (T * A)) / 2 ^ 24 + 1 / 2 ^ 149 ≤ D * (1 - T / 2) + S := by
      have h : (1 - T + (1 + 1.001 * T) / 2 ^ 24) * A ≤ (1 - T + (1 + 1.001 * T) / 2 ^ 24) * (D + S) :=
        mul_le_mul_of_nonneg_left e (by have : 0 ≤ 1 - T := by linarith
                                        positivity)
      have h' : (1 - T + (1 + 1.001 * T) / 2 ^ 24) * (D + S) ≤ (1 - T / 2) * (D + S) :=
        mul_le_mul_of_nonneg_right (by norm_num at *; linarith) (by positivity)
      nlinarith
    linarith

end Zcm
