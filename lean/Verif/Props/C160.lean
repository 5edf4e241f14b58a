import Verif.Spec.Coord
import Verif.Props.C82
import Verif.Props.C85
import Verif.Lemmas.F32March
import Verif.Lemmas.F32Range
import Mathlib.Tactic.FinCases

/-!
# C160  Marching along a ray to the first of any number of balls

The caller's loop, `GoodMarch`, `MarchBall` and `rayGap` are in `Spec/March`.
-/

set_option exponentiation.threshold 300

namespace Zcm

open F32

private theorem tiny_diff {x y : F32} {D : ℝ} (fx : x.IsFin = true) (fy : y.IsFin = true) (h : |(x.val : ℝ) - y.val| ≤ D) (hD : D < 1 / 2 ^ 49) :
    F.abs (x - y) ≤ lit (1 / 2 ^ 44) := by
  have r := rel_sub fx fy (h.trans (hD.le.trans (by norm_num)))
  have b := r.abs_le
  have fa := isFin_fabs r.fin
  have fl : (lit (1 / 2 ^ 44) : F32).IsFin = true ∧ (lit (1 / 2 ^ 44) : F32).val = 1 / 2 ^ 44 := ⟨by decide +kernel, by decide +kernel⟩
  refine ⟨isFin_ne_nan fa, isFin_ne_nan fl.1, key_le_iff.2 ?_⟩
  rw [fl.2, val_fabsQ]
  have : ((|(x - y).val| : ℚ) : ℝ) ≤ ((1 / 2 ^ 44 : ℚ) : ℝ) := by
    push_cast
    refine b.trans ?_
    norm_num at *
    linarith
  exact_mod_cast this

private theorem small_length {L : F32} {D : ℝ} (nn : NonnegOrNan L) (h : L ≤ lit (1 / 2 ^ 40)) (D0 : 0 ≤ D) (hD : D < 1 / 2 ^ 49) :
    L.IsFin = true ∧ |(L.val : ℝ) - D| ≤ 5 / 2 ^ 24 * D + 1 / 2 ^ 40 := by
  have k := (nonneg_iff.1 (nn.resolve_left h.1)).2
  have u : (lit (1 / 2 ^ 40) : F32).key < 2 ^ 277 := by decide +kernel
  have v : (lit (1 / 2 ^ 40) : F32).val = 1 / 2 ^ 40 := by decide +kernel
  refine ⟨(isFin_iff h.1).2 ⟨lt_of_lt_of_le (by norm_num) k, lt_of_le_of_lt h.2.2 u⟩, ?_⟩
  have z : (lit 0 : F32).val = 0 := by decide +kernel
  have a1 : 0 ≤ L.val := by
    rw [← z]
    exact key_le_iff.1 (nn.resolve_left h.1).2.2
  have a2 : L.val ≤ 1 / 2 ^ 40 := by
    rw [← v]
    exact key_le_iff.1 h.2.2
  have b1 : (0 : ℝ) ≤ L.val := by exact_mod_cast a1
  have b2 : (L.val : ℝ) ≤ 1 / 2 ^ 40 := by
    have : ((L.val : ℚ) : ℝ) ≤ ((1 / 2 ^ 40 : ℚ) : ℝ) := by exact_mod_cast a2
    push_cast at this
    exact this
  generalize (L.val : ℝ) = l at *
  rw [abs_le]
  constructor <;> norm_num at * <;> linarith

private theorem distance_abs2 (a b : V2 F32) (ha : ∀ i, (coord a i).IsFin = true) (hb : ∀ i, (coord b i).IsFin = true)
    (h : exactDistance (coord a) (coord b) ≤ 2 ^ 62) : (V2.distance a b).IsFin = true ∧
    |((V2.distance a b).val : ℝ) - exactDistance (coord a) (coord b)| ≤ 5 / 2 ^ 24 * exactDistance (coord a) (coord b) + 1 / 2 ^ 40 := by
  by_cases hD : 1 / 2 ^ 49 ≤ exactDistance (coord a) (coord b)
  · obtain ⟨f, e⟩ := C82_distance_vec2 a b ha hb hD h
    exact ⟨f, e.trans (le_add_of_nonneg_right (by positivity))⟩
  · push Not at hD
    have c : ∀ i, F.abs (coord (a - b) i) ≤ F.abs (coord (V2.splat (lit (1 / 2 ^ 44)) : V2 F32) i) := by
      intro i
      have t := tiny_diff (ha i) (hb i) (abs_coord_le (exactE (coord a) - exactE (coord b)) i)
        (by rw [← exactDistance_norm]; exact hD)
      have e : F.abs (lit (1 / 2 ^ 44) : F32) = lit (1 / 2 ^ 44) := by decide +kernel
      fin_cases i
      · exact le_of_le_of_eq t e.symm
      · exact le_of_le_of_eq t e.symm
    have l := (C85_vec2_length _ _ c).2
    have k : V2.length (V2.splat (lit (1 / 2 ^ 44)) : V2 F32) ≤ lit (1 / 2 ^ 40) := by decide +kernel
    exact small_length (sqrt_nonneg' (add_nonneg' (sq_nonneg' _) (sq_nonneg' _))) ⟨l.1, k.2.1, l.2.2.trans k.2.2⟩ (Real.sqrt_nonneg _) hD

/-- C160, `vec2`: the computed distance to the scene at any time up to 5/4 of `M` is the exact distance from the exact point of the ray to
the nearest ball, to within `3 M / 2^20`. -/
theorem C160_vec2_scene (b : V2 F32 × F32) (bs : List (V2 F32 × F32)) (o d : V2 F32) (eps : F32) (M : ℝ)
    (g : GoodMarch (coord o) (coord d) eps M) (hb : ∀ x ∈ b :: bs, MarchBall M (coord x.1) x.2) (t : F32) (ft : t.IsFin = true)
    (t0 : 0 ≤ (t.val : ℝ)) (t1 : (t.val : ℝ) ≤ 5 / 4 * M) :
    (scene2 b bs (o + d * t)).IsFin = true ∧
    (∀ x ∈ b :: bs, ((scene2 b bs (o + d * t)).val : ℝ) ≤ rayGap (coord o) (coord d) (coord x.1) x.2 t.val + 3 / 2 ^ 20 * M) ∧
    ∃ x ∈ b :: bs, rayGap (coord o) (coord d) (coord x.1) x.2 t.val ≤ (scene2 b bs (o + d * t)).val + 3 / 2 ^ 20 * M := by
  have hp : ∀ i, coord (o + d * t) i = coord o i + coord d i * t := by intro i; fin_cases i <;> rfl
  exact sceneBy_near b bs fun x hx => march_ball (by norm_num) g (hb x hx) ft t0 t1 hp fun h =>
    distance_abs2 _ _ (march_point (by norm_num) g ft t0 t1 hp).1 (hb x hx).fin_c h

/-- C160, `vec2`: the loop never tunnels. If the exact ray is in one of the balls at time `τ`, then after any number of rounds the time is
finite, not negative and at most `τ + M / 2^17`. -/
theorem C160_vec2_never_past (b : V2 F32 × F32) (bs : List (V2 F32 × F32)) (o d : V2 F32) (eps : F32) (M : ℝ)
    (g : GoodMarch (coord o) (coord d) eps M) (hb : ∀ x ∈ b :: bs, MarchBall M (coord x.1) x.2) (τ : ℝ) (τ0 : 0 ≤ τ) (τ1 : τ ≤ M)
    (hit : ∃ x ∈ b :: bs, ‖exactE (coord o) + τ • exactE (coord d) - exactE (coord x.1)‖ ≤ x.2.val) (k : ℕ) :
    ((march2 b bs o d eps)^[k] (lit 0)).IsFin = true ∧ 0 ≤ (((march2 b bs o d eps)^[k] (lit 0)).val : ℝ) ∧
    (((march2 b bs o d eps)^[k] (lit 0)).val : ℝ) ≤ τ + M / 2 ^ 17 := by
  obtain ⟨x, hx, hi⟩ := hit
  have r := march_loop (scene := fun t => scene2 b bs (o + d * t)) (cen := fun x : V2 F32 × F32 => coord x.1) (rad := Prod.snd) g
    (fun t ft t0 t1 => C160_vec2_scene b bs o d eps M g hb t ft t0 t1) τ0 τ1 hx (by unfold rayGap; linarith)
    (step := march2 b bs o d eps) (fun t => rfl) k
  exact ⟨r.1, r.2.1, r.2.2.1⟩

/-- C160, `vec2`: the loop stops, and where it stops there is a ball. If the exact ray is in one of the balls at time `τ`, then after any
`k` rounds with `k` times half the threshold more than `τ + M / 2^17` the time no longer changes, and the exact point of the ray at that
time is within the threshold, and `3 M / 2^20` for rounding, of one of the balls. -/
theorem C160_vec2_stops (b : V2 F32 × F32) (bs : List (V2 F32 × F32)) (o d : V2 F32) (eps : F32) (M : ℝ)
    (g : GoodMarch (coord o) (coord d) eps M) (hb : ∀ x ∈ b :: bs, MarchBall M (coord x.1) x.2) (τ : ℝ) (τ0 : 0 ≤ τ) (τ1 : τ ≤ M)
    (hit : ∃ x ∈ b :: bs, ‖exactE (coord o) + τ • exactE (coord d) - exactE (coord x.1)‖ ≤ x.2.val) (k : ℕ)
    (hk : τ + M / 2 ^ 17 < k * ((eps.val : ℝ) / 2)) :
    (∀ m, (march2 b bs o d eps)^[k + m] (lit 0) = (march2 b bs o d eps)^[k] (lit 0)) ∧
    ∃ x ∈ b :: bs, ‖exactE (coord o) + (((march2 b bs o d eps)^[k] (lit 0)).val : ℝ) • exactE (coord d) - exactE (coord x.1)‖ ≤
      x.2.val + eps.val + 3 / 2 ^ 20 * M := by
  obtain ⟨x, hx, hi⟩ := hit
  obtain ⟨f, t0, t1, alt⟩ := march_loop (scene := fun t => scene2 b bs (o + d * t)) (cen := fun x : V2 F32 × F32 => coord x.1) (rad := Prod.snd) g
    (fun t ft t0 t1 => C160_vec2_scene b bs o d eps M g hb t ft t0 t1) τ0 τ1 hx (by unfold rayGap; linarith)
    (step := march2 b bs o d eps) (fun t => rfl) k
  have M0 : 0 < M := lt_of_lt_of_le (by positivity) g.M_ge
  have stop := alt.resolve_right (fun h => absurd (h.trans t1) (not_le.2 hk))
  generalize ht : (march2 b bs o d eps)^[k] (lit 0) = t at *
  refine ⟨fun m => ?_, ?_⟩
  · induction m with
    | zero => exact ht
    | succ m ih =>
      rw [← add_assoc, Function.iterate_succ_apply', ih]
      exact if_pos stop
  · obtain ⟨-, -, y, hy, e⟩ := C160_vec2_scene b bs o d eps M g hb t f t0 (by norm_num at *; linarith)
    refine ⟨y, hy, ?_⟩
    have v := lt_val_of_lt stop
    unfold rayGap at e
    linarith

/-! Non-vacuity: a ray along an axis towards two balls, the nearer of radius 2 at 8; the loop starts at 0 and stops at 6. -/

private theorem norm_axis2 {v : V2 F32} {y : ℚ} (h0 : ∀ i : Fin 2, i ≠ 0 → (coord v i).val = 0) (h1 : (coord v 0).val = y) :
    ‖exactE (coord v)‖ = |(y : ℝ)| := by
  rw [EuclideanSpace.norm_eq, ← Real.sqrt_sq_eq_abs]
  congr 1
  rw [Finset.sum_eq_single (0 : Fin 2)]
  · rw [Real.norm_eq_abs, sq_abs, ← h1]; rfl
  · intro i _ hi
    have : exactE (coord v) i = (0 : ℝ) := by
      show ((coord v i).val : ℝ) = 0
      rw [h0 i hi]; norm_num
    rw [this]; norm_num
  · intro h; exact absurd (Finset.mem_univ _) h

example : (march2 (⟨lit 8, lit 0⟩, lit 2) [(⟨lit 12, lit 0⟩, lit 1)] (⟨lit 0, lit 0⟩) (⟨lit 1, lit 0⟩) (lit (1 / 2 ^ 8)))^[5] (lit 0) = lit 6 := by decide +kernel

example : GoodMarch (coord (⟨lit 0, lit 0⟩ : V2 F32)) (coord (⟨lit 1, lit 0⟩ : V2 F32)) (lit (1 / 2 ^ 8)) 16 ∧
    (∀ x ∈ [((⟨lit 8, lit 0⟩ : V2 F32), (lit 2 : F32)), (⟨lit 12, lit 0⟩, lit 1)], MarchBall 16 (coord x.1) x.2) ∧
    ∃ x ∈ [((⟨lit 8, lit 0⟩ : V2 F32), (lit 2 : F32)), (⟨lit 12, lit 0⟩, lit 1)],
      ‖exactE (coord (⟨lit 0, lit 0⟩ : V2 F32)) + (7 : ℝ) • exactE (coord (⟨lit 1, lit 0⟩ : V2 F32)) - exactE (coord x.1)‖ ≤ x.2.val := by
  have e : (lit (1 / 2 ^ 8) : F32).val = 1 / 2 ^ 8 := by decide +kernel
  have r2 : (lit 2 : F32).val = 2 := by decide +kernel
  have r1 : (lit 1 : F32).val = 1 := by decide +kernel
  have nO : ‖exactE (coord (⟨lit 0, lit 0⟩ : V2 F32))‖ = |((0 : ℚ) : ℝ)| := norm_axis2 (by decide +kernel) (by decide +kernel)
  have nD : ‖exactE (coord (⟨lit 1, lit 0⟩ : V2 F32))‖ = |((1 : ℚ) : ℝ)| := norm_axis2 (by decide +kernel) (by decide +kernel)
  have n1 : ‖exactE (coord (⟨lit 8, lit 0⟩ : V2 F32))‖ = |((8 : ℚ) : ℝ)| := norm_axis2 (by decide +kernel) (by decide +kernel)
  have n2 : ‖exactE (coord (⟨lit 12, lit 0⟩ : V2 F32))‖ = |((12 : ℚ) : ℝ)| := norm_axis2 (by decide +kernel) (by decide +kernel)
  refine ⟨⟨by decide +kernel, ⟨by decide +kernel, by rw [nD]; norm_num⟩, by decide +kernel, by norm_num, by norm_num, by rw [nO]; norm_num,
    by rw [e]; norm_num⟩, ?_, (⟨lit 8, lit 0⟩, lit 2), by simp, ?_⟩
  · intro x hx
    simp only [List.mem_cons, List.not_mem_nil, or_false] at hx
    rcases hx with rfl | rfl
    · exact ⟨by decide +kernel, by decide +kernel, by rw [n1]; norm_num, by rw [r2]; norm_num⟩
    · exact ⟨by decide +kernel, by decide +kernel, by rw [n2]; norm_num, by rw [r1]; norm_num⟩
  · have q : exactE (coord (⟨lit 0, lit 0⟩ : V2 F32)) + (7 : ℝ) • exactE (coord (⟨lit 1, lit 0⟩ : V2 F32)) - exactE (coord (⟨lit 8, lit 0⟩ : V2 F32)) =
        exactE (coord (⟨lit (-1), lit 0⟩ : V2 F32)) := by
      ext i
      show ((coord (⟨lit 0, lit 0⟩ : V2 F32) i).val : ℝ) + (7 : ℝ) * ((coord (⟨lit 1, lit 0⟩ : V2 F32) i).val : ℝ) - ((coord (⟨lit 8, lit 0⟩ : V2 F32) i).val : ℝ) =
        ((coord (⟨lit (-1), lit 0⟩ : V2 F32) i).val : ℝ)
      have : ∀ i, (coord (⟨lit 0, lit 0⟩ : V2 F32) i).val + 7 * (coord (⟨lit 1, lit 0⟩ : V2 F32) i).val - (coord (⟨lit 8, lit 0⟩ : V2 F32) i).val =
        (coord (⟨lit (-1), lit 0⟩ : V2 F32) i).val := by decide +kernel
      exact_mod_cast this i
    have n0 : ‖exactE (coord (⟨lit (-1), lit 0⟩ : V2 F32))‖ = |((-1 : ℚ) : ℝ)| := norm_axis2 (by decide +kernel) (by decide +kernel)
    show ‖exactE (coord (⟨lit 0, lit 0⟩ : V2 F32)) + (7 : ℝ) • exactE (coord (⟨lit 1, lit 0⟩ : V2 F32)) - exactE (coord (⟨lit 8, lit 0⟩ : V2 F32))‖ ≤ ((lit 2 : F32).val : ℝ)
    rw [q, n0, r2]
    norm_num

private theorem distance_abs3 (a b : V3 F32) (ha : ∀ i, (coord a i).IsFin = true) (hb : ∀ i, (coord b i).IsFin = true)
    (h : exactDistance (coord a) (coord b) ≤ 2 ^ 62) : (V3.distance a b).IsFin = true ∧
    |((V3.distance a b).val : ℝ) - exactDistance (coord a) (coord b)| ≤ 5 / 2 ^ 24 * exactDistance (coord a) (coord b) + 1 / 2 ^ 40 := by
  by_cases hD : 1 / 2 ^ 49 ≤ exactDistance (coord a) (coord b)
  · obtain ⟨f, e⟩ := C82_distance_vec3 a b ha hb hD h
    exact ⟨f, e.trans (le_add_of_nonneg_right (by positivity))⟩
  · push Not at hD
    have c : ∀ i, F.abs (coord (a - b) i) ≤ F.abs (coord (V3.splat (lit (1 / 2 ^ 44)) : V3 F32) i) := by
      intro i
      have t := tiny_diff (ha i) (hb i) (abs_coord_le (exactE (coord a) - exactE (coord b)) i)
        (by rw [← exactDistance_norm]; exact hD)
      have e : F.abs (lit (1 / 2 ^ 44) : F32) = lit (1 / 2 ^ 44) := by decide +kernel
      fin_cases i
      · exact le_of_le_of_eq t e.symm
      · exact le_of_le_of_eq t e.symm
      · exact le_of_le_of_eq t e.symm
    have l := (C85_vec3_length _ _ c).2
    have k : V3.length (V3.splat (lit (1 / 2 ^ 44)) : V3 F32) ≤ lit (1 / 2 ^ 40) := by decide +kernel
    exact small_length (sqrt_nonneg' (add_nonneg' (add_nonneg' (sq_nonneg' _) (sq_nonneg' _)) (sq_nonneg' _))) ⟨l.1, k.2.1, l.2.2.trans k.2.2⟩ (Real.sqrt_nonneg _) hD

/-- C160, `vec3`: the computed distance to the scene at any time up to 5/4 of `M` is the exact distance from the exact point of the ray to
the nearest ball, to within `3 M / 2^20`. -/
theorem C160_vec3_scene (b : V3 F32 × F32) (bs : List (V3 F32 × F32)) (o d : V3 F32) (eps : F32) (M : ℝ)
    (g : GoodMarch (coord o) (coord d) eps M) (hb : ∀ x ∈ b :: bs, MarchBall M (coord x.1) x.2) (t : F32) (ft : t.IsFin = true)
    (t0 : 0 ≤ (t.val : ℝ)) (t1 : (t.val : ℝ) ≤ 5 / 4 * M) :
    (scene3 b bs (o + d * t)).IsFin = true ∧
    (∀ x ∈ b :: bs, ((scene3 b bs (o + d * t)).val : ℝ) ≤ rayGap (coord o) (coord d) (coord x.1) x.2 t.val + 3 / 2 ^ 20 * M) ∧
    ∃ x ∈ b :: bs, rayGap (coord o) (coord d) (coord x.1) x.2 t.val ≤ (scene3 b bs (o + d * t)).val + 3 / 2 ^ 20 * M := by
  have hp : ∀ i, coord (o + d * t) i = coord o i + coord d i * t := by intro i; fin_cases i <;> rfl
  exact sceneBy_near b bs fun x hx => march_ball (by norm_num) g (hb x hx) ft t0 t1 hp fun h =>
    distance_abs3 _ _ (march_point (by norm_num) g ft t0 t1 hp).1 (hb x hx).fin_c h

/-- C160, `vec3`: the loop never tunnels. If the exact ray is in one of the balls at time `τ`, then after any number of rounds the time is
finite, not negative and at most `τ + M / 2^17`. -/
theorem C160_vec3_never_past (b : V3 F32 × F32) (bs : List (V3 F32 × F32)) (o d : V3 F32) (eps : F32) (M : ℝ)
    (g : GoodMarch (coord o) (coord d) eps M) (hb : ∀ x ∈ b :: bs, MarchBall M (coord x.1) x.2) (τ : ℝ) (τ0 : 0 ≤ τ) (τ1 : τ ≤ M)
    (hit : ∃ x ∈ b :: bs, ‖exactE (coord o) + τ • exactE (coord d) - exactE (coord x.1)‖ ≤ x.2.val) (k : ℕ) :
    ((march3 b bs o d eps)^[k] (lit 0)).IsFin = true ∧ 0 ≤ (((march3 b bs o d eps)^[k] (lit 0)).val : ℝ) ∧
    (((march3 b bs o d eps)^[k] (lit 0)).val : ℝ) ≤ τ + M / 2 ^ 17 := by
  obtain ⟨x, hx, hi⟩ := hit
  have r := march_loop (scene := fun t => scene3 b bs (o + d * t)) (cen := fun x : V3 F32 × F32 => coord x.1) (rad := Prod.snd) g
    (fun t ft t0 t1 => C160_vec3_scene b bs o d eps M g hb t ft t0 t1) τ0 τ1 hx (by unfold rayGap; linarith)
    (step := march3 b bs o d eps) (fun t => rfl) k
  exact ⟨r.1, r.2.1, r.2.2.1⟩

/-- C160, `vec3`: the loop stops, and where it stops there is a ball. If the exact ray is in one of the balls at time `τ`, then after any
`k` rounds with `k` times half the threshold more than `τ + M / 2^17` the time no longer changes, and the exact point of the ray at that
time is within the threshold, and `3 M / 2^20` for rounding, of one of the balls. -/
theorem C160_vec3_stops (b : V3 F32 × F32) (bs : List (V3 F32 × F32)) (o d : V3 F32) (eps : F32) (M : ℝ)
    (g : GoodMarch (coord o) (coord d) eps M) (hb : ∀ x ∈ b :: bs, MarchBall M (coord x.1) x.2) (τ : ℝ) (τ0 : 0 ≤ τ) (τ1 : τ ≤ M)
    (hit : ∃ x ∈ b :: bs, ‖exactE (coord o) + τ • exactE (coord d) - exactE (coord x.1)‖ ≤ x.2.val) (k : ℕ)
    (hk : τ + M / 2 ^ 17 < k * ((eps.val : ℝ) / 2)) :
    (∀ m, (march3 b bs o d eps)^[k + m] (lit 0) = (march3 b bs o d eps)^[k] (lit 0)) ∧
    ∃ x ∈ b :: bs, ‖exactE (coord o) + (((march3 b bs o d eps)^[k] (lit 0)).val : ℝ) • exactE (coord d) - exactE (coord x.1)‖ ≤
      x.2.val + eps.val + 3 / 2 ^ 20 * M := by
  obtain ⟨x, hx, hi⟩ := hit
  obtain ⟨f, t0, t1, alt⟩ := march_loop (scene := fun t => scene3 b bs (o + d * t)) (cen := fun x : V3 F32 × F32 => coord x.1) (rad := Prod.snd) g
    (fun t ft t0 t1 => C160_vec3_scene b bs o d eps M g hb t ft t0 t1) τ0 τ1 hx (by unfold rayGap; linarith)
    (step := march3 b bs o d eps) (fun t => rfl) k
  have M0 : 0 < M := lt_of_lt_of_le (by positivity) g.M_ge
  have stop := alt.resolve_right (fun h => absurd (h.trans t1) (not_le.2 hk))
  generalize ht : (march3 b bs o d eps)^[k] (lit 0) = t at *
  refine ⟨fun m => ?_, ?_⟩
  · induction m with
    | zero => exact ht
    | succ m ih =>
      rw [← add_assoc, Function.iterate_succ_apply', ih]
      exact if_pos stop
  · obtain ⟨-, -, y, hy, e⟩ := C160_vec3_scene b bs o d eps M g hb t f t0 (by norm_num at *; linarith)
    refine ⟨y, hy, ?_⟩
    have v := lt_val_of_lt stop
    unfold rayGap at e
    linarith

/-! Non-vacuity: a ray along an axis towards two balls, the nearer of radius 2 at 8; the loop starts at 0 and stops at 6. -/

private theorem norm_axis3 {v : V3 F32} {y : ℚ} (h0 : ∀ i : Fin 3, i ≠ 0 → (coord v i).val = 0) (h1 : (coord v 0).val = y) :
    ‖exactE (coord v)‖ = |(y : ℝ)| := by
  rw [EuclideanSpace.norm_eq, ← Real.sqrt_sq_eq_abs]
  congr 1
  rw [Finset.sum_eq_single (0 : Fin 3)]
  · rw [Real.norm_eq_abs, sq_abs, ← h1]; rfl
  · intro i _ hi
    have : exactE (coord v) i = (0 : ℝ) := by
      show ((coord v i).val : ℝ) = 0
      rw [h0 i hi]; norm_num
    rw [this]; norm_num
  · intro h; exact absurd (Finset.mem_univ _) h

example : (march3 (⟨lit 8, lit 0, lit 0⟩, lit 2) [(⟨lit 12, lit 0, lit 0⟩, lit 1)] (⟨lit 0, lit 0, lit 0⟩) (⟨lit 1, lit 0, lit 0⟩) (lit (1 / 2 ^ 8)))^[5] (lit 0) = lit 6 := by decide +kernel

example : GoodMarch (coord (⟨lit 0, lit 0, lit 0⟩ : V3 F32)) (coord (⟨lit 1, lit 0, lit 0⟩ : V3 F32)) (lit (1 / 2 ^ 8)) 16 ∧
    (∀ x ∈ [((⟨lit 8, lit 0, lit 0⟩ : V3 F32), (lit 2 : F32)), (⟨lit 12, lit 0, lit 0⟩, lit 1)], MarchBall 16 (coord x.1) x.2) ∧
    ∃ x ∈ [((⟨lit 8, lit 0, lit 0⟩ : V3 F32), (lit 2 : F32)), (⟨lit 12, lit 0, lit 0⟩, lit 1)],
      ‖exactE (coord (⟨lit 0, lit 0, lit 0⟩ : V3 F32)) + (7 : ℝ) • exactE (coord (⟨lit 1, lit 0, lit 0⟩ : V3 F32)) - exactE (coord x.1)‖ ≤ x.2.val := by
  have e : (lit (1 / 2 ^ 8) : F32).val = 1 / 2 ^ 8 := by decide +kernel
  have r2 : (lit 2 : F32).val = 2 := by decide +kernel
  have r1 : (lit 1 : F32).val = 1 := by decide +kernel
  have nO : ‖exactE (coord (⟨lit 0, lit 0, lit 0⟩ : V3 F32))‖ = |((0 : ℚ) : ℝ)| := norm_axis3 (by decide +kernel) (by decide +kernel)
  have nD : ‖exactE (coord (⟨lit 1, lit 0, lit 0⟩ : V3 F32))‖ = |((1 : ℚ) : ℝ)| := norm_axis3 (by decide +kernel) (by decide +kernel)
  have n1 : ‖exactE (coord (⟨lit 8, lit 0, lit 0⟩ : V3 F32))‖ = |((8 : ℚ) : ℝ)| := norm_axis3 (by decide +kernel) (by decide +kernel)
  have n2 : ‖exactE (coord (⟨lit 12, lit 0, lit 0⟩ : V3 F32))‖ = |((12 : ℚ) : ℝ)| := norm_axis3 (by decide +kernel) (by decide +kernel)
  refine ⟨⟨by decide +kernel, ⟨by decide +kernel, by rw [nD]; norm_num⟩, by decide +kernel, by norm_num, by norm_num, by rw [nO]; norm_num,
    by rw [e]; norm_num⟩, ?_, (⟨lit 8, lit 0, lit 0⟩, lit 2), by simp, ?_⟩
  · intro x hx
    simp only [List.mem_cons, List.not_mem_nil, or_false] at hx
    rcases hx with rfl | rfl
    · exact ⟨by decide +kernel, by decide +kernel, by rw [n1]; norm_num, by rw [r2]; norm_num⟩
    · exact ⟨by decide +kernel, by decide +kernel, by rw [n2]; norm_num, by rw [r1]; norm_num⟩
  · have q : exactE (coord (⟨lit 0, lit 0, lit 0⟩ : V3 F32)) + (7 : ℝ) • exactE (coord (⟨lit 1, lit 0, lit 0⟩ : V3 F32)) - exactE (coord (⟨lit 8, lit 0, lit 0⟩ : V3 F32)) =
        exactE (coord (⟨lit (-1), lit 0, lit 0⟩ : V3 F32)) := by
      ext i
      show ((coord (⟨lit 0, lit 0, lit 0⟩ : V3 F32) i).val : ℝ) + (7 : ℝ) * ((coord (⟨lit 1, lit 0, lit 0⟩ : V3 F32) i).val : ℝ) - ((coord (⟨lit 8, lit 0, lit 0⟩ : V3 F32) i).val : ℝ) =
        ((coord (⟨lit (-1), lit 0, lit 0⟩ : V3 F32) i).val : ℝ)
      have : ∀ i, (coord (⟨lit 0, lit 0, lit 0⟩ : V3 F32) i).val + 7 * (coord (⟨lit 1, lit 0, lit 0⟩ : V3 F32) i).val - (coord (⟨lit 8, lit 0, lit 0⟩ : V3 F32) i).val =
        (coord (⟨lit (-1), lit 0, lit 0⟩ : V3 F32) i).val := by decide +kernel
      exact_mod_cast this i
    have n0 : ‖exactE (coord (⟨lit (-1), lit 0, lit 0⟩ : V3 F32))‖ = |((-1 : ℚ) : ℝ)| := norm_axis3 (by decide +kernel) (by decide +kernel)
    show ‖exactE (coord (⟨lit 0, lit 0, lit 0⟩ : V3 F32)) + (7 : ℝ) • exactE (coord (⟨lit 1, lit 0, lit 0⟩ : V3 F32)) - exactE (coord (⟨lit 8, lit 0, lit 0⟩ : V3 F32))‖ ≤ ((lit 2 : F32).val : ℝ)
    rw [q, n0, r2]
    norm_num

end Zcm
