import Verif.Spec.March
import Verif.Lemmas.F32RaySphere
import Verif.Lemmas.F32Slab
import Verif.Lemmas.F32Rel
import Verif.Lemmas.F32QuatCast
import Verif.Lemmas.F32Approach

/-!
# Marching along a ray through a scene of balls, in binary32
-/

set_option exponentiation.threshold 300

namespace Zcm

open F32

variable {n : ℕ} {o d c p : Fin n → F32} {eps t r L : F32} {M : ℝ}

theorem rayGap_lipschitz (o d c : Fin n → F32) (r : F32) (s t : ℝ) :
    rayGap o d c r t ≤ rayGap o d c r s + |t - s| * ‖exactE d‖ := by
  unfold rayGap
  have e : exactE o + t • exactE d - exactE c = (exactE o + s • exactE d - exactE c) + (t - s) • exactE d := by module
  have := norm_add_le (exactE o + s • exactE d - exactE c) ((t - s) • exactE d)
  rw [← e, norm_smul, Real.norm_eq_abs] at this
  linarith

/-- the computed point of the ray -/
theorem march_point (hn : n ≤ 4) (g : GoodMarch o d eps M) (ft : t.IsFin = true) (t0 : 0 ≤ (t.val : ℝ)) (t1 : (t.val : ℝ) ≤ 5 / 4 * M)
    (hp : ∀ i, p i = o i + d i * t) :
    (∀ i, (p i).IsFin = true) ∧ ‖exactE p - (exactE o + (t.val : ℝ) • exactE d)‖ ≤ 7.04 / 2 ^ 24 * M := by
  have M1 := g.M_ge
  have M2 := g.M_le
  have o1 := g.o_le
  have d1 : ‖exactE d‖ ≤ 1 + 1 / 2 ^ 20 := by have := (abs_le.1 g.unit.2).2; linarith
  have key : ∀ i, Near (p i) ((o i).val + (d i).val * t.val) (3.52 / 2 ^ 24 * M) := by
    intro i
    have di : |((d i).val : ℝ)| ≤ 1 + 1 / 2 ^ 20 := (abs_coord_le (exactE d) i).trans d1
    have oi : |((o i).val : ℝ)| ≤ M := (abs_coord_le (exactE o) i).trans o1
    have ti : |(t.val : ℝ)| ≤ 5 / 4 * M := by rw [abs_of_nonneg t0]; exact t1
    have m := near_times (x := d i) (y := t) (X := (d i).val) (Y := t.val) (e := 0) (f := 0) (A := 1 + 1 / 2 ^ 20) (B := 5 / 4 * M)
      ⟨g.unit.1 i, by simp⟩ ⟨ft, by simp⟩ di ti (by norm_num at *; linarith)
    have m' : |((d i * t).val : ℝ) - (d i).val * t.val| ≤ 1.26 / 2 ^ 24 * M := by
      refine m.2.trans ?_
      norm_num at *
      linarith
    have ab : |((d i).val : ℝ) * t.val| ≤ 1.2501 * M := by
      rw [abs_mul]
      refine (mul_le_mul di ti (abs_nonneg _) (by norm_num)).trans ?_
      norm_num at *
      linarith
    obtain ⟨f, e⟩ := add_close (E := 0) (F := 1.26 / 2 ^ 24 * M) (r := (o i).val) (g.fin_o i) m.1 (by simp) m' (by
      norm_num at *; linarith)
    rw [hp i]
    refine ⟨f, e.trans ?_⟩
    norm_num at *
    linarith
  refine ⟨fun i => (key i).1, ?_⟩
  have b := norm_le_of_coords (x := exactE p - (exactE o + (t.val : ℝ) • exactE d)) (e := 3.52 / 2 ^ 24 * M) (fun i => by
    have := (key i).2
    rw [mul_comm ((d i).val : ℝ)] at this
    exact this)
  have n4 : (n : ℝ) ≤ 4 := by exact_mod_cast hn
  refine abs_le_of_sq_le_sq' (a := ‖exactE p - (exactE o + (t.val : ℝ) • exactE d)‖) (b := 7.04 / 2 ^ 24 * M) ?_ (by linarith) |>.2
  refine b.trans ?_
  have : (n : ℝ) * (3.52 / 2 ^ 24 * M) ^ 2 ≤ 4 * (3.52 / 2 ^ 24 * M) ^ 2 := by gcongr
  refine this.trans (le_of_eq ?_)
  ring

/-- the computed distance to one ball -/
theorem march_ball (hn : n ≤ 4) (g : GoodMarch o d eps M) (k : MarchBall M c r) (ft : t.IsFin = true) (t0 : 0 ≤ (t.val : ℝ))
    (t1 : (t.val : ℝ) ≤ 5 / 4 * M) (hp : ∀ i, p i = o i + d i * t)
    (hL : exactDistance p c ≤ 2 ^ 62 → L.IsFin = true ∧ |(L.val : ℝ) - exactDistance p c| ≤ 5 / 2 ^ 24 * exactDistance p c + 1 / 2 ^ 40) :
    Near (L - r) (rayGap o d c r t.val) (3 / 2 ^ 20 * M) := by
  obtain ⟨fp, ep⟩ := march_point hn g ft t0 t1 hp
  have M1 := g.M_ge
  have M2 := g.M_le
  have o1 := g.o_le
  have c1 := k.c_le
  have d1 : ‖exactE d‖ ≤ 1 + 1 / 2 ^ 20 := by have := (abs_le.1 g.unit.2).2; linarith
  have X1 : ‖exactE o + (t.val : ℝ) • exactE d - exactE c‖ ≤ 3.2502 * M := by
    have a := norm_sub_le (exactE o + (t.val : ℝ) • exactE d) (exactE c)
    have b := norm_add_le (exactE o) ((t.val : ℝ) • exactE d)
    rw [norm_smul, Real.norm_eq_abs, abs_of_nonneg t0] at b
    have m : (t.val : ℝ) * ‖exactE d‖ ≤ 5 / 4 * M * (1 + 1 / 2 ^ 20) := mul_le_mul t1 d1 (norm_nonneg _) (by linarith)
    norm_num at *
    linarith
  have tri : |exactDistance p c - ‖exactE o + (t.val : ℝ) • exactE d - exactE c‖| ≤ 7.04 / 2 ^ 24 * M := by
    rw [exactDistance_norm]
    refine (abs_norm_sub_norm_le _ _).trans ?_
    rw [show exactE p - exactE c - (exactE o + (t.val : ℝ) • exactE d - exactE c) = exactE p - (exactE o + (t.val : ℝ) • exactE d) by abel]
    exact ep
  generalize exactDistance p c = D at *
  have X0 : 0 ≤ ‖exactE o + (t.val : ℝ) • exactE d - exactE c‖ := norm_nonneg _
  unfold rayGap
  generalize ‖exactE o + (t.val : ℝ) • exactE d - exactE c‖ = X at *
  have tr := abs_le.1 tri
  have D1 : D ≤ 3.2503 * M := by norm_num at *; linarith
  obtain ⟨fL, eL⟩ := hL (by norm_num at *; linarith)
  have nL : Near L X (24.4 / 2 ^ 24 * M) := by
    refine ⟨fL, ?_⟩
    have t := abs_sub_le (L.val : ℝ) D X
    refine t.trans ?_
    norm_num at *
    linarith
  have r1 := k.r_le
  have nr : Near r (r.val : ℝ) 0 := ⟨k.fin_r, by simp⟩
  have q := near_minus nL nr (R := 4.2502 * M) (by
    rw [abs_le] at *
    constructor <;> linarith [r1.1, r1.2]) (by norm_num at *; linarith)
  refine ⟨q.1, q.2.trans ?_⟩
  norm_num at *
  linarith

variable {P : Type}

/-- the computed distance to a scene is that to its nearest ball -/
theorem sceneBy_near {f : P → F32} {G : P → ℝ} {e : ℝ} (b : P) (bs : List P) (h : ∀ x ∈ b :: bs, Near (f x) (G x) e) :
    (sceneBy f b bs).IsFin = true ∧ (∀ x ∈ b :: bs, ((sceneBy f b bs).val : ℝ) ≤ G x + e) ∧
    ∃ x ∈ b :: bs, G x ≤ (sceneBy f b bs).val + e := by
  have s := fold_min (bs.map f) (f b) (isFin_ne_nan (h b (by simp)).1)
  have E : (bs.map f).foldl F.min (f b) = sceneBy f b bs := by unfold sceneBy; rw [List.foldl_map]
  rw [E] at s
  obtain ⟨m, -, l⟩ := s
  rw [← List.map_cons] at m l
  obtain ⟨x, hx, ex⟩ := List.mem_map.1 m
  refine ⟨ex ▸ (h x hx).1, fun y hy => ?_, x, hx, ?_⟩
  · have q := l (f y) (List.mem_map_of_mem hy) (isFin_ne_nan (h y hy).1)
    have v : ((sceneBy f b bs).val : ℝ) ≤ (f y).val := by exact_mod_cast key_le_iff.1 q.2.2
    have := (abs_le.1 (h y hy).2).2
    linarith
  · rw [← ex]
    have := (abs_le.1 (h x hx).2).1
    linarith

/-- what the loop is told about the scene at each time -/
def SceneOk (o d : Fin n → F32) (M : ℝ) (cen : P → Fin n → F32) (rad : P → F32) (balls : List P) (scene : F32 → F32) : Prop :=
  ∀ t : F32, t.IsFin = true → 0 ≤ (t.val : ℝ) → (t.val : ℝ) ≤ 5 / 4 * M →
    (scene t).IsFin = true ∧ (∀ x ∈ balls, ((scene t).val : ℝ) ≤ rayGap o d (cen x) (rad x) t.val + 3 / 2 ^ 20 * M) ∧
    ∃ x ∈ balls, rayGap o d (cen x) (rad x) t.val ≤ (scene t).val + 3 / 2 ^ 20 * M

variable {cen : P → Fin n → F32} {rad : P → F32} {balls : List P} {scene : F32 → F32}

/-- one round keeps behind the first hit, and either stops or moves on by at least half the threshold -/
theorem march_round (g : GoodMarch o d eps M) (hs : SceneOk o d M cen rad balls scene) {τ : ℝ} (τ1 : τ ≤ M)
    {x : P} (hx : x ∈ balls) (hit : rayGap o d (cen x) (rad x) τ ≤ 0) (ft : t.IsFin = true) (t0 : 0 ≤ (t.val : ℝ))
    (t1 : (t.val : ℝ) ≤ τ + M / 2 ^ 17) (hm : ¬ scene t < eps) :
    (t + scene t).IsFin = true ∧ (t.val : ℝ) + eps.val / 2 ≤ (t + scene t).val ∧ ((t + scene t).val : ℝ) ≤ τ + M / 2 ^ 17 := by
  have M1 := g.M_ge
  have M2 := g.M_le
  have e1 := g.eps_ge
  have d1 : ‖exactE d‖ ≤ 1 + 1 / 2 ^ 20 := by have := (abs_le.1 g.unit.2).2; linarith
  obtain ⟨fh, up, -⟩ := hs t ft t0 (by norm_num at *; linarith)
  have h1 := up x hx
  have h2 := le_val_of_not_lt fh g.fin_eps hm
  have lip := rayGap_lipschitz o d (cen x) (rad x) τ t.val
  have add := fun b => rel_add ft fh b
  clear up hm hs
  generalize (t.val : ℝ) = T at *
  generalize ((scene t).val : ℝ) = H at *
  generalize (eps.val : ℝ) = E at *
  have before : T ≤ τ := by
    by_contra hc
    push Not at hc
    rw [abs_of_pos (by linarith)] at lip
    have : (T - τ) * ‖exactE d‖ ≤ M / 2 ^ 17 * (1 + 1 / 2 ^ 20) := mul_le_mul (by linarith) d1 (norm_nonneg _) (by linarith)
    norm_num at *
    linarith
  rw [abs_of_nonpos (by linarith)] at lip
  have lip2 : (-(T - τ)) * ‖exactE d‖ ≤ (τ - T) + M / 2 ^ 20 := by
    have : (τ - T) * ‖exactE d‖ ≤ (τ - T) * (1 + 1 / 2 ^ 20) := mul_le_mul_of_nonneg_left d1 (by linarith)
    norm_num at *
    linarith
  have hup : H ≤ τ - T + M / 2 ^ 20 + 3 / 2 ^ 20 * M := by linarith
  have s0 : 0 ≤ T + H := by norm_num at *; linarith
  have r := add (by rw [abs_of_nonneg s0]; norm_num at *; linarith)
  have er := abs_le.1 r.2
  rw [abs_of_nonneg s0] at er
  refine ⟨r.1, ?_, ?_⟩
  · have := er.1; norm_num at *; linarith
  · have := er.2; norm_num at *; linarith

/-- the whole loop -/
theorem march_loop (g : GoodMarch o d eps M) (hs : SceneOk o d M cen rad balls scene) {τ : ℝ} (τ0 : 0 ≤ τ) (τ1 : τ ≤ M)
    {x : P} (hx : x ∈ balls) (hit : rayGap o d (cen x) (rad x) τ ≤ 0) {step : F32 → F32}
    (hstep : ∀ t, step t = if scene t < eps then t else t + scene t) (k : ℕ) :
    (step^[k] (lit 0)).IsFin = true ∧ 0 ≤ ((step^[k] (lit 0)).val : ℝ) ∧ ((step^[k] (lit 0)).val : ℝ) ≤ τ + M / 2 ^ 17 ∧
    (scene (step^[k] (lit 0)) < eps ∨ k * ((eps.val : ℝ) / 2) ≤ (step^[k] (lit 0)).val) := by
  have M1 := g.M_ge
  have M0 : 0 < M := lt_of_lt_of_le (by positivity) M1
  have e1 := g.eps_ge
  have e0 : 0 < (eps.val : ℝ) := lt_of_lt_of_le (by positivity) e1
  induction k with
  | zero =>
    have z : (lit 0 : F32).val = 0 := by decide +kernel
    refine ⟨by show (lit 0 : F32).IsFin = true; decide +kernel, ?_, ?_, Or.inr ?_⟩
    · rw [Function.iterate_zero_apply, z]; norm_num
    · rw [Function.iterate_zero_apply, z]; push_cast; positivity
    · rw [Function.iterate_zero_apply, z]; norm_num
  | succ k ih =>
    rw [Function.iterate_succ_apply', hstep]
    obtain ⟨f, t0, t1, alt⟩ := ih
    by_cases hc : scene (step^[k] (lit 0)) < eps
    · rw [if_pos hc]
      exact ⟨f, t0, t1, Or.inl hc⟩
    · rw [if_neg hc]
      obtain ⟨f', a, b⟩ := march_round g hs τ1 hx hit f t0 t1 hc
      refine ⟨f', by linarith, b, Or.inr ?_⟩
      have := alt.resolve_left hc
      push_cast
      linarith

end Zcm
