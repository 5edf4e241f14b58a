import Verif.Lemmas.F32Curve
import Verif.Props.C103
import Verif.Spec.Clip

/-!
# C137  Curves and smoothing by repeated `mix`

`casteljau`, `follow` and the exact curve `bezier` are in Spec/Curve.lean.
-/

set_option exponentiation.threshold 300

namespace Zcm

open F32

private theorem level_zero {V : Type} (between : V → V → V) (p : ℕ → V) (n : ℕ) :
    casteljau between p (n + 1) 0 = between (casteljau between p n 0) (casteljau between p n 1) := rfl

private theorem casteljau_map {V : Type} (c : V → F32) (between : V → V → V) (g : F32 → F32 → F32)
    (h : ∀ x y, c (between x y) = g (c x) (c y)) (p : ℕ → V) :
    ∀ n k, c (casteljau between p n k) = casteljau g (fun j => c (p j)) n k := by
  intro n
  induction n with
  | zero => intro k; rfl
  | succ n ih => intro k; change c (between _ _) = _; rw [h, ih, ih]; rfl

private theorem follow_map {V : Type} (c : V → F32) (between : V → V → V) (g : F32 → F32 → F32)
    (h : ∀ x y, c (between x y) = g (c x) (c y)) (ys : List V) :
    ∀ x, c (follow between x ys) = follow g (c x) (ys.map c) := by
  unfold follow
  induction ys with
  | nil => intro x; rfl
  | cons y ys ih => intro x; rw [List.map_cons, List.foldl_cons, List.foldl_cons, ih, h]

/-! ## Bézier curves -/

/-- C137, `float`: de Casteljau's scheme with `mix` is finite and within `n * 2^-21` (relative to the largest control value) of
the exact Bézier curve; so it leaves the range of the control values by no more than that; and at parameter 0 it is exactly the
first control value. -/
theorem C137_bezier (t : F32) (ht : Fraction t) (M : ℝ) (hM : M ≤ 2 ^ 123) (n : ℕ) (hn : n ≤ 2 ^ 15) (p : ℕ → F32)
    (hp : ∀ k ≤ n, (p k).IsFin = true ∧ |((p k).val : ℝ)| ≤ M) :
    Near (casteljau (fun x y => F.mix x y t) p n 0) (bezier (fun k => ((p k).val : ℝ)) n t.val)
      (n * (M / 2 ^ 21 + 1 / 2 ^ 148)) ∧
    (∀ lo hi : ℝ, (∀ k ≤ n, lo ≤ ((p k).val : ℝ) ∧ ((p k).val : ℝ) ≤ hi) →
      lo - n * (M / 2 ^ 21 + 1 / 2 ^ 148) ≤ ((casteljau (fun x y => F.mix x y t) p n 0).val : ℝ) ∧
      ((casteljau (fun x y => F.mix x y t) p n 0).val : ℝ) ≤ hi + n * (M / 2 ^ 21 + 1 / 2 ^ 148)) ∧
    (casteljau (fun x y => F.mix x y (lit 0)) p n 0 == p 0) = true := by
  have a := casteljau_near ht.1 ht.2.1 ht.2.2 hM hn (p := p) (k := 0) (by simpa using hp)
  simp only [zero_add] at a
  refine ⟨a, fun lo hi h => ?_, ?_⟩
  · have b := bezier_between ht.2.1 ht.2.2 h
    have e := abs_le.1 a.2
    exact ⟨by linarith [b.1], by linarith [b.2]⟩
  · clear a
    have M0 : 0 ≤ M := (abs_nonneg _).trans (hp 0 (Nat.zero_le _)).2
    have main : ∀ m ≤ n, (casteljau (fun x y => F.mix x y (lit 0)) p m 0 == p 0) = true := by
      intro m
      induction m with
      | zero => exact fun _ => beq_iff.2 ⟨isFin_ne_nan (hp 0 (Nat.zero_le _)).1, isFin_ne_nan (hp 0 (Nat.zero_le _)).1, rfl⟩
      | succ m ih =>
        intro hm
        have z0 : (0 : ℝ) ≤ (lit 0 : F32).val := by rw [val_lit_zero]; simp
        have z1 : ((lit 0 : F32).val : ℝ) ≤ 1 := by rw [val_lit_zero]; simp
        have size : ∀ k, k + m ≤ n → EndPoint (casteljau (fun x y => F.mix x y (lit 0)) p m k) := by
          intro k hk
          have s := casteljau_near isFin_lit_zero z0 z1 hM (by omega : m ≤ 2 ^ 15) (p := p) (k := k) fun j hj => hp (k + j) (by omega)
          have b := abs_le.2 (bezier_between (n := m) z0 z1 fun j hj => abs_le.1 (hp (k + j) (by omega)).2)
          have m1 : (m : ℝ) ≤ 2 ^ 15 := by exact_mod_cast (by omega : m ≤ 2 ^ 15)
          have E : m * (M / 2 ^ 21 + 1 / 2 ^ 148) ≤ 2 ^ 15 * (M / 2 ^ 21 + 1 / 2 ^ 148) := by gcongr
          have t := abs_add_le (((casteljau (fun x y => F.mix x y (lit 0)) p m k).val : ℝ) - bezier (fun j => ((p (k + j)).val : ℝ)) m (lit 0 : F32).val)
            (bezier (fun j => ((p (k + j)).val : ℝ)) m (lit 0 : F32).val)
          rw [sub_add_cancel] at t
          exact ⟨s.1, t.trans ((add_le_add (s.2.trans E) b).trans (by norm_num at *; linarith))⟩
        have u := size 0 (by omega)
        have v := size 1 (by omega)
        have fd := (rel_sub v.1 u.1 ((abs_sub _ _).trans (by linarith [u.2, v.2]))).fin
        have z := beq_iff.1 (C24_float_zero _ _ u.1 fd)
        have y := beq_iff.1 (ih (by omega))
        rw [level_zero]
        exact beq_iff.2 ⟨z.1, y.2.1, z.2.2.trans y.2.2⟩
    exact main n le_rfl

/-- C137, `vec2`: every coordinate of the computed point of a Bézier curve is accurate. -/
theorem C137_bezier_vec2 (t : F32) (ht : Fraction t) (M : ℝ) (hM : M ≤ 2 ^ 123) (n : ℕ) (hn : n ≤ 2 ^ 15) (p : ℕ → V2 F32)
    (hp : ∀ k ≤ n, ∀ i, (coord (p k) i).IsFin = true ∧ |((coord (p k) i).val : ℝ)| ≤ M) (i : Fin 2) :
    Near (coord (casteljau (fun x y => V2.mixS x y t) p n 0) i) (bezier (fun k => ((coord (p k) i).val : ℝ)) n t.val)
      (n * (M / 2 ^ 21 + 1 / 2 ^ 148)) := by
  rw [casteljau_map (fun v : V2 F32 => coord v i) _ (fun x y => F.mix x y t) (fun x y => by fin_cases i <;> rfl)]
  exact (C137_bezier t ht M hM n hn _ fun k hk => hp k hk i).1

/-- C137, `vec3`: every coordinate of the computed point of a Bézier curve is accurate. -/
theorem C137_bezier_vec3 (t : F32) (ht : Fraction t) (M : ℝ) (hM : M ≤ 2 ^ 123) (n : ℕ) (hn : n ≤ 2 ^ 15) (p : ℕ → V3 F32)
    (hp : ∀ k ≤ n, ∀ i, (coord (p k) i).IsFin = true ∧ |((coord (p k) i).val : ℝ)| ≤ M) (i : Fin 3) :
    Near (coord (casteljau (fun x y => V3.mixS x y t) p n 0) i) (bezier (fun k => ((coord (p k) i).val : ℝ)) n t.val)
      (n * (M / 2 ^ 21 + 1 / 2 ^ 148)) := by
  rw [casteljau_map (fun v : V3 F32 => coord v i) _ (fun x y => F.mix x y t) (fun x y => by fin_cases i <;> rfl)]
  exact (C137_bezier t ht M hM n hn _ fun k hk => hp k hk i).1

/-- C137, `vec4`: every coordinate of the computed point of a Bézier curve is accurate. -/
theorem C137_bezier_vec4 (t : F32) (ht : Fraction t) (M : ℝ) (hM : M ≤ 2 ^ 123) (n : ℕ) (hn : n ≤ 2 ^ 15) (p : ℕ → V4 F32)
    (hp : ∀ k ≤ n, ∀ i, (coord (p k) i).IsFin = true ∧ |((coord (p k) i).val : ℝ)| ≤ M) (i : Fin 4) :
    Near (coord (casteljau (fun x y => V4.mixS x y t) p n 0) i) (bezier (fun k => ((coord (p k) i).val : ℝ)) n t.val)
      (n * (M / 2 ^ 21 + 1 / 2 ^ 148)) := by
  rw [casteljau_map (fun v : V4 F32 => coord v i) _ (fun x y => F.mix x y t) (fun x y => by fin_cases i <;> rfl)]
  exact (C137_bezier t ht M hM n hn _ fun k hk => hp k hk i).1

/-! ## Following targets -/

/-- C137, `float`: the value that follows a sequence of up to `2^15` targets, `x = mix(x, target, t)` in every step, is finite
and within `n * 2^-21` (relative to the largest of the numbers) of what exact arithmetic gives. -/
theorem C137_follow (t : F32) (ht : Fraction t) (M : ℝ) (hM : M ≤ 2 ^ 123) (x : F32) (hx : x.IsFin = true ∧ |(x.val : ℝ)| ≤ M)
    (ys : List F32) (hn : ys.length ≤ 2 ^ 15) (hy : ∀ y ∈ ys, y.IsFin = true ∧ |(y.val : ℝ)| ≤ M) :
    Near (follow (fun x y => F.mix x y t) x ys) (follow (fun x y => wayFrom x y t.val) (x.val : ℝ) (ys.map fun y => (y.val : ℝ)))
      (ys.length * (M / 2 ^ 21 + 1 / 2 ^ 148)) :=
  follow_near ht.1 ht.2.1 ht.2.2 hM hx.1 hx.2 hn hy

/-- C137, `float`: following a target that stands still settles.  However many steps are taken, the distance to the target is
at most the starting distance times `(1 - t/2)^n`, plus a rest of `2^-23/t` (relative to the target) that does not grow. -/
theorem C137_settle (t : F32) (ht : Fraction t) (hs : 1 / 2 ^ 20 ≤ (t.val : ℝ)) (x y : F32)
    (hx : x.IsFin = true ∧ |(x.val : ℝ)| ≤ 2 ^ 120) (hy : y.IsFin = true ∧ |(y.val : ℝ)| ≤ 2 ^ 120) (n : ℕ) :
    Near (follow (fun x y => F.mix x y t) x (List.replicate n y)) y.val
      ((1 - t.val / 2) ^ n * |(x.val : ℝ) - y.val| + (|(y.val : ℝ)| / 2 ^ 23 + 1 / 2 ^ 147) / t.val) :=
  settle ht.1 hs ht.2.2 hx.1 hy.1 hx.2 hy.2 n

/-- C137, `vec2`: every coordinate of a vector that follows a sequence of targets is accurate. -/
theorem C137_follow_vec2 (t : F32) (ht : Fraction t) (M : ℝ) (hM : M ≤ 2 ^ 123) (x : V2 F32)
    (hx : ∀ i, (coord x i).IsFin = true ∧ |((coord x i).val : ℝ)| ≤ M) (ys : List (V2 F32)) (hn : ys.length ≤ 2 ^ 15)
    (hy : ∀ y ∈ ys, ∀ i, (coord y i).IsFin = true ∧ |((coord y i).val : ℝ)| ≤ M) (i : Fin 2) :
    Near (coord (follow (fun x y => V2.mixS x y t) x ys) i)
      (follow (fun x y => wayFrom x y t.val) ((coord x i).val : ℝ) (ys.map fun y => ((coord y i).val : ℝ)))
      (ys.length * (M / 2 ^ 21 + 1 / 2 ^ 148)) := by
  rw [follow_map (fun v : V2 F32 => coord v i) _ (fun x y => F.mix x y t) (fun x y => by fin_cases i <;> rfl)]
  have h := C137_follow t ht M hM (coord x i) (hx i) (ys.map fun y => coord y i) (by rwa [List.length_map]) (by
    intro y hm
    obtain ⟨v, hv, rfl⟩ := List.mem_map.1 hm
    exact hy v hv i)
  rwa [List.map_map, List.length_map] at h

/-- C137, `vec2`: a vector that follows a target standing still settles, in every coordinate. -/
theorem C137_settle_vec2 (t : F32) (ht : Fraction t) (hs : 1 / 2 ^ 20 ≤ (t.val : ℝ)) (x y : V2 F32)
    (hx : ∀ i, (coord x i).IsFin = true ∧ |((coord x i).val : ℝ)| ≤ 2 ^ 120)
    (hy : ∀ i, (coord y i).IsFin = true ∧ |((coord y i).val : ℝ)| ≤ 2 ^ 120) (n : ℕ) (i : Fin 2) :
    Near (coord (follow (fun x y => V2.mixS x y t) x (List.replicate n y)) i) (coord y i).val
      ((1 - t.val / 2) ^ n * |((coord x i).val : ℝ) - (coord y i).val| + (|((coord y i).val : ℝ)| / 2 ^ 23 + 1 / 2 ^ 147) / t.val) := by
  rw [follow_map (fun v : V2 F32 => coord v i) _ (fun x y => F.mix x y t) (fun x y => by fin_cases i <;> rfl), List.map_replicate]
  exact C137_settle t ht hs _ _ (hx i) (hy i) n

/-- C137, `vec3`: every coordinate of a vector that follows a sequence of targets is accurate. -/
theorem C137_follow_vec3 (t : F32) (ht : Fraction t) (M : ℝ) (hM : M ≤ 2 ^ 123) (x : V3 F32)
    (hx : ∀ i, (coord x i).IsFin = true ∧ |((coord x i).val : ℝ)| ≤ M) (ys : List (V3 F32)) (hn : ys.length ≤ 2 ^ 15)
    (hy : ∀ y ∈ ys, ∀ i, (coord y i).IsFin = true ∧ |((coord y i).val : ℝ)| ≤ M) (i : Fin 3) :
    Near (coord (follow (fun x y => V3.mixS x y t) x ys) i)
      (follow (fun x y => wayFrom x y t.val) ((coord x i).val : ℝ) (ys.map fun y => ((coord y i).val : ℝ)))
      (ys.length * (M / 2 ^ 21 + 1 / 2 ^ 148)) := by
  rw [follow_map (fun v : V3 F32 => coord v i) _ (fun x y => F.mix x y t) (fun x y => by fin_cases i <;> rfl)]
  have h := C137_follow t ht M hM (coord x i) (hx i) (ys.map fun y => coord y i) (by rwa [List.length_map]) (by
    intro y hm
    obtain ⟨v, hv, rfl⟩ := List.mem_map.1 hm
    exact hy v hv i)
  rwa [List.map_map, List.length_map] at h

/-- C137, `vec3`: a vector that follows a target standing still settles, in every coordinate. -/
theorem C137_settle_vec3 (t : F32) (ht : Fraction t) (hs : 1 / 2 ^ 20 ≤ (t.val : ℝ)) (x y : V3 F32)
    (hx : ∀ i, (coord x i).IsFin = true ∧ |((coord x i).val : ℝ)| ≤ 2 ^ 120)
    (hy : ∀ i, (coord y i).IsFin = true ∧ |((coord y i).val : ℝ)| ≤ 2 ^ 120) (n : ℕ) (i : Fin 3) :
    Near (coord (follow (fun x y => V3.mixS x y t) x (List.replicate n y)) i) (coord y i).val
      ((1 - t.val / 2) ^ n * |((coord x i).val : ℝ) - (coord y i).val| + (|((coord y i).val : ℝ)| / 2 ^ 23 + 1 / 2 ^ 147) / t.val) := by
  rw [follow_map (fun v : V3 F32 => coord v i) _ (fun x y => F.mix x y t) (fun x y => by fin_cases i <;> rfl), List.map_replicate]
  exact C137_settle t ht hs _ _ (hx i) (hy i) n

/-- C137, `vec4`: every coordinate of a vector that follows a sequence of targets is accurate. -/
theorem C137_follow_vec4 (t : F32) (ht : Fraction t) (M : ℝ) (hM : M ≤ 2 ^ 123) (x : V4 F32)
    (hx : ∀ i, (coord x i).IsFin = true ∧ |((coord x i).val : ℝ)| ≤ M) (ys : List (V4 F32)) (hn : ys.length ≤ 2 ^ 15)
    (hy : ∀ y ∈ ys, ∀ i, (coord y i).IsFin = true ∧ |((coord y i).val : ℝ)| ≤ M) (i : Fin 4) :
    Near (coord (follow (fun x y => V4.mixS x y t) x ys) i)
      (follow (fun x y => wayFrom x y t.val) ((coord x i).val : ℝ) (ys.map fun y => ((coord y i).val : ℝ)))
      (ys.length * (M / 2 ^ 21 + 1 / 2 ^ 148)) := by
  rw [follow_map (fun v : V4 F32 => coord v i) _ (fun x y => F.mix x y t) (fun x y => by fin_cases i <;> rfl)]
  have h := C137_follow t ht M hM (coord x i) (hx i) (ys.map fun y => coord y i) (by rwa [List.length_map]) (by
    intro y hm
    obtain ⟨v, hv, rfl⟩ := List.mem_map.1 hm
    exact hy v hv i)
  rwa [List.map_map, List.length_map] at h

/-- C137, `vec4`: a vector that follows a target standing still settles, in every coordinate. -/
theorem C137_settle_vec4 (t : F32) (ht : Fraction t) (hs : 1 / 2 ^ 20 ≤ (t.val : ℝ)) (x y : V4 F32)
    (hx : ∀ i, (coord x i).IsFin = true ∧ |((coord x i).val : ℝ)| ≤ 2 ^ 120)
    (hy : ∀ i, (coord y i).IsFin = true ∧ |((coord y i).val : ℝ)| ≤ 2 ^ 120) (n : ℕ) (i : Fin 4) :
    Near (coord (follow (fun x y => V4.mixS x y t) x (List.replicate n y)) i) (coord y i).val
      ((1 - t.val / 2) ^ n * |((coord x i).val : ℝ) - (coord y i).val| + (|((coord y i).val : ℝ)| / 2 ^ 23 + 1 / 2 ^ 147) / t.val) := by
  rw [follow_map (fun v : V4 F32 => coord v i) _ (fun x y => F.mix x y t) (fun x y => by fin_cases i <;> rfl), List.map_replicate]
  exact C137_settle t ht hs _ _ (hx i) (hy i) n

/-! ## Non-vacuity -/

private theorem quarter : Fraction (lit (1 / 4)) ∧ 1 / 2 ^ 20 ≤ ((lit (1 / 4) : F32).val : ℝ) := by
  have v : (lit (1 / 4) : F32).val = 1 / 4 := by decide +kernel
  refine ⟨⟨by decide +kernel, ?_, ?_⟩, ?_⟩ <;> rw [v] <;> norm_num

private def bend : ℕ → F32 := fun k => if k = 1 then lit 5 else lit (-2)

private theorem bend_fine (k : ℕ) : (bend k).IsFin = true ∧ |((bend k).val : ℝ)| ≤ 5 := by
  unfold bend
  split
  · exact ⟨by decide +kernel, by rw [show (lit 5 : F32).val = 5 by decide +kernel]; norm_num⟩
  · exact ⟨by decide +kernel, by rw [show (lit (-2) : F32).val = -2 by decide +kernel]; norm_num⟩

/-- a quadratic curve -/
example := C137_bezier (lit (1 / 4)) quarter.1 5 (by norm_num) 2 (by norm_num) bend fun k _ => bend_fine k

/-- a value that follows two targets, and one that approaches a target for a million steps -/
example := C137_follow (lit (1 / 4)) quarter.1 5 (by norm_num) (bend 0) (bend_fine 0) [bend 1, bend 2] (by norm_num) (by
  intro y h
  simp only [List.mem_cons, List.not_mem_nil, or_false] at h
  rcases h with rfl | rfl <;> exact bend_fine _)
example := C137_settle (lit (1 / 4)) quarter.1 quarter.2 (bend 0) (bend 1) ⟨(bend_fine 0).1, (bend_fine 0).2.trans (by norm_num)⟩
  ⟨(bend_fine 1).1, (bend_fine 1).2.trans (by norm_num)⟩ 1000000

end Zcm
