import Verif.Props.C101
import Verif.Spec.ClipTest

/-!
# C126  Clipping decisions in IEEE arithmetic

`u` is `2^-24`.  A point at distance `d` in front of the camera is between the side planes if `|x| ≤ aspect tan(fovy/2) d`, between
the top and bottom planes if `|y| ≤ tan(fovy/2) d`, and between the near and far planes if `zNear ≤ d ≤ zFar`.
-/

set_option exponentiation.threshold 300

namespace Zcm

open F32

private theorem le_fin {a b : F32} (ha : a.IsFin = true) (hb : b.IsFin = true) : a ≤ b ↔ (a.val : ℝ) ≤ b.val := by
  rw [F32.le_iff, key_le_iff]
  constructor
  · rintro ⟨-, -, h⟩; exact_mod_cast h
  · intro h
    refine ⟨?_, ?_, by exact_mod_cast h⟩
    · rintro rfl; cases ha
    · rintro rfl; cases hb

private theorem within_both {x w : F32} (hx : x.IsFin = true) (hw : w.IsFin = true) : WithinBoth x w ↔ |(x.val : ℝ)| ≤ w.val := by
  unfold WithinBoth
  rw [le_fin hx hw, le_fin (by simpa using hw) hx, abs_le, val_neg]
  push_cast
  exact Iff.rfl

private theorem side_test {x w : F32} {r d p k : ℝ} (hx : Near x r (8 / 2 ^ 24 * |r| + 1 / 2 ^ 150)) (hw : Near w d 0)
    (hd : 1 / 2 ^ 30 ≤ d) (hk : 0 < k) (hr : r = p / k) :
    ((1 + 9 / 2 ^ 24) * |p| ≤ k * d → WithinBoth x w) ∧ ((1 + 9 / 2 ^ 24) * (k * d) ≤ |p| → ¬WithinBoth x w) := by
  have ew : (w.val : ℝ) = d := by
    have := hw.2
    exact sub_eq_zero.1 (abs_nonpos_iff.1 this)
  rw [within_both hx.1 hw.1, ew, not_le]
  have ar : |r| = |p| / k := by rw [hr, abs_div, abs_of_pos hk]
  have h1 : |(x.val : ℝ)| ≤ |r| + (8 / 2 ^ 24 * |r| + 1 / 2 ^ 150) := by
    have := abs_sub_abs_le_abs_sub (x.val : ℝ) r
    linarith [hx.2]
  have h2 : |r| - (8 / 2 ^ 24 * |r| + 1 / 2 ^ 150) ≤ |(x.val : ℝ)| := by
    have := abs_sub_abs_le_abs_sub r (x.val : ℝ)
    rw [abs_sub_comm] at this
    linarith [hx.2]
  constructor
  · intro h
    have : (1 + 9 / 2 ^ 24) * |r| ≤ d := by
      rw [ar, ← mul_div_assoc, div_le_iff₀ hk]
      linarith
    by_cases small : |r| ≤ d / 2
    · norm_num at *; linarith
    · norm_num at *; linarith
  · intro h
    have : (1 + 9 / 2 ^ 24) * d ≤ |r| := by
      rw [ar, le_div_iff₀ hk]
      linarith
    norm_num at *
    linarith

private theorem depth_test_both {z w : F32} {n f d : ℝ} (hz : Near z (d * depth11 n f d) (6 / 2 ^ 24 * (((f + n) * d + 2 * f * n) / (f - n)) + 1 / 2 ^ 148))
    (hw : Near w d 0) (hn : 1 / 2 ^ 30 ≤ n) (hnf : n < f) (hd : 1 / 2 ^ 30 ≤ d) :
    (7 / 2 ^ 24 * (d + n) ≤ d - n → 7 / 2 ^ 24 * (f * (d + n)) ≤ n * (f - d) → WithinBoth z w) ∧
    (7 / 2 ^ 24 * (d + n) ≤ n - d ∨ 7 / 2 ^ 24 * (f * (d + n)) ≤ n * (d - f) → ¬WithinBoth z w) := by
  have ew : (w.val : ℝ) = d := sub_eq_zero.1 (abs_nonpos_iff.1 hw.2)
  have d0 : 0 < d := lt_of_lt_of_le (by norm_num) hd
  have n0 : 0 < n := lt_of_lt_of_le (by norm_num) hn
  have f0 : 0 < f := n0.trans hnf
  have g0 : 0 < f - n := by linarith
  have q1 : 1 ≤ f / (f - n) := by rw [le_div_iff₀ g0]; linarith
  obtain ⟨g, hg⟩ : ∃ g, g = f / (f - n) := ⟨_, rfl⟩
  rw [← hg] at q1
  have e1 : d * depth11 n f d = -d + 2 * (g * (d - n)) := by
    rw [hg]; unfold depth11 depth01; field_simp
  have e2 : d * depth11 n f d = d - 2 * (n * (f - d)) / (f - n) := by
    unfold depth11 depth01; field_simp; ring
  have e3 : ((f + n) * d + 2 * f * n) / (f - n) ≤ 2 * (g * (d + n)) := by
    rw [hg, div_mul_eq_mul_div, mul_div_assoc', div_le_div_iff_of_pos_right g0]
    nlinarith
  have big : 1 / 2 ^ 29 ≤ g * (d + n) := by
    calc (1:ℝ) / 2 ^ 29 = 1 * (1 / 2 ^ 30 + 1 / 2 ^ 30) := by norm_num
      _ ≤ _ := by gcongr
  have err := hz.2
  have hz1 := hz.1
  have err' : |(z.val : ℝ) - d * depth11 n f d| ≤ 13 / 2 ^ 24 * (g * (d + n)) := by
    generalize g * (d + n) = y at *
    norm_num at *
    linarith
  rw [within_both hz1 hw.1, ew, abs_le, not_and_or, not_le, not_le]
  obtain ⟨l, r⟩ := abs_le.1 err'
  have gf : 7 / 2 ^ 24 * (f * (d + n)) / (f - n) = 7 / 2 ^ 24 * (g * (d + n)) := by rw [hg]; field_simp
  have pos : 0 < g * (d + n) := by positivity
  have near : ∀ x y : ℝ, 7 / 2 ^ 24 * x ≤ y → 7 / 2 ^ 24 * (g * x) ≤ g * y := fun x y h => by
    have := mul_le_mul_of_nonneg_left h (by linarith : 0 ≤ g)
    linarith
  have far : ∀ x : ℝ, 7 / 2 ^ 24 * (f * (d + n)) ≤ x → 7 / 2 ^ 24 * (g * (d + n)) ≤ x / (f - n) := fun x h => by
    rw [← gf]; exact (div_le_div_iff_of_pos_right g0).2 h
  constructor
  · intro h1 h2
    have k1 := near _ _ h1
    have k2 := far _ h2
    constructor
    · rw [e1] at l; norm_num at *; linarith
    · rw [e2, mul_div_assoc] at r; norm_num at *; linarith
  · rintro (h1 | h2)
    · left
      have k1 := near _ _ h1
      have : g * (n - d) = - (g * (d - n)) := by ring
      rw [e1] at r; norm_num at *; linarith
    · right
      have k2 := far _ h2
      have : n * (d - f) / (f - n) = - (n * (f - d) / (f - n)) := by ring
      rw [e2, mul_div_assoc] at l; norm_num at *; linarith

private theorem depth_test_zero {z w : F32} {n f d : ℝ} (hz : Near z (d * depth01 n f d) (6 / 2 ^ 24 * (f * (d + n) / (f - n)) + 1 / 2 ^ 148))
    (hw : Near w d 0) (hn : 1 / 2 ^ 30 ≤ n) (hnf : n < f) (hd : 1 / 2 ^ 30 ≤ d) :
    (7 / 2 ^ 24 * (d + n) ≤ d - n → 7 / 2 ^ 24 * (f * (d + n)) ≤ n * (f - d) → WithinZero z w) ∧
    (7 / 2 ^ 24 * (d + n) ≤ n - d ∨ 7 / 2 ^ 24 * (f * (d + n)) ≤ n * (d - f) → ¬WithinZero z w) := by
  have ew : (w.val : ℝ) = d := sub_eq_zero.1 (abs_nonpos_iff.1 hw.2)
  have d0 : 0 < d := lt_of_lt_of_le (by norm_num) hd
  have n0 : 0 < n := lt_of_lt_of_le (by norm_num) hn
  have f0 : 0 < f := n0.trans hnf
  have g0 : 0 < f - n := by linarith
  have q1 : 1 ≤ f / (f - n) := by rw [le_div_iff₀ g0]; linarith
  obtain ⟨g, hg⟩ : ∃ g, g = f / (f - n) := ⟨_, rfl⟩
  rw [← hg] at q1
  have e1 : d * depth01 n f d = g * (d - n) := by
    rw [hg]; unfold depth01; field_simp
  have e2 : d * depth01 n f d = d - n * (f - d) / (f - n) := by
    unfold depth01; field_simp; ring
  have e3 : f * (d + n) / (f - n) = g * (d + n) := by rw [hg]; field_simp
  have big : 1 / 2 ^ 29 ≤ g * (d + n) := by
    calc (1:ℝ) / 2 ^ 29 = 1 * (1 / 2 ^ 30 + 1 / 2 ^ 30) := by norm_num
      _ ≤ _ := by gcongr
  have err := hz.2
  have hz1 := hz.1
  rw [e3] at err
  have err' : |(z.val : ℝ) - d * depth01 n f d| ≤ 6.5 / 2 ^ 24 * (g * (d + n)) := by
    generalize g * (d + n) = y at *
    norm_num at *
    linarith
  unfold WithinZero
  rw [le_fin hz1 hw.1, le_fin isFin_lit_zero hz1, ew, val_lit_zero, Rat.cast_zero, not_and_or, not_le, not_le]
  obtain ⟨l, r⟩ := abs_le.1 err'
  generalize (z.val : ℝ) = Z at l r ⊢
  have gf : 7 / 2 ^ 24 * (f * (d + n)) / (f - n) = 7 / 2 ^ 24 * (g * (d + n)) := by rw [hg]; field_simp
  have pos : 0 < g * (d + n) := by positivity
  have near : ∀ x y : ℝ, 7 / 2 ^ 24 * x ≤ y → 7 / 2 ^ 24 * (g * x) ≤ g * y := fun x y h => by
    have := mul_le_mul_of_nonneg_left h (by linarith : 0 ≤ g)
    linarith
  have far : ∀ x : ℝ, 7 / 2 ^ 24 * (f * (d + n)) ≤ x → 7 / 2 ^ 24 * (g * (d + n)) ≤ x / (f - n) := fun x h => by
    rw [← gf]; exact (div_le_div_iff_of_pos_right g0).2 h
  constructor
  · intro h1 h2
    have k1 := near _ _ h1
    have k2 := far _ h2
    constructor
    · rw [e1] at l; norm_num at *; linarith
    · rw [e2] at r; norm_num at *; linarith
  · rintro (h1 | h2)
    · left
      have k1 := near _ _ h1
      have : g * (n - d) = - (g * (d - n)) := by ring
      rw [e1] at r; norm_num at *; linarith
    · right
      have k2 := far _ h2
      have : n * (d - f) / (f - n) = - (n * (f - d) / (f - n)) := by ring
      rw [e2] at l; norm_num at *; linarith

private theorem tan_pos' [Libm F32] {fovy aspect zNear zFar : F32} (h : Lens fovy aspect zNear zFar) :
    0 < Real.tan (fovy.val / 2) ∧ 0 < (aspect.val : ℝ) * Real.tan (fovy.val / 2) := by
  have := h.fovy_ge
  have a : 0 < Real.tan (fovy.val / 2) := Real.tan_pos_of_pos_of_lt_pi_div_two (half_pos (lt_of_lt_of_le (by norm_num) this)) (by linarith [h.fovy_lt])
  exact ⟨a, mul_pos (lt_of_lt_of_le (by norm_num) h.aspect_ge) a⟩

private theorem neg_lt_zero' {a : F32} (h : lit 0 < a) : -a < lit 0 := by
  obtain ⟨-, h1, h2⟩ := F32.lt_iff.1 h
  refine F32.lt_iff.2 ⟨?_, by decide +kernel, ?_⟩
  · intro e
    cases a <;> first | exact h1 rfl | cases e
  · rw [key_neg, show (lit 0 : F32).key = 0 by decide +kernel] at *
    linarith

/-- the fourth component of the image is exactly the third coordinate times ±1, whatever the other entries are -/
private theorem behind {X Y A B s : F32} (hs : s = lit 1 ∨ s = -(lit 1)) {p : V3 F32} (hp : ∀ i, (coord p i).IsFin = true)
    (h : s * p.z < lit 0) {q : V4 F32}
    (hq : q = (⟨⟨X, lit 0, lit 0, lit 0⟩, ⟨lit 0, Y, lit 0, lit 0⟩, ⟨lit 0, lit 0, A, s⟩, ⟨lit 0, lit 0, B, lit 0⟩⟩ : M4 F32) * V4.ofXYZ_W p (lit 1)) :
    ¬WithinBoth q.x q.w ∧ ¬WithinBoth q.y q.w ∧ ¬WithinBoth q.z q.w ∧ ¬WithinZero q.z q.w := by
  have r := (frust_rows (m := ⟨⟨X, lit 0, lit 0, lit 0⟩, ⟨lit 0, Y, lit 0, lit 0⟩, ⟨lit 0, lit 0, A, s⟩, ⟨lit 0, lit 0, B, lit 0⟩⟩) (p := p)
    (by constructor <;> exact isZ_lit) (hp 0) (hp 1) (hp 2)).2.2.2
  rw [← hq] at r
  change SameNumber q.w (s * p.z) at r
  have fz : (s * p.z).IsFin = true := by
    rcases hs with rfl | rfl
    · rw [one_mul']; exact hp 2
    · rw [neg_mul', one_mul']; simpa using hp 2
  have wf : q.w.IsFin = true := by
    rcases r with r | ⟨r, -⟩
    · rw [r]; exact fz
    · exact r
  have neg : q.w.key < 0 := by
    have hk := (F32.lt_iff.1 h).2.2
    rcases r with r | ⟨-, -, -, r⟩
    · rw [r]; rwa [show (lit 0 : F32).key = 0 by decide +kernel] at hk
    · rw [key_lt_iff, r, val_lit_zero] at hk
      exact absurd hk (lt_irrefl _)
  have nk : (-q.w).key = -q.w.key := key_neg q.w
  have both : ∀ x, ¬WithinBoth x q.w := fun x hx => by
    have a := (F32.le_iff.1 hx.1).2.2
    have b := (F32.le_iff.1 hx.2).2.2
    rw [nk] at a
    linarith
  refine ⟨both _, both _, both _, fun hx => ?_⟩
  have a := (F32.le_iff.1 hx.1).2.2
  have b := (F32.le_iff.1 hx.2).2.2
  rw [show (lit 0 : F32).key = 0 by decide +kernel] at a
  linarith

/-- C126, `perspectiveLH_ZO`: a point in front of the camera inside (outside) the planes by the stated margin passes (fails) the test of
these planes on its computed clip coordinates. -/
theorem C126_perspectiveLH_ZO [Libm F32] (hl : GoodTan) (b : Build) (fovy aspect zNear zFar : F32) (h : Lens fovy aspect zNear zFar) :
    let n : ℝ := zNear.val
    let f : ℝ := zFar.val
    let t : ℝ := Real.tan (fovy.val / 2)
    let u : ℝ := 1 / 2 ^ 24
    ∃ M, M4.perspectiveLH_ZO b fovy aspect zNear zFar = .ok M ∧
      ∀ p : V3 F32, InFront p p.z.val →
        let q := M * V4.ofXYZ_W p (lit 1)
        let d : ℝ := p.z.val
        (((1 + 9 * u) * |(p.x.val : ℝ)| ≤ aspect.val * t * d → WithinBoth q.x q.w) ∧
          ((1 + 9 * u) * (aspect.val * t * d) ≤ |(p.x.val : ℝ)| → ¬WithinBoth q.x q.w)) ∧
        (((1 + 9 * u) * |(p.y.val : ℝ)| ≤ t * d → WithinBoth q.y q.w) ∧
          ((1 + 9 * u) * (t * d) ≤ |(p.y.val : ℝ)| → ¬WithinBoth q.y q.w)) ∧
        ((7 * u * (d + n) ≤ d - n → 7 * u * (f * (d + n)) ≤ n * (f - d) → WithinZero q.z q.w) ∧
          (7 * u * (d + n) ≤ n - d ∨ 7 * u * (f * (d + n)) ≤ n * (d - f) → ¬WithinZero q.z q.w)) := by
  intro n f t u
  obtain ⟨M, hM, -, k⟩ := C101_perspectiveLH_ZO hl b fovy aspect zNear zFar h
  obtain ⟨t0, at0⟩ := tan_pos' h
  refine ⟨M, hM, fun p hp => ?_⟩
  obtain ⟨⟨kx, ky, kz, kw⟩, -⟩ := k p hp
  have e9 : 9 * u = 9 / 2 ^ 24 := by norm_num [u]
  have e7 : 7 * u = 7 / 2 ^ 24 := by norm_num [u]
  have nf : n < f := Rat.cast_lt.2 h.near_lt_far
  rw [e9, e7]
  exact ⟨side_test kx kw hp.2.2.2.1 at0 rfl, side_test ky kw hp.2.2.2.1 t0 rfl, depth_test_zero kz kw h.near_ge nf hp.2.2.2.1⟩

/-- C126, `perspectiveLH_ZO`: a point behind the camera fails every test, whatever the parameters are: nothing behind the camera is drawn. -/
theorem C126_perspectiveLH_ZO_behind [Libm F32] (b : Build) (fovy aspect zNear zFar : F32) (M : M4 F32)
    (hM : M4.perspectiveLH_ZO b fovy aspect zNear zFar = .ok M) (p : V3 F32) (hp : ∀ i, (coord p i).IsFin = true) (h : p.z < lit 0) :
    let q := M * V4.ofXYZ_W p (lit 1)
    ¬WithinBoth q.x q.w ∧ ¬WithinBoth q.y q.w ∧ ¬WithinZero q.z q.w := by
  intro q
  unfold M4.perspectiveLH_ZO at hM
  cases hc : cassert b (decide (F.abs (aspect - epsilonf) > (lit 0 : F32))) with
  | ok v =>
    rw [hc] at hM
    have e := Res.ok.inj hM
    obtain ⟨a1, a2, a3, a4⟩ := behind (s := (lit 1)) (.inl rfl) hp (by rw [one_mul']; exact h) (q := q) (by subst e; rfl)
    exact ⟨a1, a2, a4⟩
  | abort => rw [hc] at hM; cases hM
  | ub => rw [hc] at hM; cases hM

/-- C126, `perspectiveLH_NO`: a point in front of the camera inside (outside) the planes by the stated margin passes (fails) the test of
these planes on its computed clip coordinates. -/
theorem C126_perspectiveLH_NO [Libm F32] (hl : GoodTan) (b : Build) (fovy aspect zNear zFar : F32) (h : Lens fovy aspect zNear zFar) :
    let n : ℝ := zNear.val
    let f : ℝ := zFar.val
    let t : ℝ := Real.tan (fovy.val / 2)
    let u : ℝ := 1 / 2 ^ 24
    ∃ M, M4.perspectiveLH_NO b fovy aspect zNear zFar = .ok M ∧
      ∀ p : V3 F32, InFront p p.z.val →
        let q := M * V4.ofXYZ_W p (lit 1)
        let d : ℝ := p.z.val
        (((1 + 9 * u) * |(p.x.val : ℝ)| ≤ aspect.val * t * d → WithinBoth q.x q.w) ∧
          ((1 + 9 * u) * (aspect.val * t * d) ≤ |(p.x.val : ℝ)| → ¬WithinBoth q.x q.w)) ∧
        (((1 + 9 * u) * |(p.y.val : ℝ)| ≤ t * d → WithinBoth q.y q.w) ∧
          ((1 + 9 * u) * (t * d) ≤ |(p.y.val : ℝ)| → ¬WithinBoth q.y q.w)) ∧
        ((7 * u * (d + n) ≤ d - n → 7 * u * (f * (d + n)) ≤ n * (f - d) → WithinBoth q.z q.w) ∧
          (7 * u * (d + n) ≤ n - d ∨ 7 * u * (f * (d + n)) ≤ n * (d - f) → ¬WithinBoth q.z q.w)) := by
  intro n f t u
  obtain ⟨M, hM, -, k⟩ := C101_perspectiveLH_NO hl b fovy aspect zNear zFar h
  obtain ⟨t0, at0⟩ := tan_pos' h
  refine ⟨M, hM, fun p hp => ?_⟩
  obtain ⟨⟨kx, ky, kz, kw⟩, -⟩ := k p hp
  have e9 : 9 * u = 9 / 2 ^ 24 := by norm_num [u]
  have e7 : 7 * u = 7 / 2 ^ 24 := by norm_num [u]
  have nf : n < f := Rat.cast_lt.2 h.near_lt_far
  rw [e9, e7]
  exact ⟨side_test kx kw hp.2.2.2.1 at0 rfl, side_test ky kw hp.2.2.2.1 t0 rfl, depth_test_both kz kw h.near_ge nf hp.2.2.2.1⟩

/-- C126, `perspectiveLH_NO`: a point behind the camera fails every test, whatever the parameters are: nothing behind the camera is drawn. -/
theorem C126_perspectiveLH_NO_behind [Libm F32] (b : Build) (fovy aspect zNear zFar : F32) (M : M4 F32)
    (hM : M4.perspectiveLH_NO b fovy aspect zNear zFar = .ok M) (p : V3 F32) (hp : ∀ i, (coord p i).IsFin = true) (h : p.z < lit 0) :
    let q := M * V4.ofXYZ_W p (lit 1)
    ¬WithinBoth q.x q.w ∧ ¬WithinBoth q.y q.w ∧ ¬WithinBoth q.z q.w := by
  intro q
  unfold M4.perspectiveLH_NO at hM
  cases hc : cassert b (decide (F.abs (aspect - epsilonf) > (lit 0 : F32))) with
  | ok v =>
    rw [hc] at hM
    have e := Res.ok.inj hM
    obtain ⟨a1, a2, a3, a4⟩ := behind (s := (lit 1)) (.inl rfl) hp (by rw [one_mul']; exact h) (q := q) (by subst e; rfl)
    exact ⟨a1, a2, a3⟩
  | abort => rw [hc] at hM; cases hM
  | ub => rw [hc] at hM; cases hM

/-- C126, `perspectiveRH_ZO`: a point in front of the camera inside (outside) the planes by the stated margin passes (fails) the test of
these planes on its computed clip coordinates. -/
theorem C126_perspectiveRH_ZO [Libm F32] (hl : GoodTan) (b : Build) (fovy aspect zNear zFar : F32) (h : Lens fovy aspect zNear zFar) :
    let n : ℝ := zNear.val
    let f : ℝ := zFar.val
    let t : ℝ := Real.tan (fovy.val / 2)
    let u : ℝ := 1 / 2 ^ 24
    ∃ M, M4.perspectiveRH_ZO b fovy aspect zNear zFar = .ok M ∧
      ∀ p : V3 F32, InFront p (-p.z.val) →
        let q := M * V4.ofXYZ_W p (lit 1)
        let d : ℝ := (-p.z.val)
        (((1 + 9 * u) * |(p.x.val : ℝ)| ≤ aspect.val * t * d → WithinBoth q.x q.w) ∧
          ((1 + 9 * u) * (aspect.val * t * d) ≤ |(p.x.val : ℝ)| → ¬WithinBoth q.x q.w)) ∧
        (((1 + 9 * u) * |(p.y.val : ℝ)| ≤ t * d → WithinBoth q.y q.w) ∧
          ((1 + 9 * u) * (t * d) ≤ |(p.y.val : ℝ)| → ¬WithinBoth q.y q.w)) ∧
        ((7 * u * (d + n) ≤ d - n → 7 * u * (f * (d + n)) ≤ n * (f - d) → WithinZero q.z q.w) ∧
          (7 * u * (d + n) ≤ n - d ∨ 7 * u * (f * (d + n)) ≤ n * (d - f) → ¬WithinZero q.z q.w)) := by
  intro n f t u
  obtain ⟨M, hM, -, k⟩ := C101_perspectiveRH_ZO hl b fovy aspect zNear zFar h
  obtain ⟨t0, at0⟩ := tan_pos' h
  refine ⟨M, hM, fun p hp => ?_⟩
  obtain ⟨⟨kx, ky, kz, kw⟩, -⟩ := k p hp
  have e9 : 9 * u = 9 / 2 ^ 24 := by norm_num [u]
  have e7 : 7 * u = 7 / 2 ^ 24 := by norm_num [u]
  have nf : n < f := Rat.cast_lt.2 h.near_lt_far
  rw [e9, e7]
  exact ⟨side_test kx kw hp.2.2.2.1 at0 rfl, side_test ky kw hp.2.2.2.1 t0 rfl, depth_test_zero kz kw h.near_ge nf hp.2.2.2.1⟩

/-- C126, `perspectiveRH_ZO`: a point behind the camera fails every test, whatever the parameters are: nothing behind the camera is drawn. -/
theorem C126_perspectiveRH_ZO_behind [Libm F32] (b : Build) (fovy aspect zNear zFar : F32) (M : M4 F32)
    (hM : M4.perspectiveRH_ZO b fovy aspect zNear zFar = .ok M) (p : V3 F32) (hp : ∀ i, (coord p i).IsFin = true) (h : lit 0 < p.z) :
    let q := M * V4.ofXYZ_W p (lit 1)
    ¬WithinBoth q.x q.w ∧ ¬WithinBoth q.y q.w ∧ ¬WithinZero q.z q.w := by
  intro q
  unfold M4.perspectiveRH_ZO at hM
  cases hc : cassert b (decide (F.abs (aspect - epsilonf) > (lit 0 : F32))) with
  | ok v =>
    rw [hc] at hM
    have e := Res.ok.inj hM
    obtain ⟨a1, a2, a3, a4⟩ := behind (s := (-(lit 1))) (.inr rfl) hp (by rw [neg_mul', one_mul']; exact neg_lt_zero' h) (q := q) (by subst e; rfl)
    exact ⟨a1, a2, a4⟩
  | abort => rw [hc] at hM; cases hM
  | ub => rw [hc] at hM; cases hM

/-- C126, `perspectiveRH_NO`: a point in front of the camera inside (outside) the planes by the stated margin passes (fails) the test of
these planes on its computed clip coordinates. -/
theorem C126_perspectiveRH_NO [Libm F32] (hl : GoodTan) (b : Build) (fovy aspect zNear zFar : F32) (h : Lens fovy aspect zNear zFar) :
    let n : ℝ := zNear.val
    let f : ℝ := zFar.val
    let t : ℝ := Real.tan (fovy.val / 2)
    let u : ℝ := 1 / 2 ^ 24
    ∃ M, M4.perspectiveRH_NO b fovy aspect zNear zFar = .ok M ∧
      ∀ p : V3 F32, InFront p (-p.z.val) →
        let q := M * V4.ofXYZ_W p (lit 1)
        let d : ℝ := (-p.z.val)
        (((1 + 9 * u) * |(p.x.val : ℝ)| ≤ aspect.val * t * d → WithinBoth q.x q.w) ∧
          ((1 + 9 * u) * (aspect.val * t * d) ≤ |(p.x.val : ℝ)| → ¬WithinBoth q.x q.w)) ∧
        (((1 + 9 * u) * |(p.y.val : ℝ)| ≤ t * d → WithinBoth q.y q.w) ∧
          ((1 + 9 * u) * (t * d) ≤ |(p.y.val : ℝ)| → ¬WithinBoth q.y q.w)) ∧
        ((7 * u * (d + n) ≤ d - n → 7 * u * (f * (d + n)) ≤ n * (f - d) → WithinBoth q.z q.w) ∧
          (7 * u * (d + n) ≤ n - d ∨ 7 * u * (f * (d + n)) ≤ n * (d - f) → ¬WithinBoth q.z q.w)) := by
  intro n f t u
  obtain ⟨M, hM, -, k⟩ := C101_perspectiveRH_NO hl b fovy aspect zNear zFar h
  obtain ⟨t0, at0⟩ := tan_pos' h
  refine ⟨M, hM, fun p hp => ?_⟩
  obtain ⟨⟨kx, ky, kz, kw⟩, -⟩ := k p hp
  have e9 : 9 * u = 9 / 2 ^ 24 := by norm_num [u]
  have e7 : 7 * u = 7 / 2 ^ 24 := by norm_num [u]
  have nf : n < f := Rat.cast_lt.2 h.near_lt_far
  rw [e9, e7]
  exact ⟨side_test kx kw hp.2.2.2.1 at0 rfl, side_test ky kw hp.2.2.2.1 t0 rfl, depth_test_both kz kw h.near_ge nf hp.2.2.2.1⟩

/-- C126, `perspectiveRH_NO`: a point behind the camera fails every test, whatever the parameters are: nothing behind the camera is drawn. -/
theorem C126_perspectiveRH_NO_behind [Libm F32] (b : Build) (fovy aspect zNear zFar : F32) (M : M4 F32)
    (hM : M4.perspectiveRH_NO b fovy aspect zNear zFar = .ok M) (p : V3 F32) (hp : ∀ i, (coord p i).IsFin = true) (h : lit 0 < p.z) :
    let q := M * V4.ofXYZ_W p (lit 1)
    ¬WithinBoth q.x q.w ∧ ¬WithinBoth q.y q.w ∧ ¬WithinBoth q.z q.w := by
  intro q
  unfold M4.perspectiveRH_NO at hM
  cases hc : cassert b (decide (F.abs (aspect - epsilonf) > (lit 0 : F32))) with
  | ok v =>
    rw [hc] at hM
    have e := Res.ok.inj hM
    obtain ⟨a1, a2, a3, a4⟩ := behind (s := (-(lit 1))) (.inr rfl) hp (by rw [neg_mul', one_mul']; exact neg_lt_zero' h) (q := q) (by subst e; rfl)
    exact ⟨a1, a2, a3⟩
  | abort => rw [hc] at hM; cases hM
  | ub => rw [hc] at hM; cases hM

/-! ### The hypotheses are met

`GoodTan`, `Lens` and `InFront` are met by the examples at the end of C101: an opening angle of 2, aspect ratio 1, planes at 1 and 100. -/

/-- For that lens the point (1, -2, -10), at distance 10, is inside all planes by the margins, -/
example : (1 + 9 * (1 / 2 ^ 24)) * |(1 : ℝ)| ≤ 1 * Real.tan (2 / 2) * 10 ∧ (1 + 9 * (1 / 2 ^ 24)) * |(-2 : ℝ)| ≤ Real.tan (2 / 2) * 10 ∧
    7 * (1 / 2 ^ 24) * (10 + 1) ≤ (10 : ℝ) - 1 ∧ 7 * (1 / 2 ^ 24) * (100 * (10 + 1)) ≤ (1 : ℝ) * (100 - 10) := by
  have : (1 : ℝ) < Real.tan (2 / 2) := by
    have := Real.lt_tan (x := 1) (by norm_num) (by linarith [Real.pi_gt_three])
    norm_num
    exact this
  refine ⟨?_, ?_, by norm_num, by norm_num⟩
  · rw [abs_one]; norm_num at *; linarith
  · rw [abs_neg, abs_two]; norm_num at *; linarith

/-- and the points (1000, 0, -10), (0, 0, -0.5) and (0, 0, -101) are outside by the margins. -/
example : (1 + 9 * (1 / 2 ^ 24)) * (1 * Real.tan (2 / 2) * 10) ≤ |(1000 : ℝ)| ∧ 7 * (1 / 2 ^ 24) * (0.5 + 1) ≤ (1 : ℝ) - 0.5 ∧
    7 * (1 / 2 ^ 24) * (100 * (101 + 1)) ≤ (1 : ℝ) * (101 - 100) := by
  have : Real.tan (2 / 2) ≤ 2 := by
    rw [show (2 : ℝ) / 2 = 1 by norm_num, Real.tan_eq_sin_div_cos, div_le_iff₀ Real.cos_one_pos]
    have a := Real.sin_le_one 1
    have c := Real.one_sub_sq_div_two_le_cos (x := 1)
    linarith
  refine ⟨?_, by norm_num, by norm_num⟩
  rw [show |(1000 : ℝ)| = 1000 by norm_num]
  norm_num at *
  linarith

/-- Points behind the camera exist for every release build, whatever the parameters. -/
example [Libm F32] (fovy aspect zNear zFar : F32) : (∃ M, M4.perspectiveRH_ZO .release fovy aspect zNear zFar = .ok M) ∧
    (∀ i, (coord (⟨lit 1, lit 2, lit 3⟩ : V3 F32) i).IsFin = true) ∧ (lit 0 : F32) < lit 3 :=
  ⟨⟨_, rfl⟩, fun i => by fin_cases i <;> decide +kernel, by decide +kernel⟩

end Zcm
