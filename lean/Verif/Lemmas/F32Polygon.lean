import Verif.Lemmas.Polygon
import Verif.Lemmas.F32Rel
import Verif.Lemmas.F32Chain
import Verif.Lemmas.F32Blend
import Verif.Props.C103

/-!
# Cutting polygons in binary32
-/

set_option exponentiation.threshold 300

namespace Zcm.F32

theorem keeps_iff {P : Type} {height : P → F32} {p : P} (f : (height p).IsFin = true) : keeps height p = true ↔ 0 ≤ (height p).val := by
  unfold keeps
  rw [decide_eq_true_iff]
  constructor
  · intro h
    have := key_le_iff.1 h.2.2
    rwa [val_lit_zero] at this
  · intro h
    exact ⟨isFin_ne_nan isFin_lit_zero, isFin_ne_nan f, key_le_iff.2 (by rwa [val_lit_zero])⟩

/-- the parameter of the cut -/
theorem cut_fraction {ha hb : F32} (fa : ha.IsFin = true) (fb : hb.IsFin = true) (a0 : 0 ≤ ha.val) (b0 : hb.val < 0)
    (la : |(ha.val : ℝ)| ≤ 2 ^ 64) (lb : |(hb.val : ℝ)| ≤ 2 ^ 64) :
    Fraction (ha / (ha - hb)) ∧
    |(ha.val : ℝ) - (ha / (ha - hb)).val * (ha.val - hb.val)| ≤ 2.01 / 2 ^ 24 * ha.val + 1 / 2 ^ 150 * (ha.val - hb.val) := by
  have a0' : (0 : ℝ) ≤ ha.val := by exact_mod_cast a0
  have b0' : (hb.val : ℝ) < 0 := by exact_mod_cast b0
  have cap : |(ha.val : ℝ) - hb.val| ≤ 2 ^ 65 := by
    refine (abs_sub _ _).trans ?_
    norm_num at la lb ⊢
    linarith
  have rd := rel_sub fa fb (cap.trans (by norm_num))
  have fd := rd.fin
  have dv : (ha - hb).val = (round (ha.sgn && !hb.sgn) (ha.val - hb.val)).val := by rw [sub_fin fa fb]
  have d1 : ha.val ≤ (ha - hb).val := by rw [dv]; exact val_le_round fa (by linarith) _
  have d2 : -hb.val ≤ (ha - hb).val := by
    rw [dv, ← val_neg]
    exact val_le_round (by rw [isFin_neg]; exact fb) (by rw [val_neg]; linarith) _
  have d0 : 0 < (ha - hb).val := by linarith
  have q0 : 0 ≤ ha.val / (ha - hb).val := div_nonneg a0 d0.le
  have q1 : ha.val / (ha - hb).val ≤ 1 := (div_le_one d0).2 d1
  have fr := frac_iff.1 (frac_round q0 q1 (ha.sgn ^^ (ha - hb).sgn))
  rw [← div_fin fa fd d0.ne'] at fr
  refine ⟨⟨fr.1, by exact_mod_cast fr.2.1, by exact_mod_cast fr.2.2⟩, ?_⟩
  have s0 : 0 < (ha.val : ℝ) - hb.val := by linarith
  have q := Rel.div' (d := 1.0001 / 2 ^ 24) (g := 2.01 / 2 ^ 24) (Rel.exact fa) rd le_rfl (by norm_num) (by norm_num) s0.ne'
    (by norm_num) (by norm_num) (by norm_num) (by
      rw [abs_of_nonneg (div_nonneg a0' s0.le)]
      refine ((div_le_one s0).2 (by linarith)).trans (by norm_num))
  have e := q.2
  rw [abs_of_nonneg (div_nonneg a0' s0.le)] at e
  generalize ((ha / (ha - hb)).val : ℝ) = t at *
  have : (ha.val : ℝ) - t * (ha.val - hb.val) = -((t - ha.val / (ha.val - hb.val)) * (ha.val - hb.val)) := by
    field_simp
    ring
  rw [this, abs_neg, abs_mul, abs_of_pos s0]
  calc |t - (ha.val : ℝ) / (ha.val - hb.val)| * (ha.val - hb.val)
      ≤ (2.01 / 2 ^ 24 * (ha.val / (ha.val - hb.val)) + 1 / 2 ^ 150) * (ha.val - hb.val) := by gcongr
    _ = _ := by field_simp

variable {n : ℕ} {nor a b p : Fin n → F32} {d x : F32} {M : ℝ}

theorem exactSide_abs_le (g : PlaneWithin nor d M) (hp : PointWithin p M) :
    ∑ i, |((nor i).val : ℝ) * (p i).val| ≤ n * M ∧ |exactSide nor d fun i => (p i).val| ≤ (n + 1) * M := by
  have M0 : 0 ≤ M := by
    have := g.le_scale
    norm_num at this
    linarith
  have s : ∑ i, |((nor i).val : ℝ) * (p i).val| ≤ n * M := by
    calc ∑ i, |((nor i).val : ℝ) * (p i).val| ≤ ∑ _i : Fin n, M := Finset.sum_le_sum fun i _ => by
          rw [abs_mul]
          calc |((nor i).val : ℝ)| * |((p i).val : ℝ)| ≤ 1 * M := mul_le_mul (g.nor_le i) (hp i).2 (abs_nonneg _) zero_le_one
            _ = M := one_mul _
      _ = _ := by simp
  refine ⟨s, ?_⟩
  unfold exactSide
  have h1 := abs_add_le (∑ i, ((nor i).val : ℝ) * (p i).val) d.val
  have h2 := Finset.abs_sum_le_sum_abs (fun i => ((nor i).val : ℝ) * (p i).val) Finset.univ
  have := g.d_le
  linarith

/-- the computed height is close to the exact one -/
theorem near_height (hn : n ≤ 4) (g : PlaneWithin nor d M) (hp : PointWithin p M) (hx : AccurateSum x nor p) :
    (x + d).IsFin = true ∧ |((x + d).val : ℝ) - exactSide nor d fun i => (p i).val| ≤ (5.01 * n + 1.01) * M / 2 ^ 24 := by
  obtain ⟨s, -⟩ := exactSide_abs_le g hp
  have m1 := g.le_scale
  have m2 := g.scale_le
  have n4 : (n : ℝ) ≤ 4 := by exact_mod_cast hn
  have n0 : (0 : ℝ) ≤ n := Nat.cast_nonneg n
  have M0 : 0 < M := lt_of_lt_of_le (by norm_num) m1
  have nM : (n : ℝ) * M ≤ 4 * M := by gcongr
  have nM0 : 0 ≤ (n : ℝ) * M := by positivity
  have s' := (Finset.abs_sum_le_sum_abs (fun i => ((nor i).val : ℝ) * (p i).val) Finset.univ).trans s
  obtain ⟨fx, ex⟩ := accurate_real hx hn g.nor_fin (fun i => (hp i).1) s (by
    norm_num at m2 ⊢
    linarith)
  obtain ⟨f, e⟩ := add_close (E := 4.001 / 2 ^ 24 * (n * M) + 1 / 2 ^ 147) (F := 0) (s := d.val) fx g.d_fin ex (by simp) (by
    have := g.d_le
    generalize |∑ i, ((nor i).val : ℝ) * (p i).val| = A at *
    generalize |(d.val : ℝ)| = B at *
    norm_num at m1 m2 ⊢
    linarith)
  refine ⟨f, e.trans ?_⟩
  have := g.d_le
  generalize |∑ i, ((nor i).val : ℝ) * (p i).val| = A at *
  generalize |(d.val : ℝ)| = B at *
  have e1 : (5.01 * (n : ℝ) + 1.01) * M / 2 ^ 24 = (5.01 * (n * M) + 1.01 * M) / 2 ^ 24 := by ring
  rw [e1]
  generalize (n : ℝ) * M = N at *
  norm_num at m1 m2 ⊢
  linarith

/-- the new corner: close to the plane -/
theorem cut_near (hn : n ≤ 4) (g : PlaneWithin nor d M) (ga : PointWithin a M) (gb : PointWithin b M) {xa xb : F32}
    (ha : AccurateSum xa nor a) (hb : AccurateSum xb nor b) (ka : 0 ≤ (xa + d).val) (kb : (xb + d).val < 0) {c : Fin n → F32}
    (hc : ∀ i, c i = F.mix (a i) (b i) ((xa + d) / ((xa + d) - (xb + d)))) :
    Fraction ((xa + d) / ((xa + d) - (xb + d))) ∧
    PointWithin c ((1 + 6 / 2 ^ 24) * M) ∧ |exactSide nor d fun i => (c i).val| ≤ (12.1 * n + 3.2) * M / 2 ^ 24 := by
  have m1 := g.le_scale
  have m2 := g.scale_le
  have n4 : (n : ℝ) ≤ 4 := by exact_mod_cast hn
  have n0 : (0 : ℝ) ≤ n := Nat.cast_nonneg n
  have M0 : 0 < M := lt_of_lt_of_le (by norm_num) m1
  have nM : (n : ℝ) * M ≤ 4 * M := by gcongr
  have nM0 : 0 ≤ (n : ℝ) * M := by positivity
  obtain ⟨fa, ea⟩ := near_height hn g ga ha
  obtain ⟨fb, eb⟩ := near_height hn g gb hb
  obtain ⟨-, ca⟩ := exactSide_abs_le g ga
  obtain ⟨-, cb⟩ := exactSide_abs_le g gb
  have e1 : (5.01 * (n : ℝ) + 1.01) * M / 2 ^ 24 = (5.01 * (n * M) + 1.01 * M) / 2 ^ 24 := by ring
  have e2 : ((n : ℝ) + 1) * M = n * M + M := by ring
  rw [e1] at ea eb
  rw [e2] at ca cb
  have ua : |((xa + d).val : ℝ)| ≤ 1.001 * (n * M + M) := by
    have := abs_sub_abs_le_abs_sub ((xa + d).val : ℝ) (exactSide nor d fun i => (a i).val)
    generalize |((xa + d).val : ℝ)| = A at *
    generalize |exactSide nor d fun i => ((a i).val : ℝ)| = B at *
    norm_num at ea ⊢
    linarith
  have ub : |((xb + d).val : ℝ)| ≤ 1.001 * (n * M + M) := by
    have := abs_sub_abs_le_abs_sub ((xb + d).val : ℝ) (exactSide nor d fun i => (b i).val)
    generalize |((xb + d).val : ℝ)| = A at *
    generalize |exactSide nor d fun i => ((b i).val : ℝ)| = B at *
    norm_num at eb ⊢
    linarith
  have big : 1.001 * (n * M + M) ≤ 2 ^ 64 := by
    norm_num at m2 ⊢
    linarith
  obtain ⟨hf, ht⟩ := cut_fraction fa fb ka kb (ua.trans big) (ub.trans big)
  refine ⟨hf, ?_⟩
  generalize (xa + d) / ((xa + d) - (xb + d)) = t at *
  have t0 := hf.2.1
  have t1 := hf.2.2
  have ends : ∀ {y : F32}, y.IsFin = true ∧ |(y.val : ℝ)| ≤ M → EndPoint y := fun h => ⟨h.1, h.2.trans (m2.trans (by norm_num))⟩
  have mixE : ∀ i, (c i).IsFin = true ∧ |((c i).val : ℝ) - ((a i).val + t.val * ((b i).val - (a i).val))| ≤ 5.01 * M / 2 ^ 24 ∧
      |((a i).val : ℝ) + t.val * ((b i).val - (a i).val)| ≤ M := fun i => by
    have h := C103_mix (a i) (b i) t (ends (ga i)) (ends (gb i)) hf.1 (by rw [abs_of_nonneg t0]; exact t1)
    rw [← hc i] at h
    obtain ⟨h1, h2⟩ := h
    unfold mixTol wayFrom at h2
    have w : |((a i).val : ℝ) + t.val * ((b i).val - (a i).val)| ≤ M := by
      have p1 := abs_le.1 (ga i).2
      have p2 := abs_le.1 (gb i).2
      rw [abs_le]
      constructor <;> nlinarith
    have v : |(t.val : ℝ) * ((b i).val - (a i).val)| ≤ 2 * M := by
      rw [abs_mul, abs_of_nonneg t0]
      have := (abs_sub ((b i).val : ℝ) (a i).val).trans (add_le_add (gb i).2 (ga i).2)
      calc (t.val : ℝ) * |((b i).val : ℝ) - (a i).val| ≤ 1 * (M + M) := mul_le_mul t1 this (abs_nonneg _) zero_le_one
        _ = _ := by ring
    refine ⟨h1, h2.trans ?_, w⟩
    generalize |((a i).val : ℝ) + t.val * ((b i).val - (a i).val)| = W at *
    generalize |(t.val : ℝ) * ((b i).val - (a i).val)| = V at *
    norm_num at m1 ⊢
    linarith
  refine ⟨fun i => ⟨(mixE i).1, ?_⟩, ?_⟩
  · obtain ⟨-, h1, h2⟩ := mixE i
    have := abs_sub_abs_le_abs_sub ((c i).val : ℝ) ((a i).val + t.val * ((b i).val - (a i).val))
    generalize |((a i).val : ℝ) + t.val * ((b i).val - (a i).val)| = W at *
    generalize |((c i).val : ℝ)| = V at *
    norm_num at h1 ⊢
    linarith
  · have split : exactSide nor d (fun i => ((c i).val : ℝ)) =
        ((1 - t.val) * exactSide nor d (fun i => ((a i).val : ℝ)) + t.val * exactSide nor d (fun i => ((b i).val : ℝ))) +
        ∑ i, ((nor i).val : ℝ) * ((c i).val - ((a i).val + t.val * ((b i).val - (a i).val))) := by
      unfold exactSide
      have : ∑ i, ((nor i).val : ℝ) * ((c i).val - ((a i).val + t.val * ((b i).val - (a i).val))) =
          ∑ i, ((nor i).val : ℝ) * (c i).val - (1 - t.val) * ∑ i, ((nor i).val : ℝ) * (a i).val - t.val * ∑ i, ((nor i).val : ℝ) * (b i).val := by
        rw [Finset.mul_sum, Finset.mul_sum, ← Finset.sum_sub_distrib, ← Finset.sum_sub_distrib]
        exact Finset.sum_congr rfl fun i _ => by ring
      rw [this]
      ring
    have tail : |∑ i, ((nor i).val : ℝ) * ((c i).val - ((a i).val + t.val * ((b i).val - (a i).val)))| ≤ n * (5.01 * M / 2 ^ 24) := by
      refine (Finset.abs_sum_le_sum_abs _ _).trans ?_
      calc ∑ i, |((nor i).val : ℝ) * ((c i).val - ((a i).val + t.val * ((b i).val - (a i).val)))| ≤ ∑ _i : Fin n, 5.01 * M / 2 ^ 24 :=
            Finset.sum_le_sum fun i _ => by
              rw [abs_mul]
              calc _ ≤ 1 * (5.01 * M / 2 ^ 24) := mul_le_mul (g.nor_le i) (mixE i).2.1 (abs_nonneg _) zero_le_one
                _ = _ := one_mul _
        _ = _ := by simp
    rw [split]
    generalize (∑ i, ((nor i).val : ℝ) * ((c i).val - ((a i).val + t.val * ((b i).val - (a i).val)))) = T at *
    generalize exactSide nor d (fun i => ((a i).val : ℝ)) = A at *
    generalize exactSide nor d (fun i => ((b i).val : ℝ)) = B at *
    generalize ((xa + d).val : ℝ) = u at *
    generalize ((xb + d).val : ℝ) = v at *
    have core : |(1 - (t.val : ℝ)) * A + t.val * B - (u - t.val * (u - v))| ≤ (5.01 * (n * M) + 1.01 * M) / 2 ^ 24 := by
      have : (1 - (t.val : ℝ)) * A + t.val * B - (u - t.val * (u - v)) = -((1 - t.val) * (u - A) + t.val * (v - B)) := by ring
      rw [this, abs_neg]
      refine (abs_add_le _ _).trans ?_
      rw [abs_mul, abs_mul, abs_of_nonneg t0, abs_of_nonneg (by linarith : 0 ≤ 1 - (t.val : ℝ))]
      nlinarith
    have fin : |(1 - (t.val : ℝ)) * A + t.val * B + T| ≤ (5.01 * (n * M) + 1.01 * M) / 2 ^ 24 +
        (2.01 / 2 ^ 24 * u + 1 / 2 ^ 150 * (u - v)) + n * (5.01 * M / 2 ^ 24) := by
      have : (1 - (t.val : ℝ)) * A + t.val * B + T =
          ((1 - (t.val : ℝ)) * A + t.val * B - (u - t.val * (u - v))) + (u - t.val * (u - v)) + T := by ring
      rw [this]
      refine (abs_add_le _ _).trans (add_le_add ((abs_add_le _ _).trans (add_le_add core ht)) tail)
    refine fin.trans ?_
    have u1 := (le_abs_self u).trans ua
    have v1 := (neg_le_abs v).trans ub
    have e3 : (12.1 * (n : ℝ) + 3.2) * M / 2 ^ 24 = (12.1 * (n * M) + 3.2 * M) / 2 ^ 24 := by ring
    have e4 : (n : ℝ) * (5.01 * M / 2 ^ 24) = 5.01 * (n * M) / 2 ^ 24 := by ring
    rw [e3, e4]
    generalize (n : ℝ) * M = N at *
    norm_num at m1 ⊢
    linarith

/-- the whole polygon -/
theorem clip_near {P : Type} (coord : P → Fin n → F32) (dot : P → F32) (height : P → F32) (cut : P → P → P)
    (hn : n ≤ 4) (g : PlaneWithin nor d M) (hdot : ∀ p, AccurateSum (dot p) nor (coord p)) (hh : ∀ p, height p = dot p + d)
    (hcut : ∀ a b i, coord (cut a b) i = F.mix (coord a i) (coord b i) (height a / (height a - height b)))
    (ps : List P) (hps : ∀ p ∈ ps, PointWithin (coord p) M) (q : P) (hq : q ∈ clipPolygon height cut ps) :
    PointWithin (coord q) ((1 + 6 / 2 ^ 24) * M) ∧ -((12.1 * n + 3.2) * M / 2 ^ 24) ≤ exactSide nor d fun i => (coord q i).val := by
  have M0 : 0 < M := lt_of_lt_of_le (by norm_num) g.le_scale
  have hfin : ∀ p ∈ ps, (height p).IsFin = true := fun p hp => by
    rw [hh]; exact (near_height hn g (hps p hp) (hdot p)).1
  rcases clip_mem height cut ps q hq with ⟨m, k⟩ | ⟨a, b, m, ka, kb, rfl⟩
  · have k' := (keeps_iff (hfin q m)).1 k
    have e := (near_height hn g (hps q m) (hdot q)).2
    rw [← hh] at e
    have k'' : (0 : ℝ) ≤ (height q).val := by exact_mod_cast k'
    refine ⟨fun i => ⟨(hps q m i).1, (hps q m i).2.trans (by linarith)⟩, ?_⟩
    have e' := (abs_le.1 e).2
    have n0 : (0 : ℝ) ≤ n * M := by positivity
    have e1 : (5.01 * (n : ℝ) + 1.01) * M / 2 ^ 24 = (5.01 * (n * M) + 1.01 * M) / 2 ^ 24 := by ring
    have e3 : (12.1 * (n : ℝ) + 3.2) * M / 2 ^ 24 = (12.1 * (n * M) + 3.2 * M) / 2 ^ 24 := by ring
    rw [e1] at e'
    rw [e3]
    norm_num at e' ⊢
    linarith
  · have mem : a ∈ ps ∧ b ∈ ps := by
      rcases m with m | m
      · exact mem_edges m
      · exact (mem_edges m).symm
    have k1 := (keeps_iff (hfin a mem.1)).1 ka
    have k2 : (height b).val < 0 := by
      by_contra h
      rw [(keeps_iff (hfin b mem.2)).2 (not_lt.1 h)] at kb
      exact Bool.noConfusion kb
    rw [hh] at k1 k2
    obtain ⟨-, h1, h2⟩ := cut_near hn g (hps a mem.1) (hps b mem.2) (hdot a) (hdot b) k1 k2 (c := coord (cut a b)) (fun i => by
      rw [hcut, hh, hh])
    exact ⟨h1, (abs_le.1 h2).1⟩

/-- the new corner is part of the result, of either polygon at the edge -/
theorem cut_mem {P : Type} {height : P → F32} {cut : P → P → P} {ps : List P} {a b : P} (ka : keeps height a = true)
    (kb : keeps height b = false) (h : (a, b) ∈ edges ps ∨ (b, a) ∈ edges ps) : cut a b ∈ clipPolygon height cut ps := by
  unfold clipPolygon
  rw [List.mem_flatMap]
  rcases h with h | h
  · exact ⟨_, h, by unfold clipEdge; rw [if_pos ka, if_neg (by rw [kb]; simp)]; simp⟩
  · exact ⟨_, h, by unfold clipEdge; rw [if_neg (by rw [kb]; simp), if_pos ka]; simp⟩

/-- one new corner -/
theorem clip_corner {P : Type} (coord : P → Fin n → F32) (dot : P → F32) (height : P → F32) (cut : P → P → P)
    (hn : n ≤ 4) (g : PlaneWithin nor d M) (hdot : ∀ p, AccurateSum (dot p) nor (coord p)) (hh : ∀ p, height p = dot p + d)
    (hcut : ∀ a b i, coord (cut a b) i = F.mix (coord a i) (coord b i) (height a / (height a - height b)))
    {a b : P} (ha : PointWithin (coord a) M) (hb : PointWithin (coord b) M) (ka : keeps height a = true) (kb : keeps height b = false) :
    |exactSide nor d fun i => (coord (cut a b) i).val| ≤ (12.1 * n + 3.2) * M / 2 ^ 24 ∧
    ∀ i, (coord a i ≤ coord b i → coord a i ≤ coord (cut a b) i ∧ ((coord (cut a b) i).val : ℝ) ≤ (coord b i).val + 4 * M / 2 ^ 24) ∧
      (coord b i ≤ coord a i → coord (cut a b) i ≤ coord a i ∧ (coord b i).val - 4 * M / 2 ^ 24 ≤ ((coord (cut a b) i).val : ℝ)) := by
  have M0 : 0 < M := lt_of_lt_of_le (by norm_num) g.le_scale
  have m2 := g.scale_le
  have fa : (height a).IsFin = true := by rw [hh]; exact (near_height hn g ha (hdot a)).1
  have fb : (height b).IsFin = true := by rw [hh]; exact (near_height hn g hb (hdot b)).1
  have k1 := (keeps_iff fa).1 ka
  have k2 : (height b).val < 0 := by
    by_contra h
    rw [(keeps_iff fb).2 (not_lt.1 h)] at kb
    exact Bool.noConfusion kb
  rw [hh] at k1 k2
  obtain ⟨hf, -, h2⟩ := cut_near hn g ha hb (hdot a) (hdot b) k1 k2 (c := coord (cut a b)) (fun i => by rw [hcut, hh, hh])
  rw [← hh, ← hh] at hf
  refine ⟨h2, fun i => ?_⟩
  have ends : ∀ {y : F32}, y.IsFin = true ∧ |(y.val : ℝ)| ≤ M → EndPoint y := fun h => ⟨h.1, h.2.trans (m2.trans (by norm_num))⟩
  obtain ⟨-, h3, h4, h5⟩ := C103_mix_between (coord a i) (coord b i) _ _ (ends (ha i)) (ends (hb i)) hf hf
    (le_of_val_le hf.1 hf.1 le_rfl)
  have tol : (|((coord b i).val : ℝ)| + 1.001 * |((coord b i).val : ℝ) - (coord a i).val|) / 2 ^ 24 ≤ 4 * M / 2 ^ 24 := by
    have h6 := (hb i).2
    have h7 := (abs_sub ((coord b i).val : ℝ) (coord a i).val).trans (add_le_add (hb i).2 (ha i).2)
    generalize |((coord b i).val : ℝ) - (coord a i).val| = A at *
    generalize |((coord b i).val : ℝ)| = B at *
    norm_num
    linarith
  have e := abs_le.1 (h3.2.trans tol)
  rw [hcut]
  refine ⟨fun h => ⟨(h4 h).1, ?_⟩, fun h => ⟨(h5 h).1, ?_⟩⟩
  · have := val_le_of_le (h4 h).2.2
    linarith
  · have := val_le_of_le (h5 h).2.2
    linarith

end Zcm.F32
