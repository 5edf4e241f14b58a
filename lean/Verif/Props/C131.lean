import Verif.Spec.Coord
import Verif.Model.Vec
import Verif.Model.Mat
import Verif.Model.QuatBasic
import Verif.Lemmas.F32Accumulate

/-!
# C131  Long sums, products and counters in IEEE arithmetic

What a loop of `+=`, `*=` or `++` computes in binary32, for any number of rounds.
-/

set_option exponentiation.threshold 300

namespace Zcm

open F32

theorem mean_bound {x m : F32} {l : List F32} (hx : AccurateTotal x l) (hl : 0 < l.length) (fm : m.IsFin = true)
    (hm : m.val = l.length) (fl : ∀ a ∈ l, a.IsFin = true) (hT : (1 + 1 / 2 ^ 24) ^ l.length * totalSize l ≤ 2 ^ 127) :
    (x / m).IsFin = true ∧
      |(x / m).val - exactTotal l / l.length| ≤ ((1 + 1 / 2 ^ 24) ^ l.length - 1) * (totalSize l / l.length) + 1 / 2 ^ 150 := by
  have n1 : (1 : ℚ) ≤ l.length := by exact_mod_cast hl
  have e : (1 + 1 / 2 ^ 24 : ℚ) ^ l.length = (1 + 1 / 2 ^ 24) ^ (l.length - 1) * (1 + 1 / 2 ^ 24) := by
    rw [← pow_succ, Nat.sub_add_cancel hl]
  have g1 : (1 : ℚ) ≤ (1 + 1 / 2 ^ 24) ^ (l.length - 1) := one_le_pow₀ (by norm_num)
  have T0 := totalSize_nonneg l
  have A : |exactTotal l| ≤ totalSize l := by
    clear * -
    induction l with
    | nil => simp [exactTotal, totalSize]
    | cons a l ih =>
      have h1 : exactTotal (a :: l) = a.val + exactTotal l := by simp [exactTotal]
      have h2 : totalSize (a :: l) = |a.val| + totalSize l := by simp [totalSize]
      rw [h1, h2]
      exact (abs_add_le _ _).trans (add_le_add le_rfl ih)
  obtain ⟨h1, h2⟩ := hx
  rw [e] at hT ⊢
  generalize ((1 : ℚ) + 1 / 2 ^ 24) ^ (l.length - 1) = g at *
  generalize totalSize l = T at *
  generalize exactTotal l = E at *
  generalize (l.length : ℚ) = n at *
  have fx := h1 fl (by nlinarith)
  have d := h2 fx
  have n0 : 0 < n := by linarith
  have m0 : m.val ≠ 0 := by rw [hm]; exact n0.ne'
  have ax : |x.val| ≤ g * T := by
    have := abs_sub_abs_le_abs_sub x.val E
    linarith
  have q : |x.val / m.val| ≤ g * (T / n) := by
    rw [hm, abs_div, abs_of_pos n0, ← mul_div_assoc]
    gcongr
  have Tn : T / n ≤ T := div_le_self T0 n1
  have Tn0 : 0 ≤ T / n := div_nonneg T0 n0.le
  have f : (x / m).IsFin = true := by
    rw [div_fin fx fm m0]
    apply isFin_round
    have : g * (T / n) ≤ g * T := by gcongr
    norm_num at *
    nlinarith
  refine ⟨f, ?_⟩
  have r := round_error (s := x.sgn ^^ m.sgn) (x := x.val / m.val) (by rw [← div_fin fx fm m0]; exact f)
  rw [← div_fin fx fm m0] at r
  have t := abs_sub_le (x / m).val (x.val / m.val) (E / n)
  have u : |x.val / m.val - E / n| ≤ (g - 1) * (T / n) := by
    rw [hm, ← sub_div, abs_div, abs_of_pos n0, ← mul_div_assoc]
    gcongr
  have : |x.val / m.val| / 2 ^ 24 ≤ g * (T / n) / 2 ^ 24 := by gcongr
  linarith

theorem product_bound {p : F32} {s : List F32} (hn : s.length ≤ 2 ^ 20) (fp : p.IsFin = true) (fs : ∀ a ∈ s, a.IsFin = true)
    (hb : ∀ j ≤ s.length, 1 / 2 ^ 100 ≤ |p.val * exactProduct (s.take j)| ∧ |p.val * exactProduct (s.take j)| ≤ 2 ^ 100) :
    (s.foldl (· * ·) p).IsFin = true ∧
      |(s.foldl (· * ·) p).val - p.val * exactProduct s| ≤ ((1 + 1 / 2 ^ 24) ^ s.length - 1) * |p.val * exactProduct s| := by
  have := fold_mul s p p.val 0 (by simpa using Rel.exact fp) (by omega) fs (fun j hj => by
    obtain ⟨h0, h1⟩ := hb j hj
    have h0' := (Rat.cast_le (K := ℝ)).2 h0
    have h1' := (Rat.cast_le (K := ℝ)).2 h1
    push_cast at h0' h1'
    exact ⟨h0', h1'⟩)
  refine ⟨this.fin, ?_⟩
  have e := this.err
  rw [Nat.zero_add] at e
  apply (Rat.cast_le (K := ℝ)).1
  push_cast
  exact e

/-! ## vec2 -/

/-- C131, vec2: after `p += v;` for every `v` of a list, each component is an accurate sum. -/
theorem C131_sum_vec2 (p : V2 F32) (vs : List (V2 F32)) (i : Fin 2) :
    AccurateTotal (coord (vs.foldl V2.addAssign p) i) (coord p i :: vs.map fun v => coord v i) := by
  have : ∀ p : V2 F32, coord (vs.foldl V2.addAssign p) i = (vs.map fun v => coord v i).foldl (· + ·) (coord p i) := by
    induction vs with
    | nil => exact fun _ => rfl
    | cons v vs ih =>
      intro p
      rw [List.foldl_cons, ih, List.map_cons, List.foldl_cons]
      congr 1
      fin_cases i <;> rfl
  rw [this]
  exact fold_add _ _

/-- C131, vec2: the mean of a list: sum divided by the number of vectors. -/
theorem C131_mean_vec2 (p : V2 F32) (vs : List (V2 F32)) (m : F32) (fm : m.IsFin = true) (hm : m.val = (vs.length + 1 : ℕ))
    (i : Fin 2) (fl : ∀ v ∈ p :: vs, (coord v i).IsFin = true)
    (hT : (1 + 1 / 2 ^ 24) ^ (vs.length + 1) * totalSize ((p :: vs).map fun v => coord v i) ≤ 2 ^ 127) :
    (coord (vs.foldl V2.addAssign p / m) i).IsFin = true ∧
      |(coord (vs.foldl V2.addAssign p / m) i).val - exactTotal ((p :: vs).map fun v => coord v i) / (vs.length + 1 : ℕ)| ≤
        ((1 + 1 / 2 ^ 24) ^ (vs.length + 1) - 1) * (totalSize ((p :: vs).map fun v => coord v i) / (vs.length + 1 : ℕ)) + 1 / 2 ^ 150 := by
  have e : coord (vs.foldl V2.addAssign p / m) i = coord (vs.foldl V2.addAssign p) i / m := by fin_cases i <;> rfl
  have h := mean_bound (m := m) (C131_sum_vec2 p vs i) (by simp) fm (by rw [hm]; simp) (by simpa using fl) (by simpa using hT)
  rw [e]
  simpa using h

/-- C131, vec2: after `p *= s;` for every `s` of a list of up to `2^20` numbers, as long as the exact partial products neither
overflow nor underflow. -/
theorem C131_product_vec2 (p : V2 F32) (s : List F32) (hn : s.length ≤ 2 ^ 20) (i : Fin 2) (fp : (coord p i).IsFin = true)
    (fs : ∀ a ∈ s, a.IsFin = true)
    (hb : ∀ j ≤ s.length, 1 / 2 ^ 100 ≤ |(coord p i).val * exactProduct (s.take j)| ∧
      |(coord p i).val * exactProduct (s.take j)| ≤ 2 ^ 100) :
    (coord (s.foldl V2.mulAssignS p) i).IsFin = true ∧
      |(coord (s.foldl V2.mulAssignS p) i).val - (coord p i).val * exactProduct s| ≤
        ((1 + 1 / 2 ^ 24) ^ s.length - 1) * |(coord p i).val * exactProduct s| := by
  have : ∀ p : V2 F32, coord (s.foldl V2.mulAssignS p) i = s.foldl (· * ·) (coord p i) := by
    clear hn fs hb fp
    induction s with
    | nil => exact fun _ => rfl
    | cons v s ih =>
      intro p
      rw [List.foldl_cons, ih, List.foldl_cons]
      congr 1
      fin_cases i <;> rfl
  rw [this]
  exact product_bound hn fp fs hb

/-- C131, vec2: a counter stops at `2^24`: after `n` times `++v` (or `v++`), starting at zero, each component is `n` or
16777216, whichever is smaller. -/
theorem C131_counter_vec2 (n : ℕ) (i : Fin 2) :
    IsInt (coord ((fun v : V2 F32 => (V2.preInc v).1)^[n] (V2.splat (lit 0))) i) (min n (2 ^ 24) : ℕ) ∧
    IsInt (coord ((fun v : V2 F32 => (V2.postInc v).1)^[n] (V2.splat (lit 0))) i) (min n (2 ^ 24) : ℕ) := by
  have k1 : ∀ k, coord ((fun v : V2 F32 => (V2.preInc v).1)^[k] (V2.splat (lit 0))) i = (fun x : F32 => x + lit 1)^[k] (lit 0) := by
    intro k
    induction k with
    | zero => fin_cases i <;> rfl
    | succ k ih =>
      rw [Function.iterate_succ_apply', Function.iterate_succ_apply', ← ih]
      fin_cases i <;> rfl
  have k2 : ∀ k, coord ((fun v : V2 F32 => (V2.postInc v).1)^[k] (V2.splat (lit 0))) i = (fun x : F32 => x + lit 1)^[k] (lit 0) := by
    intro k
    induction k with
    | zero => fin_cases i <;> rfl
    | succ k ih =>
      rw [Function.iterate_succ_apply', Function.iterate_succ_apply', ← ih]
      fin_cases i <;> rfl
  rw [k1, k2]
  exact ⟨counter n, counter n⟩

/-! ## vec3 -/

/-- C131, vec3: after `p += v;` for every `v` of a list, each component is an accurate sum. -/
theorem C131_sum_vec3 (p : V3 F32) (vs : List (V3 F32)) (i : Fin 3) :
    AccurateTotal (coord (vs.foldl V3.addAssign p) i) (coord p i :: vs.map fun v => coord v i) := by
  have : ∀ p : V3 F32, coord (vs.foldl V3.addAssign p) i = (vs.map fun v => coord v i).foldl (· + ·) (coord p i) := by
    induction vs with
    | nil => exact fun _ => rfl
    | cons v vs ih =>
      intro p
      rw [List.foldl_cons, ih, List.map_cons, List.foldl_cons]
      congr 1
      fin_cases i <;> rfl
  rw [this]
  exact fold_add _ _

/-- C131, vec3: the mean of a list: sum divided by the number of vectors. -/
theorem C131_mean_vec3 (p : V3 F32) (vs : List (V3 F32)) (m : F32) (fm : m.IsFin = true) (hm : m.val = (vs.length + 1 : ℕ))
    (i : Fin 3) (fl : ∀ v ∈ p :: vs, (coord v i).IsFin = true)
    (hT : (1 + 1 / 2 ^ 24) ^ (vs.length + 1) * totalSize ((p :: vs).map fun v => coord v i) ≤ 2 ^ 127) :
    (coord (vs.foldl V3.addAssign p / m) i).IsFin = true ∧
      |(coord (vs.foldl V3.addAssign p / m) i).val - exactTotal ((p :: vs).map fun v => coord v i) / (vs.length + 1 : ℕ)| ≤
        ((1 + 1 / 2 ^ 24) ^ (vs.length + 1) - 1) * (totalSize ((p :: vs).map fun v => coord v i) / (vs.length + 1 : ℕ)) + 1 / 2 ^ 150 := by
  have e : coord (vs.foldl V3.addAssign p / m) i = coord (vs.foldl V3.addAssign p) i / m := by fin_cases i <;> rfl
  have h := mean_bound (m := m) (C131_sum_vec3 p vs i) (by simp) fm (by rw [hm]; simp) (by simpa using fl) (by simpa using hT)
  rw [e]
  simpa using h

/-- C131, vec3: after `p *= s;` for every `s` of a list of up to `2^20` numbers, as long as the exact partial products neither
overflow nor underflow. -/
theorem C131_product_vec3 (p : V3 F32) (s : List F32) (hn : s.length ≤ 2 ^ 20) (i : Fin 3) (fp : (coord p i).IsFin = true)
    (fs : ∀ a ∈ s, a.IsFin = true)
    (hb : ∀ j ≤ s.length, 1 / 2 ^ 100 ≤ |(coord p i).val * exactProduct (s.take j)| ∧
      |(coord p i).val * exactProduct (s.take j)| ≤ 2 ^ 100) :
    (coord (s.foldl V3.mulAssignS p) i).IsFin = true ∧
      |(coord (s.foldl V3.mulAssignS p) i).val - (coord p i).val * exactProduct s| ≤
        ((1 + 1 / 2 ^ 24) ^ s.length - 1) * |(coord p i).val * exactProduct s| := by
  have : ∀ p : V3 F32, coord (s.foldl V3.mulAssignS p) i = s.foldl (· * ·) (coord p i) := by
    clear hn fs hb fp
    induction s with
    | nil => exact fun _ => rfl
    | cons v s ih =>
      intro p
      rw [List.foldl_cons, ih, List.foldl_cons]
      congr 1
      fin_cases i <;> rfl
  rw [this]
  exact product_bound hn fp fs hb

/-- C131, vec3: a counter stops at `2^24`: after `n` times `++v` (or `v++`), starting at zero, each component is `n` or
16777216, whichever is smaller. -/
theorem C131_counter_vec3 (n : ℕ) (i : Fin 3) :
    IsInt (coord ((fun v : V3 F32 => (V3.preInc v).1)^[n] (V3.splat (lit 0))) i) (min n (2 ^ 24) : ℕ) ∧
    IsInt (coord ((fun v : V3 F32 => (V3.postInc v).1)^[n] (V3.splat (lit 0))) i) (min n (2 ^ 24) : ℕ) := by
  have k1 : ∀ k, coord ((fun v : V3 F32 => (V3.preInc v).1)^[k] (V3.splat (lit 0))) i = (fun x : F32 => x + lit 1)^[k] (lit 0) := by
    intro k
    induction k with
    | zero => fin_cases i <;> rfl
    | succ k ih =>
      rw [Function.iterate_succ_apply', Function.iterate_succ_apply', ← ih]
      fin_cases i <;> rfl
  have k2 : ∀ k, coord ((fun v : V3 F32 => (V3.postInc v).1)^[k] (V3.splat (lit 0))) i = (fun x : F32 => x + lit 1)^[k] (lit 0) := by
    intro k
    induction k with
    | zero => fin_cases i <;> rfl
    | succ k ih =>
      rw [Function.iterate_succ_apply', Function.iterate_succ_apply', ← ih]
      fin_cases i <;> rfl
  rw [k1, k2]
  exact ⟨counter n, counter n⟩

/-! ## vec4 -/

/-- C131, vec4: after `p += v;` for every `v` of a list, each component is an accurate sum. -/
theorem C131_sum_vec4 (p : V4 F32) (vs : List (V4 F32)) (i : Fin 4) :
    AccurateTotal (coord (vs.foldl V4.addAssign p) i) (coord p i :: vs.map fun v => coord v i) := by
  have : ∀ p : V4 F32, coord (vs.foldl V4.addAssign p) i = (vs.map fun v => coord v i).foldl (· + ·) (coord p i) := by
    induction vs with
    | nil => exact fun _ => rfl
    | cons v vs ih =>
      intro p
      rw [List.foldl_cons, ih, List.map_cons, List.foldl_cons]
      congr 1
      fin_cases i <;> rfl
  rw [this]
  exact fold_add _ _

/-- C131, vec4: the mean of a list: sum divided by the number of vectors. -/
theorem C131_mean_vec4 (p : V4 F32) (vs : List (V4 F32)) (m : F32) (fm : m.IsFin = true) (hm : m.val = (vs.length + 1 : ℕ))
    (i : Fin 4) (fl : ∀ v ∈ p :: vs, (coord v i).IsFin = true)
    (hT : (1 + 1 / 2 ^ 24) ^ (vs.length + 1) * totalSize ((p :: vs).map fun v => coord v i) ≤ 2 ^ 127) :
    (coord (vs.foldl V4.addAssign p / m) i).IsFin = true ∧
      |(coord (vs.foldl V4.addAssign p / m) i).val - exactTotal ((p :: vs).map fun v => coord v i) / (vs.length + 1 : ℕ)| ≤
        ((1 + 1 / 2 ^ 24) ^ (vs.length + 1) - 1) * (totalSize ((p :: vs).map fun v => coord v i) / (vs.length + 1 : ℕ)) + 1 / 2 ^ 150 := by
  have e : coord (vs.foldl V4.addAssign p / m) i = coord (vs.foldl V4.addAssign p) i / m := by fin_cases i <;> rfl
  have h := mean_bound (m := m) (C131_sum_vec4 p vs i) (by simp) fm (by rw [hm]; simp) (by simpa using fl) (by simpa using hT)
  rw [e]
  simpa using h

/-- C131, vec4: after `p *= s;` for every `s` of a list of up to `2^20` numbers, as long as the exact partial products neither
overflow nor underflow. -/
theorem C131_product_vec4 (p : V4 F32) (s : List F32) (hn : s.length ≤ 2 ^ 20) (i : Fin 4) (fp : (coord p i).IsFin = true)
    (fs : ∀ a ∈ s, a.IsFin = true)
    (hb : ∀ j ≤ s.length, 1 / 2 ^ 100 ≤ |(coord p i).val * exactProduct (s.take j)| ∧
      |(coord p i).val * exactProduct (s.take j)| ≤ 2 ^ 100) :
    (coord (s.foldl V4.mulAssignS p) i).IsFin = true ∧
      |(coord (s.foldl V4.mulAssignS p) i).val - (coord p i).val * exactProduct s| ≤
        ((1 + 1 / 2 ^ 24) ^ s.length - 1) * |(coord p i).val * exactProduct s| := by
  have : ∀ p : V4 F32, coord (s.foldl V4.mulAssignS p) i = s.foldl (· * ·) (coord p i) := by
    clear hn fs hb fp
    induction s with
    | nil => exact fun _ => rfl
    | cons v s ih =>
      intro p
      rw [List.foldl_cons, ih, List.foldl_cons]
      congr 1
      fin_cases i <;> rfl
  rw [this]
  exact product_bound hn fp fs hb

/-- C131, vec4: a counter stops at `2^24`: after `n` times `++v` (or `v++`), starting at zero, each component is `n` or
16777216, whichever is smaller. -/
theorem C131_counter_vec4 (n : ℕ) (i : Fin 4) :
    IsInt (coord ((fun v : V4 F32 => (V4.preInc v).1)^[n] (V4.splat (lit 0))) i) (min n (2 ^ 24) : ℕ) ∧
    IsInt (coord ((fun v : V4 F32 => (V4.postInc v).1)^[n] (V4.splat (lit 0))) i) (min n (2 ^ 24) : ℕ) := by
  have k1 : ∀ k, coord ((fun v : V4 F32 => (V4.preInc v).1)^[k] (V4.splat (lit 0))) i = (fun x : F32 => x + lit 1)^[k] (lit 0) := by
    intro k
    induction k with
    | zero => fin_cases i <;> rfl
    | succ k ih =>
      rw [Function.iterate_succ_apply', Function.iterate_succ_apply', ← ih]
      fin_cases i <;> rfl
  have k2 : ∀ k, coord ((fun v : V4 F32 => (V4.postInc v).1)^[k] (V4.splat (lit 0))) i = (fun x : F32 => x + lit 1)^[k] (lit 0) := by
    intro k
    induction k with
    | zero => fin_cases i <;> rfl
    | succ k ih =>
      rw [Function.iterate_succ_apply', Function.iterate_succ_apply', ← ih]
      fin_cases i <;> rfl
  rw [k1, k2]
  exact ⟨counter n, counter n⟩

/-- C131, quat: after `x += a;` for every variable `a` of a list of variables other than `x`, each component is an accurate sum. -/
theorem C131_sum_quat (σ : Store (Quat F32)) (x : ℕ) (as : List ℕ) (ha : ∀ a ∈ as, a ≠ x) (i : Fin 4) :
    AccurateTotal (coord ((as.foldl (fun σ a => Quat.addAssign σ x a) σ) x) i) (coord (σ x) i :: as.map fun a => coord (σ a) i) := by
  have : ∀ σ : Store (Quat F32), coord ((as.foldl (fun σ a => Quat.addAssign σ x a) σ) x) i =
      (as.map fun a => coord (σ a) i).foldl (· + ·) (coord (σ x) i) := by
    induction as with
    | nil => exact fun _ => rfl
    | cons b as ih =>
      intro σ
      have hb : b ≠ x := ha b (by simp)
      rw [List.foldl_cons, ih (fun a h => ha a (by simp [h])), List.map_cons, List.foldl_cons]
      have e1 : coord ((Quat.addAssign σ x b) x) i = coord (σ x) i + coord (σ b) i := by
        unfold Quat.addAssign
        simp only [Function.update_self, Function.update_of_ne hb]
        fin_cases i <;> rfl
      have e2 : (as.map fun a => coord ((Quat.addAssign σ x b) a) i) = as.map fun a => coord (σ a) i := by
        refine List.map_congr_left fun a h => ?_
        have hax : a ≠ x := ha a (by simp [h])
        unfold Quat.addAssign
        simp only [Function.update_of_ne hax]
      rw [e1, e2]
  rw [this]
  exact fold_add _ _

/-- C131, mat2: after `x += a;` for every variable `a` of a list of variables other than `x`, each entry is an accurate sum. -/
theorem C131_sum_mat2 (σ : Store (M2 F32)) (x : ℕ) (as : List ℕ) (ha : ∀ a ∈ as, a ≠ x) (c r : Fin 2) :
    AccurateTotal (entry ((as.foldl (fun σ a => M2.addAssign σ x a) σ) x) c r) (entry (σ x) c r :: as.map fun a => entry (σ a) c r) := by
  have : ∀ σ : Store (M2 F32), entry ((as.foldl (fun σ a => M2.addAssign σ x a) σ) x) c r =
      (as.map fun a => entry (σ a) c r).foldl (· + ·) (entry (σ x) c r) := by
    induction as with
    | nil => exact fun _ => rfl
    | cons b as ih =>
      intro σ
      have hb : b ≠ x := ha b (by simp)
      rw [List.foldl_cons, ih (fun a h => ha a (by simp [h])), List.map_cons, List.foldl_cons]
      have e1 : entry ((M2.addAssign σ x b) x) c r = entry (σ x) c r + entry (σ b) c r := by
        unfold M2.addAssign
        simp only [Function.update_self, Function.update_of_ne hb]
        fin_cases c <;> fin_cases r <;> rfl
      have e2 : (as.map fun a => entry ((M2.addAssign σ x b) a) c r) = as.map fun a => entry (σ a) c r := by
        refine List.map_congr_left fun a h => ?_
        have hax : a ≠ x := ha a (by simp [h])
        unfold M2.addAssign
        simp only [Function.update_of_ne hax]
      rw [e1, e2]
  rw [this]
  exact fold_add _ _

/-- C131, mat3: after `x += a;` for every variable `a` of a list of variables other than `x`, each entry is an accurate sum. -/
theorem C131_sum_mat3 (σ : Store (M3 F32)) (x : ℕ) (as : List ℕ) (ha : ∀ a ∈ as, a ≠ x) (c r : Fin 3) :
    AccurateTotal (entry ((as.foldl (fun σ a => M3.addAssign σ x a) σ) x) c r) (entry (σ x) c r :: as.map fun a => entry (σ a) c r) := by
  have : ∀ σ : Store (M3 F32), entry ((as.foldl (fun σ a => M3.addAssign σ x a) σ) x) c r =
      (as.map fun a => entry (σ a) c r).foldl (· + ·) (entry (σ x) c r) := by
    induction as with
    | nil => exact fun _ => rfl
    | cons b as ih =>
      intro σ
      have hb : b ≠ x := ha b (by simp)
      rw [List.foldl_cons, ih (fun a h => ha a (by simp [h])), List.map_cons, List.foldl_cons]
      have e1 : entry ((M3.addAssign σ x b) x) c r = entry (σ x) c r + entry (σ b) c r := by
        unfold M3.addAssign
        simp only [Function.update_self, Function.update_of_ne hb]
        fin_cases c <;> fin_cases r <;> rfl
      have e2 : (as.map fun a => entry ((M3.addAssign σ x b) a) c r) = as.map fun a => entry (σ a) c r := by
        refine List.map_congr_left fun a h => ?_
        have hax : a ≠ x := ha a (by simp [h])
        unfold M3.addAssign
        simp only [Function.update_of_ne hax]
      rw [e1, e2]
  rw [this]
  exact fold_add _ _

/-- C131, mat4: after `x += a;` for every variable `a` of a list of variables other than `x`, each entry is an accurate sum. -/
theorem C131_sum_mat4 (σ : Store (M4 F32)) (x : ℕ) (as : List ℕ) (ha : ∀ a ∈ as, a ≠ x) (c r : Fin 4) :
    AccurateTotal (entry ((as.foldl (fun σ a => M4.addAssign σ x a) σ) x) c r) (entry (σ x) c r :: as.map fun a => entry (σ a) c r) := by
  have : ∀ σ : Store (M4 F32), entry ((as.foldl (fun σ a => M4.addAssign σ x a) σ) x) c r =
      (as.map fun a => entry (σ a) c r).foldl (· + ·) (entry (σ x) c r) := by
    induction as with
    | nil => exact fun _ => rfl
    | cons b as ih =>
      intro σ
      have hb : b ≠ x := ha b (by simp)
      rw [List.foldl_cons, ih (fun a h => ha a (by simp [h])), List.map_cons, List.foldl_cons]
      have e1 : entry ((M4.addAssign σ x b) x) c r = entry (σ x) c r + entry (σ b) c r := by
        unfold M4.addAssign
        simp only [Function.update_self, Function.update_of_ne hb]
        fin_cases c <;> fin_cases r <;> rfl
      have e2 : (as.map fun a => entry ((M4.addAssign σ x b) a) c r) = as.map fun a => entry (σ a) c r := by
        refine List.map_congr_left fun a h => ?_
        have hax : a ≠ x := ha a (by simp [h])
        unfold M4.addAssign
        simp only [Function.update_of_ne hax]
      rw [e1, e2]
  rw [this]
  exact fold_add _ _

/-! ## Non-vacuity -/

/-- three vectors and their mean, four factors, and a counter -/
example : (∀ v ∈ [(⟨lit 1, lit 2⟩ : V2 F32), ⟨lit 3, lit (-4)⟩, ⟨lit (1 / 2), lit 7⟩], ∀ i, (coord v i).IsFin = true) ∧
    (1 + 1 / 2 ^ 24) ^ 3 * totalSize [lit 2, lit (-4), lit 7] ≤ 2 ^ 127 ∧ ((lit 3 : F32).val = (2 + 1 : ℕ)) ∧
    (∀ j ≤ [lit 2, lit (1 / 2), lit (-3), (lit 7 : F32)].length,
      1 / 2 ^ 100 ≤ |(lit 5 : F32).val * exactProduct ([lit 2, lit (1 / 2), lit (-3), lit 7].take j)| ∧
      |(lit 5 : F32).val * exactProduct ([lit 2, lit (1 / 2), lit (-3), lit 7].take j)| ≤ 2 ^ 100) := by
  refine ⟨by decide +kernel, by decide +kernel, by decide +kernel, by decide +kernel⟩

end Zcm
