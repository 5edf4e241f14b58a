import Verif.Lemmas.F32RaySphere
import Verif.Lemmas.F32Vec3
import Verif.Lemmas.F32Axis
import Verif.Lemmas.SignedZero
import Verif.Spec.Mesh
import Verif.Props.C84
import Mathlib.Data.Real.Basic
import Mathlib.Analysis.Convex.Combination

/-!
# Edge tests in float arithmetic
-/

set_option exponentiation.threshold 300

namespace Zcm

open F32 WithLp

open scoped RealInnerProductSpace

/-- the points of a triangle -/
theorem mem_hull3 {E : Type*} [AddCommGroup E] [Module ℝ E] (a b c x : E) :
    x ∈ convexHull ℝ {a, b, c} ↔ ∃ u v w : ℝ, 0 ≤ u ∧ 0 ≤ v ∧ 0 ≤ w ∧ u + v + w = 1 ∧ u • a + v • b + w • c = x := by
  constructor
  · intro h
    refine convexHull_min (t := {x | ∃ u v w : ℝ, 0 ≤ u ∧ 0 ≤ v ∧ 0 ≤ w ∧ u + v + w = 1 ∧ u • a + v • b + w • c = x}) ?_ ?_ h
    · rintro y (rfl | rfl | rfl)
      · exact ⟨1, 0, 0, by simp⟩
      · exact ⟨0, 1, 0, by simp⟩
      · exact ⟨0, 0, 1, by simp⟩
    · rintro y ⟨u, v, w, h1, h2, h3, h4, rfl⟩ z ⟨u', v', w', h1', h2', h3', h4', rfl⟩ s t hs ht hst
      refine ⟨s * u + t * u', s * v + t * v', s * w + t * w', by positivity, by positivity, by positivity, ?_, by module⟩
      linear_combination s * h4 + t * h4' + hst
  · rintro ⟨u, v, w, h1, h2, h3, h4, rfl⟩
    have := (convex_convexHull ℝ ({a, b, c} : Set E)).sum_mem (t := Finset.univ) (w := ![u, v, w]) (z := ![a, b, c])
      (by intro i _; fin_cases i <;> assumption) (by simpa [Fin.sum_univ_three] using h4)
      (by intro i _; refine subset_convexHull ℝ _ ?_; fin_cases i <;> simp)
    simpa [Fin.sum_univ_three] using this

/-- A region whose border edges pass has a triangle that passes, if for every edge one of the two directions does. -/
theorem region_cover {V : Type} {e : V → V → F32} {S : V → Prop} (h : ∀ a b, S a → S b → lit 0 ≤ e a b ∨ lit 0 ≤ e b a)
    {E : List (V × V)} {T : List (V × V × V)} (r : Region E T) (s : ∀ t ∈ T, S t.1 ∧ S t.2.1 ∧ S t.2.2)
    (b : ∀ x ∈ E, lit 0 ≤ e x.1 x.2) : ∃ t ∈ T, Passes e t := by
  have border : ∀ {E : List (V × V)} {T : List (V × V × V)}, Region E T → (∀ t ∈ T, S t.1 ∧ S t.2.1 ∧ S t.2.2) →
      ∀ x ∈ E, S x.1 ∧ S x.2 := by
    intro E T r
    induction r with
    | triangle a b' c =>
      intro s x hx
      have := s (a, b', c) (by simp)
      simp only [List.mem_cons, List.not_mem_nil, or_false] at hx
      rcases hx with rfl | rfl | rfl
      · exact ⟨this.1, this.2.1⟩
      · exact ⟨this.2.1, this.2.2⟩
      · exact ⟨this.2.2, this.1⟩
    | glue r q ih1 ih2 =>
      intro s x hx
      rcases List.mem_append.1 hx with hx | hx
      · exact ih1 (fun t m => s t (List.mem_append_left _ m)) x (List.mem_cons_of_mem _ hx)
      · exact ih2 (fun t m => s t (List.mem_append_right _ m)) x (List.mem_cons_of_mem _ hx)
    | reorder r p ih => exact fun s x hx => ih s x (p.mem_iff.2 hx)
  induction r with
  | triangle a b' c =>
    exact ⟨_, List.mem_singleton_self _, b (a, b') (by simp), b (b', c) (by simp), b (c, a) (by simp)⟩
  | @glue a b' E F T U r q ih1 ih2 =>
    have s1 := fun t m => s t (List.mem_append_left _ m)
    have s2 := fun t m => s t (List.mem_append_right _ m)
    have k := border r s1 (a, b') (by simp)
    rcases h a b' k.1 k.2 with g | g
    · obtain ⟨t, m, p⟩ := ih1 s1 fun x hx => by
        rcases List.mem_cons.1 hx with rfl | hx
        · exact g
        · exact b x (List.mem_append_left _ hx)
      exact ⟨t, List.mem_append_left _ m, p⟩
    · obtain ⟨t, m, p⟩ := ih2 s2 fun x hx => by
        rcases List.mem_cons.1 hx with rfl | hx
        · exact g
        · exact b x (List.mem_append_right _ hx)
      exact ⟨t, List.mem_append_right _ m, p⟩
  | reorder r p ih => exact ih s fun x hx => b x (p.mem_iff.1 hx)

/-- a polygon is cut into a fan of triangles -/
theorem region_fan {V : Type} (o : V) (xs : List V) : ∀ u x : V, Region ((o, u) :: walk u (x :: xs) o) (fan o u (x :: xs)) := by
  induction xs with
  | nil => exact fun u x => .triangle o u x
  | cons y ys ih =>
    intro u x
    have t : Region ((x, o) :: [(o, u), (u, x)]) [(o, u, x)] := .reorder (.triangle o u x) (List.perm_append_comm (l₁ := [(o, u), (u, x)]) (l₂ := [(x, o)]))
    exact .glue t (ih x y)

theorem mem_fan {V : Type} {o u x : V} {xs : List V} {t : V × V × V} (h : t ∈ fan o u (x :: xs)) :
    t.1 = o ∧ t.2.1 ∈ u :: x :: xs ∧ t.2.2 ∈ u :: x :: xs := by
  induction xs generalizing u x with
  | nil =>
    obtain rfl : t = (o, u, x) := by simpa [fan] using h
    simp
  | cons y ys ih =>
    rcases List.mem_cons.1 h with rfl | h
    · simp
    · obtain ⟨h1, h2, h3⟩ := ih h
      exact ⟨h1, List.mem_cons_of_mem _ h2, List.mem_cons_of_mem _ h3⟩

theorem F32.SameNumber.mulR {x y d : F32} (h : SameNumber x y) (fd : d.IsFin = true) : SameNumber (x * d) (y * d) := by
  rcases h with rfl | ⟨a, b, c, e⟩
  · exact .rfl
  · rw [mul_fin a fd, mul_fin b fd, c, e, zero_mul]
    exact round_same _ _ _

/-- one of two opposite numbers is not negative -/
theorem same_neg_sign {x y : F32} (h : SameNumber y (-x)) (n : x ≠ .nan) : (lit 0 ≤ x ∨ lit 0 ≤ y) ∧ (lit 0 < x → ¬ lit 0 ≤ y) := by
  have z : (lit 0 : F32).key = 0 := by decide +kernel
  have nz : (lit 0 : F32) ≠ .nan := by decide +kernel
  have ky : y.key = -x.key := by
    rcases h with rfl | ⟨a, b, c, d⟩
    · exact key_neg x
    · rw [val_neg, neg_eq_zero] at d
      rw [key_eq_zero.2 c, key_eq_zero.2 d, neg_zero]
  have ny : y ≠ .nan := by
    rcases h with rfl | ⟨a, -⟩
    · rwa [ne_eq, neg_eq_nan]
    · exact isFin_ne_nan a
  constructor
  · rcases le_total 0 x.key with k | k
    · exact .inl ⟨nz, n, by rw [z]; exact k⟩
    · exact .inr ⟨nz, ny, by rw [z, ky]; omega⟩
  · rintro ⟨-, -, k⟩ ⟨-, -, l⟩
    rw [z] at k l
    rw [ky] at l
    omega

/-- what an accurate number tells about the sign -/
theorem near_sign {x : F32} {r e : ℝ} (h : Near x r e) : (e < r → lit 0 < x) ∧ (lit 0 ≤ x → -e ≤ r) := by
  have z : (lit 0 : F32).key = 0 := by decide +kernel
  have nz : (lit 0 : F32) ≠ .nan := by decide +kernel
  have z' : (lit 0 : F32).val = 0 := by decide +kernel
  have k := abs_le.1 h.2
  constructor
  · intro l
    have p : (0 : ℝ) < x.val := by linarith
    refine ⟨nz, isFin_ne_nan h.1, key_lt_iff.2 ?_⟩
    rw [z']; exact_mod_cast p
  · intro l
    have p := key_le_iff.1 l.2.2
    rw [z'] at p
    have p : (0 : ℝ) ≤ x.val := by exact_mod_cast p
    linarith

/-- the two-dimensional edge test -/
theorem near_det2 {a b p q o r : F32} {M : ℝ} (fa : a.IsFin = true) (fb : b.IsFin = true) (fp : p.IsFin = true) (fq : q.IsFin = true)
    (fo : o.IsFin = true) (fr : r.IsFin = true) (hM : M ≤ 2 ^ 50) (ha : |(a.val : ℝ) - o.val| ≤ M) (hb : |(b.val : ℝ) - r.val| ≤ M)
    (hp : |(p.val : ℝ) - o.val| ≤ M) (hq : |(q.val : ℝ) - r.val| ≤ M) :
    Near ((a - o) * (q - r) - (p - o) * (b - r)) ((a.val - o.val) * (q.val - r.val) - (p.val - o.val) * (b.val - r.val))
      (8.1 / 2 ^ 24 * M ^ 2 + 1 / 2 ^ 148) := by
  have M0 : 0 ≤ M := (abs_nonneg _).trans ha
  have ex : ∀ {x : F32}, x.IsFin = true → Near x x.val 0 := fun h => ⟨h, by simp⟩
  have s := fun {x y : F32} (fx : x.IsFin = true) (fy : y.IsFin = true) (h : |(x.val : ℝ) - y.val| ≤ M) =>
    near_minus (ex fx) (ex fy) h (by norm_num; linarith)
  have t := fun {x y u v : F32} (fx : x.IsFin = true) (fy : y.IsFin = true) (fu : u.IsFin = true) (fv : v.IsFin = true)
      (h : |(x.val : ℝ) - y.val| ≤ M) (g : |(u.val : ℝ) - v.val| ≤ M) =>
    near_times (s fx fy h) (s fu fv g) h g (by
      have : M + (0 + 0 + 1 / 2 ^ 24 * (M + 0 + 0)) ≤ 2 ^ 51 := by norm_num; norm_num at hM; linarith
      have z : 0 ≤ M + (0 + 0 + 1 / 2 ^ 24 * (M + 0 + 0)) := by positivity
      calc _ ≤ (2 ^ 51 : ℝ) * 2 ^ 51 := by gcongr
        _ ≤ _ := by norm_num)
  have t1 := t fa fo fq fr ha hq
  have t2 := t fp fo fb fr hp hb
  have pr : ∀ {x y : ℝ}, |x| ≤ M → |y| ≤ M → |x * y| ≤ M ^ 2 := fun h g => by
    rw [abs_mul, pow_two]; exact mul_le_mul h g (abs_nonneg _) M0
  have R : |((a.val : ℝ) - o.val) * (q.val - r.val) - (p.val - o.val) * (b.val - r.val)| ≤ 2 * M ^ 2 := by
    have := abs_sub (((a.val : ℝ) - o.val) * (q.val - r.val)) ((p.val - o.val) * (b.val - r.val))
    linarith [pr ha hq, pr hp hb]
  have M2 : M ^ 2 ≤ 2 ^ 100 := by
    calc M ^ 2 ≤ (2 ^ 50 : ℝ) ^ 2 := by gcongr
      _ = _ := by norm_num
  have e1 : M * (0 + 0 + 1 / 2 ^ 24 * (M + 0 + 0)) + (0 + 0 + 1 / 2 ^ 24 * (M + 0 + 0)) * M +
      (0 + 0 + 1 / 2 ^ 24 * (M + 0 + 0)) * (0 + 0 + 1 / 2 ^ 24 * (M + 0 + 0)) +
      1 / 2 ^ 24 * ((M + (0 + 0 + 1 / 2 ^ 24 * (M + 0 + 0))) * (M + (0 + 0 + 1 / 2 ^ 24 * (M + 0 + 0)))) + 1 / 2 ^ 150 ≤
      3.01 / 2 ^ 24 * M ^ 2 + 1 / 2 ^ 150 := by
    nlinarith [sq_nonneg M]
  have t1 := t1.mono e1
  have t2 := t2.mono e1
  have f := near_minus t1 t2 R (by
    generalize M ^ 2 = Q at *
    norm_num at *
    linarith)
  refine f.mono ?_
  have := sq_nonneg M
  generalize M ^ 2 = Q at *
  norm_num
  linarith

/-- the three-dimensional edge test -/
theorem near_det3 {a b o d : V3 F32} {M : ℝ} (fa : ∀ i, (coord a i).IsFin = true) (fb : ∀ i, (coord b i).IsFin = true)
    (fo : ∀ i, (coord o i).IsFin = true) (fd : ∀ i, (coord d i).IsFin = true) (hM : M ≤ 2 ^ 40) (hd : ‖exactly d‖ ≤ 2 ^ 20)
    (ha : ‖exactly a - exactly o‖ ≤ M) (hb : ‖exactly b - exactly o‖ ≤ M) :
    Near (V3.dot (V3.cross (a - o) (b - o)) d) ⟪cross3 (exactly a - exactly o) (exactly b - exactly o), exactly d⟫
      (9.1 / 2 ^ 24 * M ^ 2 * ‖exactly d‖ + (1 + ‖exactly d‖) / 2 ^ 146) := by
  have M0 : 0 ≤ M := (norm_nonneg _).trans ha
  have s1 := (near_sub fa fo (ha.trans (by norm_num; linarith))).mono (show _ ≤ 1 / 2 ^ 24 * M by gcongr)
  have s2 := (near_sub fb fo (hb.trans (by norm_num; linarith))).mono (show _ ≤ 1 / 2 ^ 24 * M by gcongr)
  have M2 : M ^ 2 ≤ 2 ^ 80 := by
    calc M ^ 2 ≤ (2 ^ 40 : ℝ) ^ 2 := by gcongr
      _ = _ := by norm_num
  have c := s1.cross s2 (A := M * (1 + 1 / 2 ^ 24)) (B := M * (1 + 1 / 2 ^ 24)) (by linarith) (by linarith) (by
    generalize hq : M ^ 2 = Q at *
    rw [show M * (1 + 1 / 2 ^ 24) * (M * (1 + 1 / 2 ^ 24)) = M ^ 2 * (1 + 1 / 2 ^ 24) ^ 2 by ring, hq]
    norm_num at *
    linarith)
  have c := c.mono (show _ ≤ 6.01 / 2 ^ 24 * M ^ 2 + 1 / 2 ^ 147 by
    have k : 1 / 2 ^ 24 * M * ‖exactly b - exactly o‖ ≤ 1 / 2 ^ 24 * M * M := by gcongr
    have := sq_nonneg M
    nlinarith)
  have cn : ‖cross3 (exactly a - exactly o) (exactly b - exactly o)‖ ≤ M ^ 2 := by
    refine (norm_cross3_le _ _).trans ?_
    rw [pow_two]; exact mul_le_mul ha hb (norm_nonneg _) M0
  have D0 := norm_nonneg (exactly d)
  have f := c.dot (NearV.exact fd) (A := M ^ 2 * (1 + 6.01 / 2 ^ 24) + 1 / 2 ^ 147) (B := ‖exactly d‖) (by linarith) (by linarith) (by
    calc _ ≤ (2 ^ 81 : ℝ) * 2 ^ 20 := by
          gcongr
          generalize M ^ 2 = Q at *
          norm_num at *
          linarith
      _ ≤ _ := by norm_num)
  refine ⟨f.1, f.2.trans ?_⟩
  have q := mul_nonneg (sq_nonneg M) D0
  generalize ‖exactly d‖ = D at *
  rw [show (3.001 : ℝ) / 2 ^ 24 * ((M ^ 2 * (1 + 6.01 / 2 ^ 24) + 1 / 2 ^ 147) * D) = 3.001 / 2 ^ 24 * (1 + 6.01 / 2 ^ 24) * (M ^ 2 * D) +
    3.001 / 2 ^ 24 / 2 ^ 147 * D by ring, show ((6.01 : ℝ) / 2 ^ 24 * M ^ 2 + 1 / 2 ^ 147) * D = 6.01 / 2 ^ 24 * (M ^ 2 * D) + 1 / 2 ^ 147 * D by ring,
    show (9.1 : ℝ) / 2 ^ 24 * M ^ 2 * D = 9.1 / 2 ^ 24 * (M ^ 2 * D) by ring]
  generalize M ^ 2 * D = W at *
  norm_num at *
  linarith

end Zcm
