import Verif.Lemmas.F32Optics

/-!
# Lemmas: `refract` in float arithmetic
-/

set_option exponentiation.threshold 300

namespace Zcm

open F32
open scoped RealInnerProductSpace

/-- the number under the square root in `refract` -/
theorem refract_k {n : ℕ} (hn : n ≤ 4) {d eta : F32} {I N : Fin n → F32} (hd : AccurateSum d N I) (hI : AboutUnit I)
    (hN : AboutUnit N) (fe : eta.IsFin = true) (e0 : 0 ≤ (eta.val : ℝ)) (e1 : (eta.val : ℝ) ≤ 2 ^ 30) :
    (d.IsFin = true ∧ |(d.val : ℝ) - ⟪NormedSpace.normalize (exactE N), NormedSpace.normalize (exactE I)⟫| ≤ 36.1 / 2 ^ 24) ∧
    Near (lit 1 - eta * eta * (lit 1 - d * d))
      (1 - eta.val ^ 2 * (1 - ⟪NormedSpace.normalize (exactE N), NormedSpace.normalize (exactE I)⟫ ^ 2))
      (80 / 2 ^ 24 * (1 + eta.val ^ 2)) := by
  obtain ⟨x1, x2⟩ := aboutUnit_bounds hI
  obtain ⟨y1, y2⟩ := aboutUnit_bounds hN
  have xp : 0 < ‖exactE I‖ := by linarith
  have yp : 0 < ‖exactE N‖ := by linarith
  have m1 : ‖exactE N‖ * ‖exactE I‖ ≤ 1 + 32.001 / 2 ^ 24 := by
    have := mul_le_mul y1 x1 xp.le (by norm_num)
    linarith
  have m2 : 1 - 32.001 / 2 ^ 24 ≤ ‖exactE N‖ * ‖exactE I‖ := by
    have := mul_le_mul y2 x2 (by norm_num) yp.le
    linarith
  obtain ⟨fd, ed⟩ := near_inner hn hd hN.1 hI.1 (by linarith)
  have ei : ⟪exactE N, exactE I⟫ = ‖exactE N‖ * ‖exactE I‖ * ⟪NormedSpace.normalize (exactE N), NormedSpace.normalize (exactE I)⟫ := by
    unfold NormedSpace.normalize
    rw [real_inner_smul_left, real_inner_smul_right]
    field_simp
  have aD : |⟪NormedSpace.normalize (exactE N), NormedSpace.normalize (exactE I)⟫| ≤ 1 := by
    have := abs_real_inner_le_norm (NormedSpace.normalize (exactE N)) (NormedSpace.normalize (exactE I))
    rwa [NormedSpace.norm_normalize (norm_pos_iff.1 yp), NormedSpace.norm_normalize (norm_pos_iff.1 xp), mul_one] at this
  rw [ei] at ed
  generalize ⟪NormedSpace.normalize (exactE N), NormedSpace.normalize (exactE I)⟫ = D at *
  generalize ‖exactE N‖ * ‖exactE I‖ = m at *
  have ed' : |(d.val : ℝ) - D| ≤ 36.1 / 2 ^ 24 := by
    have s : |m * D - D| ≤ 32.001 / 2 ^ 24 := by
      rw [show m * D - D = (m - 1) * D by ring, abs_mul]
      have a : |m - 1| ≤ 32.001 / 2 ^ 24 := abs_le.2 ⟨by linarith, by linarith⟩
      have := mul_le_mul a aD (abs_nonneg _) (by norm_num)
      linarith
    have := abs_sub_le (d.val : ℝ) (m * D) D
    linarith
  refine ⟨⟨fd, ed'⟩, ?_⟩
  have aD2 : |D * D| ≤ 1 := by rw [abs_mul]; nlinarith [abs_nonneg D]
  have one : ((lit 1 : F32).val : ℝ) = 1 := by rw [val_lit_one]; norm_num
  have DD : |D| * |D| ≤ 1 := by rw [← abs_mul]; exact aD2
  obtain ⟨f1, g1⟩ := mul_abs_err (B := 1.0001) fd fd ed' ed' (by nlinarith [abs_nonneg D]) (by norm_num)
  have g1' : |((d * d).val : ℝ) - D * D| ≤ 73.3 / 2 ^ 24 := by linarith
  obtain ⟨f2, g2⟩ := sub_abs_err (r := 1) (E := 0) (B := 2.0001) isFin_lit_one f1 (by rw [one]; simp) g1' (by rw [abs_one]; linarith)
    (by norm_num)
  have g2' : |((lit 1 - d * d).val : ℝ) - (1 - D * D)| ≤ 75.4 / 2 ^ 24 := by linarith
  have S0 : 0 ≤ 1 - D * D := by linarith [(abs_le.1 aD2).2]
  have S1 : 1 - D * D ≤ 1 := by linarith [mul_self_nonneg D]
  obtain ⟨η, hη⟩ : ∃ η : ℝ, η = eta.val := ⟨_, rfl⟩
  rw [← hη] at e0 e1 ⊢
  have aη : |η| = η := abs_of_nonneg e0
  have h2 : η * η ≤ 2 ^ 60 := by nlinarith
  have h20 : 0 ≤ η * η := mul_self_nonneg η
  obtain ⟨f3, g3⟩ := mul_abs_err (r := η) (s := η) (E := 0) (F := 0) (B := η * η) fe fe (by simp [hη]) (by simp [hη]) (by rw [aη]; linarith) (by linarith)
  have g3' : |((eta * eta).val : ℝ) - η * η| ≤ 1 / 2 ^ 24 * (η * η) + 1 / 2 ^ 150 := by linarith
  have aS : |1 - D * D| ≤ 1 := by rw [abs_of_nonneg S0]; exact S1
  obtain ⟨f4, g4⟩ := mul_abs_err (B := 1.0001 * (η * η) + 1 / 2 ^ 149) f3 f2 g3' g2' (by
    rw [abs_of_nonneg h20]
    have := mul_le_mul (le_refl (η * η + (1 / 2 ^ 24 * (η * η) + 1 / 2 ^ 150))) (show |1 - D * D| + 75.4 / 2 ^ 24 ≤ 1 + 75.4 / 2 ^ 24 by linarith)
      (by positivity) (by positivity)
    linarith) (by linarith)
  rw [abs_of_nonneg h20] at g4
  have g4' : |((eta * eta * (lit 1 - d * d)).val : ℝ) - η * η * (1 - D * D)| ≤ 77.5 / 2 ^ 24 * (η * η) + 1 / 2 ^ 140 := by
    have := mul_le_mul_of_nonneg_right aS (show 0 ≤ 1 / 2 ^ 24 * (η * η) + 1 / 2 ^ 150 by positivity)
    refine g4.trans ?_
    linarith
  have aM : |η * η * (1 - D * D)| ≤ η * η := by
    rw [abs_mul, abs_of_nonneg h20]
    exact mul_le_of_le_one_right h20 aS
  obtain ⟨f5, g5⟩ := sub_abs_err (r := 1) (E := 0) (B := 1.0001 + 1.0001 * (η * η)) isFin_lit_one f4 (by rw [one]; simp) g4'
    (by rw [abs_one]; linarith) (by linarith)
  refine ⟨f5, ?_⟩
  have e : (1 : ℝ) - η ^ 2 * (1 - D ^ 2) = 1 - η * η * (1 - D * D) := by ring
  rw [e]
  refine g5.trans ?_
  rw [sq]
  linarith

/-- one component of `refract`: `w` is the computed factor of the normal -/
theorem refract_component {eta w x y : F32} {η W E B : ℝ} (hη : η = eta.val) (e0 : 0 ≤ η) (η1 : η ≤ 2 ^ 8) (fe : eta.IsFin = true)
    (fw : w.IsFin = true) (fx : x.IsFin = true) (fy : y.IsFin = true) (hw : |(w.val : ℝ) - W| ≤ E) (hB : |W| + E ≤ B) (B1 : B ≤ 2 ^ 20)
    (xi : |(x.val : ℝ)| ≤ 2) (yi : |(y.val : ℝ)| ≤ 2) :
    (eta * x - w * y).IsFin = true ∧ |((eta * x - w * y).val : ℝ) - (η * x.val - W * y.val)| ≤
      (E + 2.001 / 2 ^ 24 * B) * |(y.val : ℝ)| + 2.001 / 2 ^ 24 * η * |(x.val : ℝ)| + 1 / 2 ^ 147 := by
  have aη : |η| = η := abs_of_nonneg e0
  have xn := abs_nonneg (x.val : ℝ)
  have yn := abs_nonneg (y.val : ℝ)
  have E0 : 0 ≤ E := (abs_nonneg _).trans hw
  have ηx : η * |(x.val : ℝ)| ≤ 2 ^ 8 * 2 := mul_le_mul η1 xi xn (by norm_num)
  obtain ⟨f3, g3⟩ := mul_abs_err (r := η) (s := x.val) (E := 0) (F := 0) (B := η * |(x.val : ℝ)|) fe fx (by simp [hη])
    (by simp) (by rw [aη]; linarith) (by linarith)
  have g3' : |((eta * x).val : ℝ) - η * x.val| ≤ 1 / 2 ^ 24 * (η * |(x.val : ℝ)|) + 1 / 2 ^ 150 := by linarith
  have b3 : |((eta * x).val : ℝ)| ≤ (1 + 1 / 2 ^ 24) * (η * |(x.val : ℝ)|) + 1 / 2 ^ 150 := by
    have := abs_sub_abs_le_abs_sub ((eta * x).val : ℝ) (η * x.val)
    rw [abs_mul, aη] at this
    linarith
  obtain ⟨f, e⟩ := reflect_component fw f3 fy hw (by
    have := mul_le_mul (hB.trans B1) yi yn (by norm_num)
    refine this.trans ?_
    norm_num) (by linarith)
  refine ⟨f, ?_⟩
  have t := abs_sub_le ((eta * x - w * y).val : ℝ) ((eta * x).val - W * y.val) (η * x.val - W * y.val)
  rw [sub_sub_sub_cancel_right] at t
  have : (E + 2.001 / 2 ^ 24 * (|W| + E)) * |(y.val : ℝ)| ≤ (E + 2.001 / 2 ^ 24 * B) * |(y.val : ℝ)| := by gcongr
  have := mul_nonneg e0 xn
  linarith

/-- the factor of the normal in `refract` -/
theorem refract_factor {eta d k : F32} {η D c : ℝ} (hη : η = eta.val) (e0 : 0 ≤ η) (fe : eta.IsFin = true) (fd : d.IsFin = true)
    (ed : |(d.val : ℝ) - D| ≤ 36.1 / 2 ^ 24) (aD : |D| ≤ 1) (hc : (1 + η) / 2 ^ 8 ≤ c) (c1 : c ≤ 1) (fk : k.IsFin = true)
    (ek : |(k.val : ℝ) - c ^ 2| ≤ 80 / 2 ^ 24 * (1 + η ^ 2)) :
    ¬(k < lit 0) ∧ (eta * d + F.sqrt k).IsFin = true ∧
    |((eta * d + F.sqrt k).val : ℝ) - (η * D + c)| ≤ 38.3 / 2 ^ 24 * η + 80 / 2 ^ 24 * (1 + η ^ 2) / c + 3 / 2 ^ 24 := by
  have η1 : η ≤ 2 ^ 8 := by linarith
  have cp : 0 < c := lt_of_lt_of_le (by positivity) hc
  have c2 : 256 / 2 ^ 24 * (1 + η) ^ 2 ≤ c ^ 2 := by
    have := pow_le_pow_left₀ (by positivity) hc 2
    refine le_trans (le_of_eq ?_) this
    ring
  have kE : 80 / 2 ^ 24 * (1 + η ^ 2) ≤ 80 / 256 * c ^ 2 := by nlinarith
  obtain ⟨k1, k2⟩ := abs_le.1 ek
  have kp : (0 : ℝ) < k.val := by nlinarith
  refine ⟨fun h => ?_, ?_⟩
  · have := key_le_iff.1 (le_of_lt (lt_iff.1 h).2.2)
    rw [val_lit_zero] at this
    have : (k.val : ℝ) ≤ 0 := by exact_mod_cast this
    linarith
  -- the square root
  have es : |Real.sqrt k.val - c| ≤ 80 / 2 ^ 24 * (1 + η ^ 2) / c := by
    rw [le_div_iff₀ cp]
    have s0 := Real.sqrt_nonneg (k.val : ℝ)
    have q : |Real.sqrt k.val - c| * (Real.sqrt k.val + c) = |(k.val : ℝ) - c ^ 2| := by
      rw [← abs_of_nonneg (show 0 ≤ Real.sqrt k.val + c by linarith), ← abs_mul]
      congr 1
      linear_combination Real.sq_sqrt kp.le
    have := mul_le_mul_of_nonneg_left (show c ≤ Real.sqrt k.val + c by linarith) (abs_nonneg (Real.sqrt k.val - c))
    linarith
  obtain ⟨Q, hQ⟩ : ∃ Q : ℝ, Q = 80 / 2 ^ 24 * (1 + η ^ 2) / c := ⟨_, rfl⟩
  rw [← hQ] at es
  have Qc : Q * c = 80 / 2 ^ 24 * (1 + η ^ 2) := by rw [hQ, div_mul_cancel₀ _ cp.ne']
  have Q0 : 0 ≤ Q := by rw [hQ]; positivity
  have Q1 : Q ≤ 80 / 256 * c := by
    rw [hQ, div_le_iff₀ cp]
    linarith
  obtain ⟨s1, s2⟩ := abs_le.1 es
  have c8 : 1 / 2 ^ 8 ≤ c := by linarith
  have cr := (sqrt_correct fk (by exact_mod_cast kp.le)).rel
    (by rw [abs_of_nonneg (Real.sqrt_nonneg _)]; linarith) (by rw [abs_of_nonneg (Real.sqrt_nonneg _)]; linarith)
  rw [abs_of_nonneg (Real.sqrt_nonneg _)] at cr
  have er : |((F.sqrt k).val : ℝ) - c| ≤ Q + 1.4 / 2 ^ 24 := by
    have := abs_sub_le ((F.sqrt k).val : ℝ) (Real.sqrt k.val) c
    have h : |((F.sqrt k).val : ℝ) - Real.sqrt k.val| ≤ Real.sqrt k.val / 2 ^ 24 := cr.2
    linarith
  have fs : (F.sqrt k).IsFin = true := cr.1
  generalize F.sqrt k = sk at *
  have aη : |η| = η := abs_of_nonneg e0
  have ηD : |η * D| ≤ η := by
    rw [abs_mul, aη]; exact mul_le_of_le_one_right e0 aD
  obtain ⟨f1, g1⟩ := mul_abs_err (r := η) (E := 0) (B := 1.0001 * η) fe fd (by simp [hη]) ed (by rw [aη]; nlinarith) (by linarith)
  rw [aη] at g1
  have g1' : |((eta * d).val : ℝ) - η * D| ≤ 37.2 / 2 ^ 24 * η + 1 / 2 ^ 150 := by linarith
  obtain ⟨f2, g2⟩ := add_abs_err (B := 1.0001 * η + 1.4) f1 fs g1' er (by rw [abs_of_pos cp]; linarith) (by linarith)
  exact ⟨f2, by rw [← hQ]; linarith⟩

/-- what `refract` computes when there is no total reflection -/
theorem refract_near {n : ℕ} (hn : n ≤ 4) {d eta : F32} {I N r : Fin n → F32} {T : EuclideanSpace ℝ (Fin n)}
    (hd : AccurateSum d N I) (hI : AboutUnit I) (hN : AboutUnit N) (fe : eta.IsFin = true) (e0 : 0 ≤ (eta.val : ℝ))
    (hT : Snell (NormedSpace.normalize (exactE I)) (NormedSpace.normalize (exactE N)) eta.val T)
    (hc : (1 + eta.val) / 2 ^ 8 ≤ -⟪T, NormedSpace.normalize (exactE N)⟫)
    (hr : ∀ i, r i = eta * I i - (eta * d + F.sqrt (lit 1 - eta * eta * (lit 1 - d * d))) * N i) :
    ¬(lit 1 - eta * eta * (lit 1 - d * d) < lit 0) ∧
    NearE r T ((1 + eta.val) ^ 2 / 2 ^ 17 / -⟪T, NormedSpace.normalize (exactE N)⟫) := by
  obtain ⟨x1, x2⟩ := aboutUnit_bounds hI
  obtain ⟨y1, y2⟩ := aboutUnit_bounds hN
  have xp : 0 < ‖exactE I‖ := by linarith
  have yp : 0 < ‖exactE N‖ := by linarith
  have nI := NormedSpace.norm_normalize (norm_pos_iff.1 xp)
  have nN := NormedSpace.norm_normalize (norm_pos_iff.1 yp)
  obtain ⟨c0, c1, cs, eT⟩ := snell_facts nI nN hT
  obtain ⟨⟨fd, ed⟩, fk, ek⟩ := refract_k hn hd hI hN fe e0 (by linarith)
  have aD : |⟪NormedSpace.normalize (exactE N), NormedSpace.normalize (exactE I)⟫| ≤ 1 := by
    have := abs_real_inner_le_norm (NormedSpace.normalize (exactE N)) (NormedSpace.normalize (exactE I))
    rwa [nI, nN, mul_one] at this
  have sI : NormedSpace.normalize (exactE I) - exactE I = (1 - ‖exactE I‖) • NormedSpace.normalize (exactE I) := by
    rw [sub_smul, one_smul, NormedSpace.norm_smul_normalize]
  have sN : NormedSpace.normalize (exactE N) - exactE N = (1 - ‖exactE N‖) • NormedSpace.normalize (exactE N) := by
    rw [sub_smul, one_smul, NormedSpace.norm_smul_normalize]
  rw [← cs] at ek
  generalize hX : NormedSpace.normalize (exactE I) = X at *
  generalize hY : NormedSpace.normalize (exactE N) = Y at *
  generalize ⟪Y, X⟫ = D at *
  generalize -⟪T, Y⟫ = c at *
  obtain ⟨η, hη⟩ : ∃ η : ℝ, η = eta.val := ⟨_, rfl⟩
  rw [← hη] at e0 ek eT hc ⊢
  have η1 : η ≤ 2 ^ 8 := by linarith
  have cp : 0 < c := lt_of_lt_of_le (by positivity) hc
  obtain ⟨hk, f2, g2⟩ := refract_factor hη e0 fe fd ed aD hc c1 fk ek
  refine ⟨hk, ?_⟩
  obtain ⟨Q, hQ⟩ : ∃ Q : ℝ, Q = 80 / 2 ^ 24 * (1 + η ^ 2) / c := ⟨_, rfl⟩
  have Qc : Q * c = 80 / 2 ^ 24 * (1 + η ^ 2) := by rw [hQ, div_mul_cancel₀ _ cp.ne']
  have Q0 : 0 ≤ Q := by rw [hQ]; positivity
  have Q1 : Q ≤ 80 / 256 * c := by
    have c2 : 256 / 2 ^ 24 * (1 + η) ^ 2 ≤ c ^ 2 := by
      have := pow_le_pow_left₀ (by positivity) hc 2
      refine le_trans (le_of_eq ?_) this
      ring
    rw [hQ, div_le_iff₀ cp]
    nlinarith
  rw [← hQ] at g2
  obtain ⟨Ew, hEw⟩ : ∃ Ew : ℝ, Ew = 38.3 / 2 ^ 24 * η + Q + 3 / 2 ^ 24 := ⟨_, rfl⟩
  rw [← hEw] at g2
  generalize eta * d + F.sqrt (lit 1 - eta * eta * (lit 1 - d * d)) = w at *
  have ηD : |η * D| ≤ η := by
    rw [abs_mul, abs_of_nonneg e0]; exact mul_le_of_le_one_right e0 aD
  have aW : |η * D + c| ≤ η + 1 := by
    refine (abs_add_le _ _).trans ?_
    rw [abs_of_pos cp]
    linarith
  have Ew0 : 0 ≤ Ew := (abs_nonneg _).trans g2
  have Ew1 : |η * D + c| + Ew ≤ 1.0001 * η + 1.4 := by rw [hEw]; linarith
  have key : ∀ i, (r i).IsFin = true ∧ |((r i).val : ℝ) - (η * (I i).val - (η * D + c) * (N i).val)| ≤
      (Ew + 2.001 / 2 ^ 24 * (1.0001 * η + 1.4)) * |((N i).val : ℝ)| + 2.001 / 2 ^ 24 * η * |((I i).val : ℝ)| + 1 / 2 ^ 147 := by
    intro i
    rw [hr]
    have yi := (abs_applyE_le (exactE N) i).trans y1
    have xi := (abs_applyE_le (exactE I) i).trans x1
    rw [exactE_apply] at xi yi
    exact refract_component hη e0 η1 fe f2 (hI.1 i) (hN.1 i) g2 Ew1 (by linarith) (by linarith) (by linarith)
  refine ⟨fun i => (key i).1, ?_⟩
  have nb := normE_le hn (x := exactE r - (η • exactE I - (η * D + c) • exactE N)) (y := exactE N) (z := exactE I)
    (c := Ew + 2.001 / 2 ^ 24 * (1.0001 * η + 1.4)) (d := 2.001 / 2 ^ 24 * η) (t := 1 / 2 ^ 147) (by positivity) (by positivity)
    (by norm_num) fun i => (key i).2
  have tr := norm_sub_le_norm_sub_add_norm_sub (exactE r) (η • exactE I - (η * D + c) • exactE N) T
  have last : ‖η • exactE I - (η * D + c) • exactE N - T‖ ≤ 16 / 2 ^ 24 * η + (η + 1) * (16 / 2 ^ 24) := by
    have : η • exactE I - (η * D + c) • exactE N - T = (η * (‖exactE I‖ - 1)) • X - ((η * D + c) * (‖exactE N‖ - 1)) • Y := by
      rw [eT, mul_smul, mul_smul]
      have a : (‖exactE I‖ - 1) • X = exactE I - X := by rw [← neg_sub X, sI]; module
      have b : (‖exactE N‖ - 1) • Y = exactE N - Y := by rw [← neg_sub Y, sN]; module
      rw [a, b]
      module
    rw [this]
    refine (norm_sub_le _ _).trans ?_
    rw [norm_smul, norm_smul, nI, nN, mul_one, mul_one, Real.norm_eq_abs, Real.norm_eq_abs, abs_mul, abs_mul, abs_of_nonneg e0]
    have a : |‖exactE I‖ - 1| ≤ 16 / 2 ^ 24 := abs_le.2 ⟨by linarith, by linarith⟩
    have b : |‖exactE N‖ - 1| ≤ 16 / 2 ^ 24 := abs_le.2 ⟨by linarith, by linarith⟩
    have := mul_le_mul_of_nonneg_left a e0
    have := mul_le_mul aW b (abs_nonneg _) (by positivity)
    linarith
  have m1 := mul_le_mul_of_nonneg_left y1 (show 0 ≤ Ew + 2.001 / 2 ^ 24 * (1.0001 * η + 1.4) by positivity)
  have m2 := mul_le_mul_of_nonneg_left x1 (show 0 ≤ 2.001 / 2 ^ 24 * η by positivity)
  have total : ‖exactE r - T‖ ≤ 1.00001 * Q + 75 / 2 ^ 24 * η + 23 / 2 ^ 24 := by
    rw [hEw] at m1 nb
    linarith
  refine total.trans ?_
  rw [le_div_iff₀ cp]
  have h1 : (75 / 2 ^ 24 * η + 23 / 2 ^ 24) * c ≤ 75 / 2 ^ 24 * η + 23 / 2 ^ 24 := mul_le_of_le_one_right (by positivity) c1
  nlinarith

/-- total reflection -/
theorem refract_total {n : ℕ} (hn : n ≤ 4) {d eta : F32} {I N : Fin n → F32} (hd : AccurateSum d N I) (hI : AboutUnit I)
    (hN : AboutUnit N) (fe : eta.IsFin = true) (e0 : 0 ≤ (eta.val : ℝ)) (e1 : (eta.val : ℝ) ≤ 2 ^ 30)
    (h : 1 + (1 + eta.val) ^ 2 / 2 ^ 17 ≤
      eta.val ^ 2 * (1 - ⟪NormedSpace.normalize (exactE N), NormedSpace.normalize (exactE I)⟫ ^ 2)) :
    lit 1 - eta * eta * (lit 1 - d * d) < lit 0 := by
  obtain ⟨-, fk, ek⟩ := refract_k hn hd hI hN fe e0 e1
  refine ⟨isFin_ne_nan fk, isFin_ne_nan isFin_lit_zero, ?_⟩
  by_contra h2
  have := key_le_iff.1 (not_lt.1 h2)
  rw [val_lit_zero] at this
  have : (0 : ℝ) ≤ (lit 1 - eta * eta * (lit 1 - d * d)).val := by exact_mod_cast this
  obtain ⟨k1, k2⟩ := abs_le.1 ek
  nlinarith

end Zcm
