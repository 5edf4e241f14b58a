import Verif.Lemmas.AngleAxis

/-!
# C65: quaternion `rotate`

Exact arithmetic.
-/

namespace Zcm

/-- C65: for a non-zero axis (`k * n` with a unit vector `n` and `k > 0`) `rotate(q, a, v)` keeps the
length of `q`, and for a unit `q` it rotates by `a` about `v` first (Rodrigues' formula) and then by
`q`. -/
theorem C65_rotate (q : Quat ℝ) (a k : ℝ) (n : V3 ℝ) (hn : V3.length n = 1) (hk : 0 < k) :
    Quat.rotate q a (k * n) = q * Quat.angleAxis a n ∧
    Quat.length (Quat.rotate q a (k * n)) = Quat.length q ∧
    (Quat.length q = 1 → ∀ p : V3 ℝ, Quat.rotate q a (k * n) * p =
      q * (Real.cos a * p + Real.sin a * V3.cross n p + ((1 - Real.cos a) * V3.dot n p) * n)) := by
  have hn' := V3.dot_self_of_length hn
  have e : Quat.rotate q a (k * n) = q * Quat.angleAxis a n := by
    show q * Quat.angleAxis a (V3.normalize (k * n)) = _
    rw [V3.normalize_smul_unit hn hk]
  have hl := Quat.length_angleAxis (a := a) hn
  refine ⟨e, ?_, ?_⟩
  · rw [e, ← ham_norm, ham_mul, norm_mul, ham_norm, ham_norm, hl, mul_one]
  · intro hq p
    rw [e, ← Quat.angleAxis_mulV hn' p]
    have hpq : Quat.length (q * Quat.angleAxis a n) = 1 := by
      rw [← ham_norm, ham_mul, norm_mul, ham_norm, ham_norm, hl, hq, one_mul]
    rw [← pureQ_injective, pureQ_mulV hpq, pureQ_mulV hq, pureQ_mulV hl, ham_mul, mul_inv_rev]
    simp only [mul_assoc]

/-- C65 with the axis as given: every non-zero axis. -/
theorem C65_axis (q : Quat ℝ) (a : ℝ) (v : V3 ℝ) (hv : ∃ i, coord v i ≠ 0) :
    Quat.rotate q a v = q * Quat.angleAxis a (V3.normalize v) ∧
    Quat.length (Quat.rotate q a v) = Quat.length q := by
  have h0 : 0 < V3.length v := by rw [V3.length_eq_norm]; exact V3.norm_pos hv
  have e := V3.eq_length_mul hv
  have h := C65_rotate q a (V3.length v) (V3.normalize v) (V3.length_normalize hv) h0
  rw [← e] at h
  exact ⟨h.1, h.2.1⟩

/-- Non-vacuity: a quarter turn about `z` (given with length 2) takes `x` to `y`. -/
example : Quat.rotate (Quat.default : Quat ℝ) (Real.pi / 2) ((2:ℝ) * (⟨0, 0, 1⟩ : V3 ℝ)) * (⟨1, 0, 0⟩ : V3 ℝ) = ⟨0, 1, 0⟩ := by
  rw [(C65_rotate _ _ _ _ (V3.length_of_dot_self (by simp [V3.dot])) (by norm_num)).2.2
    (Quat.length_of_dot_self (by simp [Quat.dot, Quat.default]))]
  ext <;> simp [Quat.mulV_x, Quat.mulV_y, Quat.mulV_z, V3.dot, Quat.default]

end Zcm
