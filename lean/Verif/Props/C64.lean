import Verif.Lemmas.RotQuat
import Verif.Lemmas.Rotate

/-!
# C64: `quatLookAt`

Exact arithmetic.  The direction is a unit vector and not parallel to `up` (the cross product is not
zero).
-/

namespace Zcm

/-- the frame built by the look-at functions: `c2` is the unit vector `d`, `c0` is `up × d`
normalized, `c1 = d × c0` -/
theorem look_frame {d up : V3 ℝ} (hd : V3.dot d d = 1) (h : ∃ i, coord (V3.cross up d) i ≠ 0) :
    let q := M3.quat_cast ⟨V3.normalize (V3.cross up d), V3.cross d (V3.normalize (V3.cross up d)), d⟩
    Quat.dot q q = 1 ∧ q * (⟨0, 0, 1⟩ : V3 ℝ) = d ∧
    0 < V3.dot (q * (⟨0, 1, 0⟩ : V3 ℝ)) up ∧
    V3.dot (q * (⟨0, 1, 0⟩ : V3 ℝ)) (V3.cross up d) = 0 := by
  have e2 := V3.eq_length_mul h
  have l0 : 0 < V3.length (V3.cross up d) := by rw [V3.length_eq_norm]; exact V3.norm_pos h
  have s1 := V3.dot_self_of_length (V3.length_normalize h)
  generalize V3.length (V3.cross up d) = l at *
  generalize V3.normalize (V3.cross up d) = s at *
  have hx := congrArg V3.x e2
  have hy := congrArg V3.y e2
  have hz := congrArg V3.z e2
  simp at hx hy hz
  simp only [V3.dot] at hd s1
  have sd : s.x * d.x + s.y * d.y + s.z * d.z = 0 := by
    have : l * (s.x * d.x + s.y * d.y + s.z * d.z) = 0 := by
      linear_combination (-d.x) * hx - d.y * hy - d.z * hz
    rcases mul_eq_zero.1 this with h | h
    · exact absurd h l0.ne'
    · exact h
  have hrot : RotEq (⟨s, V3.cross d s, d⟩ : M3 ℝ) := by
    apply RotEq.of_frame
    · exact s1
    · simp; grind
    · exact hd
    · simp; ring
    · exact sd
    · simp; ring
    · rw [M3.det_toMat]; simp [M3.determinant]; grind
  obtain ⟨hq, hm, -⟩ := hrot.quat_cast
  have act : ∀ v : V3 ℝ, M3.quat_cast ⟨s, V3.cross d s, d⟩ * v = (⟨s, V3.cross d s, d⟩ : M3 ℝ) * v := by
    intro v
    rw [← hm]
    have := hq
    rw [hm]
    generalize M3.quat_cast ⟨s, V3.cross d s, d⟩ = q at *
    rw [← hm]
    simp only [Quat.dot] at this
    ext <;> simp [Quat.mulV_x, Quat.mulV_y, Quat.mulV_z, M3.mulV_x, M3.mulV_y, M3.mulV_z, Quat.mat3_cast] <;> grind
  have key : V3.dot (V3.cross d s) up = l := by
    simp [V3.dot]
    grind
  refine ⟨hq, ?_, ?_, ?_⟩
  · rw [act]; ext <;> simp [M3.mulV_x, M3.mulV_y, M3.mulV_z]
  · rw [act]
    have : (⟨s, V3.cross d s, d⟩ : M3 ℝ) * (⟨0, 1, 0⟩ : V3 ℝ) = V3.cross d s := by
      ext <;> simp [M3.mulV_x, M3.mulV_y, M3.mulV_z]
    rw [this, key]
    exact l0
  · rw [act]
    have : (⟨s, V3.cross d s, d⟩ : M3 ℝ) * (⟨0, 1, 0⟩ : V3 ℝ) = V3.cross d s := by
      ext <;> simp [M3.mulV_x, M3.mulV_y, M3.mulV_z]
    rw [this, e2]
    simp [V3.dot]
    ring

/-- C64, left-handed: a unit quaternion that rotates `+z` to the direction; the image of `+y` lies in
the plane of `up` and the direction, on the side of `up`. -/
theorem C64_LH (direction up : V3 ℝ) (hd : V3.length direction = 1)
    (h : ∃ i, coord (V3.cross up direction) i ≠ 0) :
    let q := Quat.lookAtLH direction up
    Quat.length q = 1 ∧ q * (⟨0, 0, 1⟩ : V3 ℝ) = direction ∧
    0 < V3.dot (q * (⟨0, 1, 0⟩ : V3 ℝ)) up ∧
    V3.dot (q * (⟨0, 1, 0⟩ : V3 ℝ)) (V3.cross up direction) = 0 := by
  have := look_frame (V3.dot_self_of_length hd) h
  exact ⟨Quat.length_of_dot_self this.1, this.2⟩

/-- C64, right-handed: a unit quaternion that rotates `-z` to the direction; the image of `+y` lies in
the plane of `up` and the direction, on the side of `up`. -/
theorem C64_RH (direction up : V3 ℝ) (hd : V3.length direction = 1)
    (h : ∃ i, coord (V3.cross up direction) i ≠ 0) :
    let q := Quat.lookAtRH direction up
    Quat.length q = 1 ∧ q * (⟨0, 0, -1⟩ : V3 ℝ) = direction ∧
    0 < V3.dot (q * (⟨0, 1, 0⟩ : V3 ℝ)) up ∧
    V3.dot (q * (⟨0, 1, 0⟩ : V3 ℝ)) (V3.cross up direction) = 0 := by
  have hd' : V3.dot (-direction) (-direction) = 1 := by
    have := V3.dot_self_of_length hd
    simp [V3.dot] at *
    linarith
  have hx : V3.cross up (-direction) = -V3.cross up direction := by ext <;> simp <;> ring
  have h' : ∃ i, coord (V3.cross up (-direction)) i ≠ 0 := by
    obtain ⟨i, hi⟩ := h
    refine ⟨i, fun h0 => hi ?_⟩
    rw [hx] at h0
    fin_cases i <;> simp at h0 ⊢ <;> linarith
  have := look_frame hd' h'
  rw [hx] at this
  simp only [Quat.lookAtRH]
  rw [hx]
  generalize M3.quat_cast (_ : M3 ℝ) = q at *
  obtain ⟨h1, h2, h3, h4⟩ := this
  refine ⟨Quat.length_of_dot_self h1, ?_, h3, ?_⟩
  · have e : q * (⟨0, 0, -1⟩ : V3 ℝ) = -(q * (⟨0, 0, 1⟩ : V3 ℝ)) := by
      ext <;> simp [Quat.mulV_x, Quat.mulV_y, Quat.mulV_z] <;> ring
    rw [e, h2]; ext <;> simp
  · simp only [V3.dot, V3.neg_x, V3.neg_y, V3.neg_z] at h4 ⊢
    linarith

/-- Non-vacuity: looking along `x` with `y` up. -/
example : V3.length (⟨1, 0, 0⟩ : V3 ℝ) = 1 ∧
    ∃ i, coord (V3.cross (⟨0, 1, 0⟩ : V3 ℝ) ⟨1, 0, 0⟩) i ≠ 0 :=
  ⟨V3.length_of_dot_self (by simp [V3.dot]), 2, by simp⟩

end Zcm
