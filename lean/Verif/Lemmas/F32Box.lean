import Verif.Spec.Box
import Verif.Model.Common
import Verif.Lemmas.F32Mono
import Verif.Lemmas.F32Range
import Verif.Lemmas.F32Oct
import Verif.Lemmas.F32Between

/-!
# Lemmas: folding `min` and `max` over a list, and clamping
-/

namespace Zcm

open F32

theorem min_step {x y : F32} (hx : x ≠ .nan) :
    F.min x y ≠ .nan ∧ F.min x y ≤ x ∧ (y ≠ .nan → F.min x y ≤ y) ∧ (F.min x y = x ∨ F.min x y = y) := by
  unfold F.min
  split_ifs with h
  · obtain ⟨h1, h2, h3⟩ := lt_iff.1 h
    exact ⟨h1, ⟨h1, h2, h3.le⟩, fun h => le_refl' h, .inr rfl⟩
  · refine ⟨hx, le_refl' hx, fun hy => ⟨hx, hy, ?_⟩, .inl rfl⟩
    by_contra hc
    exact h ⟨hy, hx, not_le.1 hc⟩

theorem max_step {x y : F32} (hx : x ≠ .nan) :
    F.max x y ≠ .nan ∧ x ≤ F.max x y ∧ (y ≠ .nan → y ≤ F.max x y) ∧ (F.max x y = x ∨ F.max x y = y) := by
  unfold F.max
  split_ifs with h
  · obtain ⟨h1, h2, h3⟩ := lt_iff.1 h
    exact ⟨h2, ⟨h1, h2, h3.le⟩, fun h => le_refl' h, .inr rfl⟩
  · refine ⟨hx, le_refl' hx, fun hy => ⟨hy, hx, ?_⟩, .inl rfl⟩
    by_contra hc
    exact h ⟨hx, hy, not_le.1 hc⟩

theorem le_trans_f {a b c : F32} (h : a ≤ b) (g : b ≤ c) : a ≤ c := ⟨h.1, g.2.1, h.2.2.trans g.2.2⟩

theorem fold_min (l : List F32) : ∀ x : F32, x ≠ .nan → SmallestOf (l.foldl F.min x) (x :: l) := by
  induction l with
  | nil => exact fun x hx => ⟨by simp, hx, fun a ha _ => by simp at ha; subst ha; exact le_refl' hx⟩
  | cons y l ih =>
    intro x hx
    obtain ⟨h1, h2, h3, h4⟩ := min_step (y := y) hx
    obtain ⟨k1, k2, k3⟩ := ih (F.min x y) h1
    have k0 := k3 _ List.mem_cons_self h1
    refine ⟨?_, k2, fun a ha na => ?_⟩
    · rw [List.foldl_cons]
      rcases List.mem_cons.1 k1 with h | h
      · rw [h]; rcases h4 with h4 | h4 <;> rw [h4] <;> simp
      · exact List.mem_cons_of_mem _ (List.mem_cons_of_mem _ h)
    · rcases List.mem_cons.1 ha with rfl | ha
      · exact le_trans_f k0 h2
      rcases List.mem_cons.1 ha with rfl | ha
      · exact le_trans_f k0 (h3 na)
      · exact k3 _ (List.mem_cons_of_mem _ ha) na

theorem fold_max (l : List F32) : ∀ x : F32, x ≠ .nan → LargestOf (l.foldl F.max x) (x :: l) := by
  induction l with
  | nil => exact fun x hx => ⟨by simp, hx, fun a ha _ => by simp at ha; subst ha; exact le_refl' hx⟩
  | cons y l ih =>
    intro x hx
    obtain ⟨h1, h2, h3, h4⟩ := max_step (y := y) hx
    obtain ⟨k1, k2, k3⟩ := ih (F.max x y) h1
    have k0 := k3 _ List.mem_cons_self h1
    refine ⟨?_, k2, fun a ha na => ?_⟩
    · rw [List.foldl_cons]
      rcases List.mem_cons.1 k1 with h | h
      · rw [h]; rcases h4 with h4 | h4 <;> rw [h4] <;> simp
      · exact List.mem_cons_of_mem _ (List.mem_cons_of_mem _ h)
    · rcases List.mem_cons.1 ha with rfl | ha
      · exact le_trans_f h2 k0
      rcases List.mem_cons.1 ha with rfl | ha
      · exact le_trans_f (h3 na) k0
      · exact k3 _ (List.mem_cons_of_mem _ ha) na

/-- A NaN at the start stays. -/
theorem fold_min_nan (l : List F32) : l.foldl F.min (.nan : F32) = .nan := by
  induction l with
  | nil => rfl
  | cons y l ih => rw [List.foldl_cons, show F.min (.nan : F32) y = .nan from if_neg fun h => h.2.1 rfl, ih]

theorem fold_max_nan (l : List F32) : l.foldl F.max (.nan : F32) = .nan := by
  induction l with
  | nil => rfl
  | cons y l ih => rw [List.foldl_cons, show F.max (.nan : F32) y = .nan from if_neg fun h => h.1 rfl, ih]

theorem SmallestOf.perm {m m' : F32} {l l' : List F32} (h : SmallestOf m l) (h' : SmallestOf m' l') (p : l.Perm l') :
    (m == m') = true :=
  beq_iff.2 ⟨h.2.1, h'.2.1, le_antisymm (h.2.2 m' (p.mem_iff.2 h'.1) h'.2.1).2.2 (h'.2.2 m (p.mem_iff.1 h.1) h.2.1).2.2⟩

theorem LargestOf.perm {m m' : F32} {l l' : List F32} (h : LargestOf m l) (h' : LargestOf m' l') (p : l.Perm l') :
    (m == m') = true :=
  beq_iff.2 ⟨h.2.1, h'.2.1, le_antisymm (h'.2.2 m (p.mem_iff.1 h.1) h.2.1).2.2 (h.2.2 m' (p.mem_iff.2 h'.1) h'.2.1).2.2⟩

theorem foldl_part {V A : Type} (f : V → A) (g : V → V → V) (k : A → A → A) (h : ∀ x y, f (g x y) = k (f x) (f y))
    (l : List V) : ∀ p, f (l.foldl g p) = (l.map f).foldl k (f p) := by
  induction l with
  | nil => exact fun p => rfl
  | cons a l ih => intro p; rw [List.foldl_cons, List.map_cons, List.foldl_cons, ← h, ih]

/-- Clamping a number that is in range changes nothing. -/
theorem clamp_inside {x lo hi : F32} (h : lo ≤ x) (g : x ≤ hi) : F.clamp x lo hi = x := by
  unfold F.clamp F.max
  rw [if_neg fun c => absurd c.2.2 (not_lt.2 h.2.2)]
  unfold F.min
  rw [if_neg fun c => absurd c.2.2 (not_lt.2 g.2.2)]

theorem clamp_cases {x lo hi : F32} (hx : x ≠ .nan) (h : lo ≤ hi) :
    (x < lo ∧ F.clamp x lo hi = lo) ∨ (hi < x ∧ F.clamp x lo hi = hi) ∨ (lo ≤ x ∧ x ≤ hi ∧ F.clamp x lo hi = x) := by
  obtain ⟨hl, hh, hk⟩ := h
  rcases lt_or_ge x.key lo.key with c | c
  · refine .inl ⟨⟨hx, hl, c⟩, ?_⟩
    unfold F.clamp F.max
    rw [if_pos ⟨hx, hl, c⟩]
    exact if_neg fun c => absurd c.2.2 (not_lt.2 hk)
  rcases lt_or_ge hi.key x.key with d | d
  · refine .inr (.inl ⟨⟨hh, hx, d⟩, ?_⟩)
    unfold F.clamp F.max
    rw [if_neg fun e => absurd e.2.2 (not_lt.2 c)]
    exact if_pos ⟨hh, hx, d⟩
  · exact .inr (.inr ⟨⟨hl, hx, c⟩, ⟨hx, hh, d⟩, clamp_inside ⟨hl, hx, c⟩ ⟨hx, hh, d⟩⟩)

/-- The clamped number is finite and exactly the closest one of the range. -/
theorem clamp_nearest {x lo hi y : F32} (fx : x.IsFin = true) (fl : lo.IsFin = true) (fh : hi.IsFin = true)
    (h1 : lo ≤ y) (h2 : y ≤ hi) : (F.clamp x lo hi).IsFin = true ∧ |(F.clamp x lo hi).val - x.val| ≤ |y.val - x.val| := by
  have k1 := key_le_iff.1 h1.2.2
  have k2 := key_le_iff.1 h2.2.2
  rcases clamp_cases (isFin_ne_nan fx) (le_trans_f h1 h2) with ⟨c, e⟩ | ⟨c, e⟩ | ⟨-, -, e⟩
  · have c' := key_lt_iff.1 c.2.2
    refine ⟨by rw [e]; exact fl, ?_⟩
    rw [e, abs_of_nonneg (by linarith), abs_of_nonneg (by linarith)]
    linarith
  · have c' := key_lt_iff.1 c.2.2
    refine ⟨by rw [e]; exact fh, ?_⟩
    rw [e, abs_of_nonpos (by linarith), abs_of_nonpos (by linarith)]
    linarith
  · refine ⟨by rw [e]; exact fx, ?_⟩
    rw [e, sub_self, abs_zero]
    exact abs_nonneg _

theorem abs_le_of_nonneg {a b : F32} (h0 : lit 0 ≤ a) (h : a ≤ b) : F.abs a ≤ F.abs b := by
  have z : (lit 0 : F32).key = 0 := key_lit_zero
  have a0 : 0 ≤ a.val := by have := key_le_iff.1 h0.2.2; rwa [val_lit_zero] at this
  have ab := key_le_iff.1 h.2.2
  refine ⟨?_, ?_, ?_⟩
  · have := h.1; rcases a with _ | _ | _ <;> first | exact absurd rfl this | (intro h; cases h)
  · have := h.2.1; rcases b with _ | _ | _ <;> first | exact absurd rfl this | (intro h; cases h)
  · rw [key_le_iff, val_fabsQ, val_fabsQ, abs_of_nonneg a0, abs_of_nonneg (a0.trans ab)]
    exact ab

theorem abs_le_of_nonpos {a b : F32} (h0 : a ≤ lit 0) (h : b ≤ a) : F.abs a ≤ F.abs b := by
  have a0 : a.val ≤ 0 := by have := key_le_iff.1 h0.2.2; rwa [val_lit_zero] at this
  have ab := key_le_iff.1 h.2.2
  refine ⟨?_, ?_, ?_⟩
  · have := h.2.1; rcases a with _ | _ | _ <;> first | exact absurd rfl this | (intro h; cases h)
  · have := h.1; rcases b with _ | _ | _ <;> first | exact absurd rfl this | (intro h; cases h)
  · rw [key_le_iff, val_fabsQ, val_fabsQ, abs_of_nonpos a0, abs_of_nonpos (ab.trans a0)]
    linarith

theorem sub_mono_left {a b c : F32} (fa : a.IsFin = true) (fb : b.IsFin = true) (h : a ≤ b) (hc : c.IsFin = true) :
    a - c ≤ b - c := by
  have hn : (-c).IsFin = true := by rw [isFin_neg]; exact hc
  rw [sub_eq, sub_eq]
  exact add_le' h (le_refl' (isFin_ne_nan hn)) (add_fin_ne_nan fa (isFin_ne_nan hn)) (add_fin_ne_nan fb (isFin_ne_nan hn))

theorem key_sub_self {x : F32} (fx : x.IsFin = true) : (x - x) ≠ .nan ∧ (x - x).key = 0 := by
  rw [sub_self' fx]
  exact ⟨isFin_ne_nan isFin_lit_zero, key_lit_zero⟩

/-- Rounding keeps the order of the distances: the computed differences obey the same inequality. -/
theorem clamp_nearest_float {x lo hi y : F32} (fx : x.IsFin = true) (fl : lo.IsFin = true) (fh : hi.IsFin = true)
    (fy : y.IsFin = true) (h1 : lo ≤ y) (h2 : y ≤ hi) : F.abs (F.clamp x lo hi - x) ≤ F.abs (y - x) := by
  obtain ⟨nn, k0⟩ := key_sub_self fx
  have z : (lit 0 : F32).key = 0 := key_lit_zero
  have nz : (lit 0 : F32) ≠ .nan := isFin_ne_nan isFin_lit_zero
  have p0 : lit 0 ≤ x - x := ⟨nz, nn, by rw [z, k0]⟩
  have p1 : x - x ≤ lit 0 := ⟨nn, nz, by rw [z, k0]⟩
  rcases clamp_cases (isFin_ne_nan fx) (le_trans_f h1 h2) with ⟨c, e⟩ | ⟨c, e⟩ | ⟨-, -, e⟩
  · rw [e]
    exact abs_le_of_nonneg (le_trans_f p0 (sub_mono_left fx fl ⟨c.1, c.2.1, c.2.2.le⟩ fx)) (sub_mono_left fl fy h1 fx)
  · rw [e]
    exact abs_le_of_nonpos (le_trans_f (sub_mono_left fh fx ⟨c.1, c.2.1, c.2.2.le⟩ fx) p1) (sub_mono_left fy fh h2 fx)
  · rw [e]
    rcases le_total x.key y.key with c | c
    · exact abs_le_of_nonneg p0 (sub_mono_left fx fy ⟨isFin_ne_nan fx, isFin_ne_nan fy, c⟩ fx)
    · exact abs_le_of_nonpos p1 (sub_mono_left fy fx ⟨isFin_ne_nan fy, isFin_ne_nan fx, c⟩ fx)

end Zcm
