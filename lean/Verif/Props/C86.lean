import Verif.Lemmas.F32Exact
import Verif.Lemmas.Linear
import Verif.Lemmas.Ops
import Verif.Model.Geometric
import Verif.Model.Matrix
import Verif.Props.C09

/-!
# C86  Integer-valued vectors and matrices compute exactly in IEEE arithmetic

Floats that hold integers give the exact integer result as long as no intermediate result can exceed `2^24`; the
bounds on the entries in the theorems on determinant, adjugate and inverse are what that amounts to.
-/

namespace Zcm

open F32

theorem dv2 {f : Fin 2 → F32} : ![f 0, f 1] = f := by ext i; fin_cases i <;> rfl
theorem dv3 {f : Fin 3 → F32} : ![f 0, f 1, f 2] = f := by ext i; fin_cases i <;> rfl
theorem dv4 {f : Fin 4 → F32} : ![f 0, f 1, f 2, f 3] = f := by ext i; fin_cases i <;> rfl

/-- C86, `vec2` operators: the exact sum, difference, product, negation, and product with a number. -/
theorem C86_vec2 (a b : V2 F32) (s : F32) (m n : Fin 2 → ℤ) (k : ℤ) (ha : ∀ i, IsInt (coord a i) (m i))
    (hb : ∀ i, IsInt (coord b i) (n i)) (hs : IsInt s k) (i : Fin 2) :
    (|m i| + |n i| ≤ 2 ^ 24 → IsInt (coord (a + b) i) (m i + n i) ∧ IsInt (coord (a - b) i) (m i - n i)) ∧
    (|m i| + |k| ≤ 2 ^ 24 → IsInt (coord (a + s) i) (m i + k) ∧ IsInt (coord (a - s) i) (m i - k) ∧
      IsInt (coord (s - a) i) (k - m i)) ∧
    (|m i| * |n i| ≤ 2 ^ 24 → IsInt (coord (a * b) i) (m i * n i)) ∧
    (|m i| * |k| ≤ 2 ^ 24 → IsInt (coord (a * s) i) (m i * k) ∧ IsInt (coord (s * a) i) (k * m i)) ∧
    IsInt (coord (-a) i) (-m i) := by
  have ea := (ha i).ex le_rfl
  have eb := (hb i).ex le_rfl
  have es := hs.ex le_rfl
  fin_cases i <;> exact Ex.ops ea eb es

/-- C86, `vec3` operators: the exact sum, difference, product, negation, and product with a number. -/
theorem C86_vec3 (a b : V3 F32) (s : F32) (m n : Fin 3 → ℤ) (k : ℤ) (ha : ∀ i, IsInt (coord a i) (m i))
    (hb : ∀ i, IsInt (coord b i) (n i)) (hs : IsInt s k) (i : Fin 3) :
    (|m i| + |n i| ≤ 2 ^ 24 → IsInt (coord (a + b) i) (m i + n i) ∧ IsInt (coord (a - b) i) (m i - n i)) ∧
    (|m i| + |k| ≤ 2 ^ 24 → IsInt (coord (a + s) i) (m i + k) ∧ IsInt (coord (a - s) i) (m i - k) ∧
      IsInt (coord (s - a) i) (k - m i)) ∧
    (|m i| * |n i| ≤ 2 ^ 24 → IsInt (coord (a * b) i) (m i * n i)) ∧
    (|m i| * |k| ≤ 2 ^ 24 → IsInt (coord (a * s) i) (m i * k) ∧ IsInt (coord (s * a) i) (k * m i)) ∧
    IsInt (coord (-a) i) (-m i) := by
  have ea := (ha i).ex le_rfl
  have eb := (hb i).ex le_rfl
  have es := hs.ex le_rfl
  fin_cases i <;> exact Ex.ops ea eb es

/-- C86, `vec4` operators: the exact sum, difference, product, negation, and product with a number. -/
theorem C86_vec4 (a b : V4 F32) (s : F32) (m n : Fin 4 → ℤ) (k : ℤ) (ha : ∀ i, IsInt (coord a i) (m i))
    (hb : ∀ i, IsInt (coord b i) (n i)) (hs : IsInt s k) (i : Fin 4) :
    (|m i| + |n i| ≤ 2 ^ 24 → IsInt (coord (a + b) i) (m i + n i) ∧ IsInt (coord (a - b) i) (m i - n i)) ∧
    (|m i| + |k| ≤ 2 ^ 24 → IsInt (coord (a + s) i) (m i + k) ∧ IsInt (coord (a - s) i) (m i - k) ∧
      IsInt (coord (s - a) i) (k - m i)) ∧
    (|m i| * |n i| ≤ 2 ^ 24 → IsInt (coord (a * b) i) (m i * n i)) ∧
    (|m i| * |k| ≤ 2 ^ 24 → IsInt (coord (a * s) i) (m i * k) ∧ IsInt (coord (s * a) i) (k * m i)) ∧
    IsInt (coord (-a) i) (-m i) := by
  have ea := (ha i).ex le_rfl
  have eb := (hb i).ex le_rfl
  have es := hs.ex le_rfl
  fin_cases i <;> exact Ex.ops ea eb es

/-- C86, `cross`. -/
theorem C86_cross (a b : V3 F32) :
    ExactSum (coord (V3.cross a b) 0) ![coord a 1, -coord a 2] ![coord b 2, coord b 1] ∧
    ExactSum (coord (V3.cross a b) 1) ![coord a 2, -coord a 0] ![coord b 0, coord b 2] ∧
    ExactSum (coord (V3.cross a b) 2) ![coord a 0, -coord a 1] ![coord b 1, coord b 0] :=
  ⟨exactSum_cross _ _ _ _, exactSum_cross _ _ _ _, exactSum_cross _ _ _ _⟩

/-- C86, `dot` and `length2` of `vec2`. -/
theorem C86_dot_vec2 (a b : V2 F32) :
    ExactSum (V2.dot a b) (coord a) (coord b) ∧ ExactSum (V2.length2 a) (coord a) (coord a) :=
  ⟨exactSum2 _ _ _ _, exactSum2 _ _ _ _⟩

/-- C86, `mat2 * vec2`: component `r` is row `r` times the vector. -/
theorem C86_mat2_vec (m : M2 F32) (v : V2 F32) (r : Fin 2) :
    ExactSum (coord (m * v) r) (fun c => entry m c r) (coord v) := by
  rw [← dv2 (f := fun c => entry m c r)]
  fin_cases r <;> exact exactSum2 _ _ _ _

/-- C86, `vec2 * mat2`: component `c` is the vector times column `c`. -/
theorem C86_vec_mat2 (v : V2 F32) (m : M2 F32) (c : Fin 2) :
    ExactSum (coord (v * m) c) (coord v) (entry m c) := by
  fin_cases c <;> exact exactSum2 _ _ _ _

/-- C86, `mat2 * mat2`: entry (column `c`, row `r`) is row `r` times column `c`. -/
theorem C86_mat2_mul (a b : M2 F32) (c r : Fin 2) :
    ExactSum (entry (a * b) c r) (fun k => entry a k r) (entry b c) := by
  rw [← dv2 (f := fun k => entry a k r)]
  fin_cases c <;> fin_cases r <;> exact exactSum2 _ _ _ _

/-- C86, `dot` and `length2` of `vec3`. -/
theorem C86_dot_vec3 (a b : V3 F32) :
    ExactSum (V3.dot a b) (coord a) (coord b) ∧ ExactSum (V3.length2 a) (coord a) (coord a) :=
  ⟨exactSum3 _ _ _ _ _ _, exactSum3 _ _ _ _ _ _⟩

/-- C86, `mat3 * vec3`: component `r` is row `r` times the vector. -/
theorem C86_mat3_vec (m : M3 F32) (v : V3 F32) (r : Fin 3) :
    ExactSum (coord (m * v) r) (fun c => entry m c r) (coord v) := by
  rw [← dv3 (f := fun c => entry m c r)]
  fin_cases r <;> exact exactSum3 _ _ _ _ _ _

/-- C86, `vec3 * mat3`: component `c` is the vector times column `c`. -/
theorem C86_vec_mat3 (v : V3 F32) (m : M3 F32) (c : Fin 3) :
    ExactSum (coord (v * m) c) (coord v) (entry m c) := by
  fin_cases c <;> exact (exactSum3 _ _ _ _ _ _).swap

/-- C86, `mat3 * mat3`: entry (column `c`, row `r`) is row `r` times column `c`. -/
theorem C86_mat3_mul (a b : M3 F32) (c r : Fin 3) :
    ExactSum (entry (a * b) c r) (fun k => entry a k r) (entry b c) := by
  rw [← dv3 (f := fun k => entry a k r)]
  fin_cases c <;> fin_cases r <;> exact exactSum3 _ _ _ _ _ _

/-- C86, `dot` and `length2` of `vec4`. -/
theorem C86_dot_vec4 (a b : V4 F32) :
    ExactSum (V4.dot a b) (coord a) (coord b) ∧ ExactSum (V4.length2 a) (coord a) (coord a) :=
  ⟨exactSum4 _ _ _ _ _ _ _ _, exactSum4 _ _ _ _ _ _ _ _⟩

/-- C86, `mat4 * vec4`: component `r` is row `r` times the vector. -/
theorem C86_mat4_vec (m : M4 F32) (v : V4 F32) (r : Fin 4) :
    ExactSum (coord (m * v) r) (fun c => entry m c r) (coord v) := by
  rw [← dv4 (f := fun c => entry m c r)]
  fin_cases r <;> exact exactSum4' _ _ _ _ _ _ _ _

/-- C86, `vec4 * mat4`: component `c` is the vector times column `c`. -/
theorem C86_vec_mat4 (v : V4 F32) (m : M4 F32) (c : Fin 4) :
    ExactSum (coord (v * m) c) (coord v) (entry m c) := by
  fin_cases c <;> exact (exactSum4 _ _ _ _ _ _ _ _).swap

/-- C86, `mat4 * mat4`: entry (column `c`, row `r`) is row `r` times column `c`. -/
theorem C86_mat4_mul (a b : M4 F32) (c r : Fin 4) :
    ExactSum (entry (a * b) c r) (fun k => entry a k r) (entry b c) := by
  rw [← dv4 (f := fun k => entry a k r)]
  fin_cases c <;> fin_cases r <;> exact exactSum4 _ _ _ _ _ _ _ _

/-- the exact matrix with the entries of `N` -/
def M2.ofInt (N : Matrix (Fin 2) (Fin 2) ℤ) : M2 ℝ :=
  ⟨⟨N 0 0, N 1 0⟩, ⟨N 0 1, N 1 1⟩⟩

theorem toMat_ofInt_mat2 (N : Matrix (Fin 2) (Fin 2) ℤ) : toMat (M2.ofInt N) = (Int.castRingHom ℝ).mapMatrix N := by
  ext i j; fin_cases i <;> fin_cases j <;> rfl

theorem det_ofInt_mat2 (N : Matrix (Fin 2) (Fin 2) ℤ) : M2.determinant (M2.ofInt N) = (N.det : ℤ) := by
  rw [← M2.det_toMat, toMat_ofInt_mat2, ← RingHom.map_det]; rfl

theorem adj_ofInt_mat2 (N : Matrix (Fin 2) (Fin 2) ℤ) (r c : Fin 2) :
    entry (M2.adjugate (M2.ofInt N)) c r = (N.adjugate r c : ℤ) := by
  show toMat (M2.adjugate (M2.ofInt N)) r c = _
  rw [M2.toMat_adjugate, toMat_ofInt_mat2, ← RingHom.map_adjugate]; rfl

theorem inv_ofInt_mat2 (N : Matrix (Fin 2) (Fin 2) ℤ) (h : N.det = 1 ∨ N.det = -1) (r c : Fin 2) :
    entry (M2.inverse (M2.ofInt N)) c r = (N⁻¹ r c : ℤ) := by
  have e : entry (M2.adjugate (M2.ofInt N) / M2.determinant (M2.ofInt N)) c r =
      entry (M2.adjugate (M2.ofInt N)) c r / M2.determinant (M2.ofInt N) := by
    fin_cases c <;> fin_cases r <;> rfl
  rw [M2.inverse_eq, e, adj_ofInt_mat2, det_ofInt_mat2, inv_of_det h]
  rcases h with h | h <;> simp [h, div_neg]

theorem cells_mat2 {m : M2 F32} {N : Matrix (Fin 2) (Fin 2) ℤ} {B : ℤ} (h : IntMat (toMat m) N B) :
    Ex m.c0.x (M2.ofInt N).c0.x B ∧ Ex m.c0.y (M2.ofInt N).c0.y B ∧
    Ex m.c1.x (M2.ofInt N).c1.x B ∧ Ex m.c1.y (M2.ofInt N).c1.y B :=
  ⟨(h 0 0).1.ex (h 0 0).2, (h 1 0).1.ex (h 1 0).2, (h 0 1).1.ex (h 0 1).2, (h 1 1).1.ex (h 1 1).2⟩

/-- C86, `determinant(mat2)` is exact for integer entries of magnitude at most 2896. -/
theorem C86_determinant_mat2 (m : M2 F32) (N : Matrix (Fin 2) (Fin 2) ℤ) (h : IntMat (toMat m) N 2896) :
    IsInt (M2.determinant m) N.det := by
  refine (show Ex _ ((N.det : ℤ) : ℝ) 16773632 from ?_).isInt.1
  obtain ⟨h00, h01, h10, h11⟩ := cells_mat2 h
  rw [← det_ofInt_mat2]
  generalize M2.ofInt N = m' at *
  unfold M2.determinant
  exact_ints
  all_goals norm_num

theorem adj_ex_mat2 {m : M2 F32} {N : Matrix (Fin 2) (Fin 2) ℤ} (h : IntMat (toMat m) N 2896) :
    Ex (M2.adjugate m).c0.x (M2.adjugate (M2.ofInt N)).c0.x 2896 ∧ Ex (M2.adjugate m).c0.y (M2.adjugate (M2.ofInt N)).c0.y 2896 ∧
    Ex (M2.adjugate m).c1.x (M2.adjugate (M2.ofInt N)).c1.x 2896 ∧ Ex (M2.adjugate m).c1.y (M2.adjugate (M2.ofInt N)).c1.y 2896 := by
  obtain ⟨h00, h01, h10, h11⟩ := cells_mat2 h
  generalize M2.ofInt N = m' at *
  clear h
  refine ⟨?_, ?_, ?_, ?_⟩
  all_goals
    simp only [M2.adjugate, M2.ofFloats]
    exact_ints
    all_goals norm_num

/-- C86, `adjugate(mat2)`. -/
theorem C86_adjugate_mat2 (m : M2 F32) (N : Matrix (Fin 2) (Fin 2) ℤ) (h : IntMat (toMat m) N 2896) :
    IntMat (toMat (M2.adjugate m)) N.adjugate 2896 := by
  intro r c
  refine (show Ex (entry (M2.adjugate m) c r) ((N.adjugate r c : ℤ) : ℝ) 2896 from ?_).isInt
  rw [← adj_ofInt_mat2]
  obtain ⟨h00, h01, h10, h11⟩ := adj_ex_mat2 h
  fin_cases c <;> fin_cases r <;> assumption

/-- C86, `inverse(mat2)` of an integer matrix with determinant 1 or -1 is exact. -/
theorem C86_inverse_mat2 (m : M2 F32) (N : Matrix (Fin 2) (Fin 2) ℤ) (h : IntMat (toMat m) N 2896) (hd : N.det = 1 ∨ N.det = -1) :
    IntMat (toMat (M2.inverse m)) N⁻¹ 2896 := by
  intro r c
  refine (show Ex (entry (M2.inverse m) c r) ((N⁻¹ r c : ℤ) : ℝ) 2896 from ?_).isInt
  have hr : M2.determinant (M2.ofInt N) = 1 ∨ M2.determinant (M2.ofInt N) = -1 := by
    rw [det_ofInt_mat2]; rcases hd with h | h <;> rw [h] <;> simp
  obtain ⟨h00, h01, h10, h11⟩ := cells_mat2 h
  rw [← inv_ofInt_mat2 N hd]
  have side : ∀ t : ℝ, t = M2.determinant (M2.ofInt N) → t = 1 ∨ t = -1 := fun t ht => ht ▸ hr
  generalize M2.ofInt N = m' at *
  clear hd h hr
  fin_cases c <;> fin_cases r
  · show Ex (M2.inverse m).c0.x (M2.inverse m').c0.x _
    simp only [M2.inverse, M2.ofFloats]
    exact_ints
    all_goals first | (norm_num; done) | exact side _ rfl
  · show Ex (M2.inverse m).c0.y (M2.inverse m').c0.y _
    simp only [M2.inverse, M2.ofFloats]
    exact_ints
    all_goals first | (norm_num; done) | exact side _ rfl
  · show Ex (M2.inverse m).c1.x (M2.inverse m').c1.x _
    simp only [M2.inverse, M2.ofFloats]
    exact_ints
    all_goals first | (norm_num; done) | exact side _ rfl
  · show Ex (M2.inverse m).c1.y (M2.inverse m').c1.y _
    simp only [M2.inverse, M2.ofFloats]
    exact_ints
    all_goals first | (norm_num; done) | exact side _ rfl

/-- C86, hence `inverse(m) * m == mat2()` and `m * inverse(m) == mat2()` in float arithmetic. -/
theorem C86_inverse_mul_mat2 (m : M2 F32) (N : Matrix (Fin 2) (Fin 2) ℤ) (h : IntMat (toMat m) N 2896) (hd : N.det = 1 ∨ N.det = -1) :
    M2.eq (M2.inverse m * m) M2.default = true ∧ M2.eq (m * M2.inverse m) M2.default = true := by
  have hi := C86_inverse_mat2 m N h hd
  have u : IsUnit N.det := by rcases hd with h | h <;> rw [h] <;> decide
  have bound : ∀ (A A' : Matrix (Fin 2) (Fin 2) ℤ) (B B' : ℤ), (∀ r c, |A r c| ≤ B) → (∀ r c, |A' r c| ≤ B') → 2 * (B * B') ≤ 2 ^ 24 →
      ∀ r c, ∑ k, |A r k * A' k c| ≤ 2 ^ 24 := by
    intro A A' B B' h1 h2 h3 r c
    refine le_trans (Finset.sum_le_card_nsmul _ _ (B * B') fun k _ => ?_) ?_
    · rw [abs_mul]
      exact mul_le_mul (h1 r k) (h2 k c) (abs_nonneg _) ((abs_nonneg _).trans (h1 r k))
    · simpa using h3
  have one : ∀ r c, IsInt (entry (M2.default : M2 F32) c r) ((1 : Matrix (Fin 2) (Fin 2) ℤ) r c) := by
    intro r c
    have z : IsInt (lit 0) 0 := ⟨isFin_lit_zero, by rw [val_lit_zero]; rfl⟩
    have o : IsInt (lit 1) 1 := ⟨isFin_lit_one, by rw [val_lit_one]; rfl⟩
    fin_cases r <;> fin_cases c <;> first | exact z | exact o
  rw [(C09_mat2 _ _).1, (C09_mat2 _ _).1]
  constructor
  · intro c r
    refine IsInt.beq (n := (1 : Matrix (Fin 2) (Fin 2) ℤ) r c) ?_ (one r c)
    rw [← Matrix.nonsing_inv_mul N u, Matrix.mul_apply]
    exact C86_mat2_mul _ _ c r _ _ (fun k => (hi r k).1) (fun k => (h k c).1)
      (bound _ _ _ _ (fun r c => (hi r c).2) (fun r c => (h r c).2) (by norm_num) r c)
  · intro c r
    refine IsInt.beq (n := (1 : Matrix (Fin 2) (Fin 2) ℤ) r c) ?_ (one r c)
    rw [← Matrix.mul_nonsing_inv N u, Matrix.mul_apply]
    exact C86_mat2_mul _ _ c r _ _ (fun k => (h r k).1) (fun k => (hi k c).1)
      (bound _ _ _ _ (fun r c => (h r c).2) (fun r c => (hi r c).2) (by norm_num) r c)

/-- the exact matrix with the entries of `N` -/
def M3.ofInt (N : Matrix (Fin 3) (Fin 3) ℤ) : M3 ℝ :=
  ⟨⟨N 0 0, N 1 0, N 2 0⟩, ⟨N 0 1, N 1 1, N 2 1⟩, ⟨N 0 2, N 1 2, N 2 2⟩⟩

theorem toMat_ofInt_mat3 (N : Matrix (Fin 3) (Fin 3) ℤ) : toMat (M3.ofInt N) = (Int.castRingHom ℝ).mapMatrix N := by
  ext i j; fin_cases i <;> fin_cases j <;> rfl

theorem det_ofInt_mat3 (N : Matrix (Fin 3) (Fin 3) ℤ) : M3.determinant (M3.ofInt N) = (N.det : ℤ) := by
  rw [← M3.det_toMat, toMat_ofInt_mat3, ← RingHom.map_det]; rfl

theorem adj_ofInt_mat3 (N : Matrix (Fin 3) (Fin 3) ℤ) (r c : Fin 3) :
    entry (M3.adjugate (M3.ofInt N)) c r = (N.adjugate r c : ℤ) := by
  show toMat (M3.adjugate (M3.ofInt N)) r c = _
  rw [M3.toMat_adjugate, toMat_ofInt_mat3, ← RingHom.map_adjugate]; rfl

theorem inv_ofInt_mat3 (N : Matrix (Fin 3) (Fin 3) ℤ) (h : N.det = 1 ∨ N.det = -1) (r c : Fin 3) :
    entry (M3.inverse (M3.ofInt N)) c r = (N⁻¹ r c : ℤ) := by
  have e : entry (M3.adjugate (M3.ofInt N) / M3.determinant (M3.ofInt N)) c r =
      entry (M3.adjugate (M3.ofInt N)) c r / M3.determinant (M3.ofInt N) := by
    fin_cases c <;> fin_cases r <;> rfl
  rw [M3.inverse_eq, e, adj_ofInt_mat3, det_ofInt_mat3, inv_of_det h]
  rcases h with h | h <;> simp [h, div_neg]

theorem cells_mat3 {m : M3 F32} {N : Matrix (Fin 3) (Fin 3) ℤ} {B : ℤ} (h : IntMat (toMat m) N B) :
    Ex m.c0.x (M3.ofInt N).c0.x B ∧ Ex m.c0.y (M3.ofInt N).c0.y B ∧ Ex m.c0.z (M3.ofInt N).c0.z B ∧
    Ex m.c1.x (M3.ofInt N).c1.x B ∧ Ex m.c1.y (M3.ofInt N).c1.y B ∧ Ex m.c1.z (M3.ofInt N).c1.z B ∧
    Ex m.c2.x (M3.ofInt N).c2.x B ∧ Ex m.c2.y (M3.ofInt N).c2.y B ∧ Ex m.c2.z (M3.ofInt N).c2.z B :=
  ⟨(h 0 0).1.ex (h 0 0).2, (h 1 0).1.ex (h 1 0).2, (h 2 0).1.ex (h 2 0).2, (h 0 1).1.ex (h 0 1).2, (h 1 1).1.ex (h 1 1).2, (h 2 1).1.ex (h 2 1).2, (h 0 2).1.ex (h 0 2).2, (h 1 2).1.ex (h 1 2).2, (h 2 2).1.ex (h 2 2).2⟩

/-- C86, `determinant(mat3)` is exact for integer entries of magnitude at most 140. -/
theorem C86_determinant_mat3 (m : M3 F32) (N : Matrix (Fin 3) (Fin 3) ℤ) (h : IntMat (toMat m) N 140) :
    IsInt (M3.determinant m) N.det := by
  refine (show Ex _ ((N.det : ℤ) : ℝ) 16464000 from ?_).isInt.1
  obtain ⟨h00, h01, h02, h10, h11, h12, h20, h21, h22⟩ := cells_mat3 h
  rw [← det_ofInt_mat3]
  generalize M3.ofInt N = m' at *
  unfold M3.determinant
  exact_ints
  all_goals norm_num

theorem adj_ex_mat3 {m : M3 F32} {N : Matrix (Fin 3) (Fin 3) ℤ} (h : IntMat (toMat m) N 140) :
    Ex (M3.adjugate m).c0.x (M3.adjugate (M3.ofInt N)).c0.x 39200 ∧ Ex (M3.adjugate m).c0.y (M3.adjugate (M3.ofInt N)).c0.y 39200 ∧ Ex (M3.adjugate m).c0.z (M3.adjugate (M3.ofInt N)).c0.z 39200 ∧
    Ex (M3.adjugate m).c1.x (M3.adjugate (M3.ofInt N)).c1.x 39200 ∧ Ex (M3.adjugate m).c1.y (M3.adjugate (M3.ofInt N)).c1.y 39200 ∧ Ex (M3.adjugate m).c1.z (M3.adjugate (M3.ofInt N)).c1.z 39200 ∧
    Ex (M3.adjugate m).c2.x (M3.adjugate (M3.ofInt N)).c2.x 39200 ∧ Ex (M3.adjugate m).c2.y (M3.adjugate (M3.ofInt N)).c2.y 39200 ∧ Ex (M3.adjugate m).c2.z (M3.adjugate (M3.ofInt N)).c2.z 39200 := by
  obtain ⟨h00, h01, h02, h10, h11, h12, h20, h21, h22⟩ := cells_mat3 h
  generalize M3.ofInt N = m' at *
  clear h
  refine ⟨?_, ?_, ?_, ?_, ?_, ?_, ?_, ?_, ?_⟩
  all_goals
    simp only [M3.adjugate]
    exact_ints
    all_goals norm_num

/-- C86, `adjugate(mat3)`. -/
theorem C86_adjugate_mat3 (m : M3 F32) (N : Matrix (Fin 3) (Fin 3) ℤ) (h : IntMat (toMat m) N 140) :
    IntMat (toMat (M3.adjugate m)) N.adjugate 39200 := by
  intro r c
  refine (show Ex (entry (M3.adjugate m) c r) ((N.adjugate r c : ℤ) : ℝ) 39200 from ?_).isInt
  rw [← adj_ofInt_mat3]
  obtain ⟨h00, h01, h02, h10, h11, h12, h20, h21, h22⟩ := adj_ex_mat3 h
  fin_cases c <;> fin_cases r <;> assumption

/-- C86, `inverse(mat3)` of an integer matrix with determinant 1 or -1 is exact. -/
theorem C86_inverse_mat3 (m : M3 F32) (N : Matrix (Fin 3) (Fin 3) ℤ) (h : IntMat (toMat m) N 140) (hd : N.det = 1 ∨ N.det = -1) :
    IntMat (toMat (M3.inverse m)) N⁻¹ 39200 := by
  intro r c
  refine (show Ex (entry (M3.inverse m) c r) ((N⁻¹ r c : ℤ) : ℝ) 39200 from ?_).isInt
  have hr : M3.determinant (M3.ofInt N) = 1 ∨ M3.determinant (M3.ofInt N) = -1 := by
    rw [det_ofInt_mat3]; rcases hd with h | h <;> rw [h] <;> simp
  obtain ⟨h00, h01, h02, h10, h11, h12, h20, h21, h22⟩ := cells_mat3 h
  rw [← inv_ofInt_mat3 N hd]
  have side : ∀ t : ℝ, t = M3.determinant (M3.ofInt N) → t = 1 ∨ t = -1 := fun t ht => ht ▸ hr
  generalize M3.ofInt N = m' at *
  clear hd h hr
  fin_cases c <;> fin_cases r
  · show Ex (M3.inverse m).c0.x (M3.inverse m').c0.x _
    simp only [M3.inverse]
    exact_ints
    all_goals first | (norm_num; done) | exact side _ rfl
  · show Ex (M3.inverse m).c0.y (M3.inverse m').c0.y _
    simp only [M3.inverse]
    exact_ints
    all_goals first | (norm_num; done) | exact side _ rfl
  · show Ex (M3.inverse m).c0.z (M3.inverse m').c0.z _
    simp only [M3.inverse]
    exact_ints
    all_goals first | (norm_num; done) | exact side _ rfl
  · show Ex (M3.inverse m).c1.x (M3.inverse m').c1.x _
    simp only [M3.inverse]
    exact_ints
    all_goals first | (norm_num; done) | exact side _ rfl
  · show Ex (M3.inverse m).c1.y (M3.inverse m').c1.y _
    simp only [M3.inverse]
    exact_ints
    all_goals first | (norm_num; done) | exact side _ rfl
  · show Ex (M3.inverse m).c1.z (M3.inverse m').c1.z _
    simp only [M3.inverse]
    exact_ints
    all_goals first | (norm_num; done) | exact side _ rfl
  · show Ex (M3.inverse m).c2.x (M3.inverse m').c2.x _
    simp only [M3.inverse]
    exact_ints
    all_goals first | (norm_num; done) | exact side _ rfl
  · show Ex (M3.inverse m).c2.y (M3.inverse m').c2.y _
    simp only [M3.inverse]
    exact_ints
    all_goals first | (norm_num; done) | exact side _ rfl
  · show Ex (M3.inverse m).c2.z (M3.inverse m').c2.z _
    simp only [M3.inverse]
    exact_ints
    all_goals first | (norm_num; done) | exact side _ rfl

/-- C86, hence `inverse(m) * m == mat3()` and `m * inverse(m) == mat3()` in float arithmetic. -/
theorem C86_inverse_mul_mat3 (m : M3 F32) (N : Matrix (Fin 3) (Fin 3) ℤ) (h : IntMat (toMat m) N 140) (hd : N.det = 1 ∨ N.det = -1) :
    M3.eq (M3.inverse m * m) M3.default = true ∧ M3.eq (m * M3.inverse m) M3.default = true := by
  have hi := C86_inverse_mat3 m N h hd
  have u : IsUnit N.det := by rcases hd with h | h <;> rw [h] <;> decide
  have bound : ∀ (A A' : Matrix (Fin 3) (Fin 3) ℤ) (B B' : ℤ), (∀ r c, |A r c| ≤ B) → (∀ r c, |A' r c| ≤ B') → 3 * (B * B') ≤ 2 ^ 24 →
      ∀ r c, ∑ k, |A r k * A' k c| ≤ 2 ^ 24 := by
    intro A A' B B' h1 h2 h3 r c
    refine le_trans (Finset.sum_le_card_nsmul _ _ (B * B') fun k _ => ?_) ?_
    · rw [abs_mul]
      exact mul_le_mul (h1 r k) (h2 k c) (abs_nonneg _) ((abs_nonneg _).trans (h1 r k))
    · simpa using h3
  have one : ∀ r c, IsInt (entry (M3.default : M3 F32) c r) ((1 : Matrix (Fin 3) (Fin 3) ℤ) r c) := by
    intro r c
    have z : IsInt (lit 0) 0 := ⟨isFin_lit_zero, by rw [val_lit_zero]; rfl⟩
    have o : IsInt (lit 1) 1 := ⟨isFin_lit_one, by rw [val_lit_one]; rfl⟩
    fin_cases r <;> fin_cases c <;> first | exact z | exact o
  rw [(C09_mat3 _ _).1, (C09_mat3 _ _).1]
  constructor
  · intro c r
    refine IsInt.beq (n := (1 : Matrix (Fin 3) (Fin 3) ℤ) r c) ?_ (one r c)
    rw [← Matrix.nonsing_inv_mul N u, Matrix.mul_apply]
    exact C86_mat3_mul _ _ c r _ _ (fun k => (hi r k).1) (fun k => (h k c).1)
      (bound _ _ _ _ (fun r c => (hi r c).2) (fun r c => (h r c).2) (by norm_num) r c)
  · intro c r
    refine IsInt.beq (n := (1 : Matrix (Fin 3) (Fin 3) ℤ) r c) ?_ (one r c)
    rw [← Matrix.mul_nonsing_inv N u, Matrix.mul_apply]
    exact C86_mat3_mul _ _ c r _ _ (fun k => (h r k).1) (fun k => (hi k c).1)
      (bound _ _ _ _ (fun r c => (h r c).2) (fun r c => (hi r c).2) (by norm_num) r c)

/-- the exact matrix with the entries of `N` -/
def M4.ofInt (N : Matrix (Fin 4) (Fin 4) ℤ) : M4 ℝ :=
  ⟨⟨N 0 0, N 1 0, N 2 0, N 3 0⟩, ⟨N 0 1, N 1 1, N 2 1, N 3 1⟩, ⟨N 0 2, N 1 2, N 2 2, N 3 2⟩, ⟨N 0 3, N 1 3, N 2 3, N 3 3⟩⟩

theorem toMat_ofInt_mat4 (N : Matrix (Fin 4) (Fin 4) ℤ) : toMat (M4.ofInt N) = (Int.castRingHom ℝ).mapMatrix N := by
  ext i j; fin_cases i <;> fin_cases j <;> rfl

theorem det_ofInt_mat4 (N : Matrix (Fin 4) (Fin 4) ℤ) : M4.determinant (M4.ofInt N) = (N.det : ℤ) := by
  rw [← M4.det_toMat, toMat_ofInt_mat4, ← RingHom.map_det]; rfl

theorem adj_ofInt_mat4 (N : Matrix (Fin 4) (Fin 4) ℤ) (r c : Fin 4) :
    entry (M4.adjugate (M4.ofInt N)) c r = (N.adjugate r c : ℤ) := by
  show toMat (M4.adjugate (M4.ofInt N)) r c = _
  rw [M4.toMat_adjugate, toMat_ofInt_mat4, ← RingHom.map_adjugate]; rfl

theorem inv_ofInt_mat4 (N : Matrix (Fin 4) (Fin 4) ℤ) (h : N.det = 1 ∨ N.det = -1) (r c : Fin 4) :
    entry (M4.inverse (M4.ofInt N)) c r = (N⁻¹ r c : ℤ) := by
  have e : entry (M4.adjugate (M4.ofInt N) / M4.determinant (M4.ofInt N)) c r =
      entry (M4.adjugate (M4.ofInt N)) c r / M4.determinant (M4.ofInt N) := by
    fin_cases c <;> fin_cases r <;> rfl
  rw [M4.inverse_eq, e, adj_ofInt_mat4, det_ofInt_mat4, inv_of_det h]
  rcases h with h | h <;> simp [h, div_neg]

theorem cells_mat4 {m : M4 F32} {N : Matrix (Fin 4) (Fin 4) ℤ} {B : ℤ} (h : IntMat (toMat m) N B) :
    Ex m.c0.x (M4.ofInt N).c0.x B ∧ Ex m.c0.y (M4.ofInt N).c0.y B ∧ Ex m.c0.z (M4.ofInt N).c0.z B ∧ Ex m.c0.w (M4.ofInt N).c0.w B ∧
    Ex m.c1.x (M4.ofInt N).c1.x B ∧ Ex m.c1.y (M4.ofInt N).c1.y B ∧ Ex m.c1.z (M4.ofInt N).c1.z B ∧ Ex m.c1.w (M4.ofInt N).c1.w B ∧
    Ex m.c2.x (M4.ofInt N).c2.x B ∧ Ex m.c2.y (M4.ofInt N).c2.y B ∧ Ex m.c2.z (M4.ofInt N).c2.z B ∧ Ex m.c2.w (M4.ofInt N).c2.w B ∧
    Ex m.c3.x (M4.ofInt N).c3.x B ∧ Ex m.c3.y (M4.ofInt N).c3.y B ∧ Ex m.c3.z (M4.ofInt N).c3.z B ∧ Ex m.c3.w (M4.ofInt N).c3.w B :=
  ⟨(h 0 0).1.ex (h 0 0).2, (h 1 0).1.ex (h 1 0).2, (h 2 0).1.ex (h 2 0).2, (h 3 0).1.ex (h 3 0).2, (h 0 1).1.ex (h 0 1).2, (h 1 1).1.ex (h 1 1).2, (h 2 1).1.ex (h 2 1).2, (h 3 1).1.ex (h 3 1).2, (h 0 2).1.ex (h 0 2).2, (h 1 2).1.ex (h 1 2).2, (h 2 2).1.ex (h 2 2).2, (h 3 2).1.ex (h 3 2).2, (h 0 3).1.ex (h 0 3).2, (h 1 3).1.ex (h 1 3).2, (h 2 3).1.ex (h 2 3).2, (h 3 3).1.ex (h 3 3).2⟩

/-- C86, `determinant(mat4)` is exact for integer entries of magnitude at most 28. -/
theorem C86_determinant_mat4 (m : M4 F32) (N : Matrix (Fin 4) (Fin 4) ℤ) (h : IntMat (toMat m) N 28) :
    IsInt (M4.determinant m) N.det := by
  refine (show Ex _ ((N.det : ℤ) : ℝ) 14751744 from ?_).isInt.1
  obtain ⟨h00, h01, h02, h03, h10, h11, h12, h13, h20, h21, h22, h23, h30, h31, h32, h33⟩ := cells_mat4 h
  rw [← det_ofInt_mat4]
  generalize M4.ofInt N = m' at *
  unfold M4.determinant
  exact_ints
  all_goals norm_num

theorem adj_ex_mat4 {m : M4 F32} {N : Matrix (Fin 4) (Fin 4) ℤ} (h : IntMat (toMat m) N 28) :
    Ex (M4.adjugate m).c0.x (M4.adjugate (M4.ofInt N)).c0.x 131712 ∧ Ex (M4.adjugate m).c0.y (M4.adjugate (M4.ofInt N)).c0.y 131712 ∧ Ex (M4.adjugate m).c0.z (M4.adjugate (M4.ofInt N)).c0.z 131712 ∧ Ex (M4.adjugate m).c0.w (M4.adjugate (M4.ofInt N)).c0.w 131712 ∧
    Ex (M4.adjugate m).c1.x (M4.adjugate (M4.ofInt N)).c1.x 131712 ∧ Ex (M4.adjugate m).c1.y (M4.adjugate (M4.ofInt N)).c1.y 131712 ∧ Ex (M4.adjugate m).c1.z (M4.adjugate (M4.ofInt N)).c1.z 131712 ∧ Ex (M4.adjugate m).c1.w (M4.adjugate (M4.ofInt N)).c1.w 131712 ∧
    Ex (M4.adjugate m).c2.x (M4.adjugate (M4.ofInt N)).c2.x 131712 ∧ Ex (M4.adjugate m).c2.y (M4.adjugate (M4.ofInt N)).c2.y 131712 ∧ Ex (M4.adjugate m).c2.z (M4.adjugate (M4.ofInt N)).c2.z 131712 ∧ Ex (M4.adjugate m).c2.w (M4.adjugate (M4.ofInt N)).c2.w 131712 ∧
    Ex (M4.adjugate m).c3.x (M4.adjugate (M4.ofInt N)).c3.x 131712 ∧ Ex (M4.adjugate m).c3.y (M4.adjugate (M4.ofInt N)).c3.y 131712 ∧ Ex (M4.adjugate m).c3.z (M4.adjugate (M4.ofInt N)).c3.z 131712 ∧ Ex (M4.adjugate m).c3.w (M4.adjugate (M4.ofInt N)).c3.w 131712 := by
  obtain ⟨h00, h01, h02, h03, h10, h11, h12, h13, h20, h21, h22, h23, h30, h31, h32, h33⟩ := cells_mat4 h
  generalize M4.ofInt N = m' at *
  clear h
  refine ⟨?_, ?_, ?_, ?_, ?_, ?_, ?_, ?_, ?_, ?_, ?_, ?_, ?_, ?_, ?_, ?_⟩
  all_goals
    simp only [M4.adjugate, V4.mul_x, V4.mul_y, V4.mul_z, V4.mul_w, V4.sub_x, V4.sub_y, V4.sub_z, V4.sub_w, V4.add_x, V4.add_y, V4.add_z, V4.add_w]
    exact_ints
    all_goals norm_num

/-- C86, `adjugate(mat4)`. -/
theorem C86_adjugate_mat4 (m : M4 F32) (N : Matrix (Fin 4) (Fin 4) ℤ) (h : IntMat (toMat m) N 28) :
    IntMat (toMat (M4.adjugate m)) N.adjugate 131712 := by
  intro r c
  refine (show Ex (entry (M4.adjugate m) c r) ((N.adjugate r c : ℤ) : ℝ) 131712 from ?_).isInt
  rw [← adj_ofInt_mat4]
  obtain ⟨h00, h01, h02, h03, h10, h11, h12, h13, h20, h21, h22, h23, h30, h31, h32, h33⟩ := adj_ex_mat4 h
  fin_cases c <;> fin_cases r <;> assumption

theorem inverse_adj_mat4 {α : Type} [Add α] [Sub α] [Mul α] [Div α] [Neg α] [FloatOps α] (m : M4 α) :
    M4.inverse m = M4.adjugate m * (lit 1 /
      (m.c0.x * (M4.adjugate m).c0.x + m.c0.y * (M4.adjugate m).c1.x +
        (m.c0.z * (M4.adjugate m).c2.x + m.c0.w * (M4.adjugate m).c3.x))) := rfl

/-- C86, `inverse(mat4)` of an integer matrix with determinant 1 or -1 is exact. -/
theorem C86_inverse_mat4 (m : M4 F32) (N : Matrix (Fin 4) (Fin 4) ℤ) (h : IntMat (toMat m) N 28) (hd : N.det = 1 ∨ N.det = -1) :
    IntMat (toMat (M4.inverse m)) N⁻¹ 131712 := by
  intro r c
  refine (show Ex (entry (M4.inverse m) c r) ((N⁻¹ r c : ℤ) : ℝ) 131712 from ?_).isInt
  have hr : M4.determinant (M4.ofInt N) = 1 ∨ M4.determinant (M4.ofInt N) = -1 := by
    rw [det_ofInt_mat4]; rcases hd with h | h <;> rw [h] <;> simp
  obtain ⟨h00, h01, h02, h03, h10, h11, h12, h13, h20, h21, h22, h23, h30, h31, h32, h33⟩ := cells_mat4 h
  rw [← inv_ofInt_mat4 N hd]
  have side : ∀ t : ℝ, t = M4.determinant (M4.ofInt N) → t = 1 ∨ t = -1 := fun t ht => ht ▸ hr
  obtain ⟨a00, a01, a02, a03, a10, a11, a12, a13, a20, a21, a22, a23, a30, a31, a32, a33⟩ := adj_ex_mat4 h
  have e : (M4.ofInt N).c0.x * (M4.adjugate (M4.ofInt N)).c0.x + (M4.ofInt N).c0.y * (M4.adjugate (M4.ofInt N)).c1.x +
      ((M4.ofInt N).c0.z * (M4.adjugate (M4.ofInt N)).c2.x + (M4.ofInt N).c0.w * (M4.adjugate (M4.ofInt N)).c3.x) =
      M4.determinant (M4.ofInt N) := by
    simp [M4.adjugate, M4.determinant]; ring
  have side := side _ e
  rw [inverse_adj_mat4, inverse_adj_mat4]
  generalize M4.adjugate m = A at *
  generalize M4.adjugate (M4.ofInt N) = A' at *
  generalize M4.ofInt N = m' at *
  clear hd h hr e
  fin_cases c <;> fin_cases r
  · show Ex (A.c0.x * _) (A'.c0.x * _) _
    exact_ints
    all_goals first | exact side | norm_num
  · show Ex (A.c0.y * _) (A'.c0.y * _) _
    exact_ints
    all_goals first | exact side | norm_num
  · show Ex (A.c0.z * _) (A'.c0.z * _) _
    exact_ints
    all_goals first | exact side | norm_num
  · show Ex (A.c0.w * _) (A'.c0.w * _) _
    exact_ints
    all_goals first | exact side | norm_num
  · show Ex (A.c1.x * _) (A'.c1.x * _) _
    exact_ints
    all_goals first | exact side | norm_num
  · show Ex (A.c1.y * _) (A'.c1.y * _) _
    exact_ints
    all_goals first | exact side | norm_num
  · show Ex (A.c1.z * _) (A'.c1.z * _) _
    exact_ints
    all_goals first | exact side | norm_num
  · show Ex (A.c1.w * _) (A'.c1.w * _) _
    exact_ints
    all_goals first | exact side | norm_num
  · show Ex (A.c2.x * _) (A'.c2.x * _) _
    exact_ints
    all_goals first | exact side | norm_num
  · show Ex (A.c2.y * _) (A'.c2.y * _) _
    exact_ints
    all_goals first | exact side | norm_num
  · show Ex (A.c2.z * _) (A'.c2.z * _) _
    exact_ints
    all_goals first | exact side | norm_num
  · show Ex (A.c2.w * _) (A'.c2.w * _) _
    exact_ints
    all_goals first | exact side | norm_num
  · show Ex (A.c3.x * _) (A'.c3.x * _) _
    exact_ints
    all_goals first | exact side | norm_num
  · show Ex (A.c3.y * _) (A'.c3.y * _) _
    exact_ints
    all_goals first | exact side | norm_num
  · show Ex (A.c3.z * _) (A'.c3.z * _) _
    exact_ints
    all_goals first | exact side | norm_num
  · show Ex (A.c3.w * _) (A'.c3.w * _) _
    exact_ints
    all_goals first | exact side | norm_num

/-- C86, hence `inverse(m) * m == mat4()` and `m * inverse(m) == mat4()` in float arithmetic. -/
theorem C86_inverse_mul_mat4 (m : M4 F32) (N : Matrix (Fin 4) (Fin 4) ℤ) (h : IntMat (toMat m) N 28) (hd : N.det = 1 ∨ N.det = -1) :
    M4.eq (M4.inverse m * m) M4.default = true ∧ M4.eq (m * M4.inverse m) M4.default = true := by
  have hi := C86_inverse_mat4 m N h hd
  have u : IsUnit N.det := by rcases hd with h | h <;> rw [h] <;> decide
  have bound : ∀ (A A' : Matrix (Fin 4) (Fin 4) ℤ) (B B' : ℤ), (∀ r c, |A r c| ≤ B) → (∀ r c, |A' r c| ≤ B') → 4 * (B * B') ≤ 2 ^ 24 →
      ∀ r c, ∑ k, |A r k * A' k c| ≤ 2 ^ 24 := by
    intro A A' B B' h1 h2 h3 r c
    refine le_trans (Finset.sum_le_card_nsmul _ _ (B * B') fun k _ => ?_) ?_
    · rw [abs_mul]
      exact mul_le_mul (h1 r k) (h2 k c) (abs_nonneg _) ((abs_nonneg _).trans (h1 r k))
    · simpa using h3
  have one : ∀ r c, IsInt (entry (M4.default : M4 F32) c r) ((1 : Matrix (Fin 4) (Fin 4) ℤ) r c) := by
    intro r c
    have z : IsInt (lit 0) 0 := ⟨isFin_lit_zero, by rw [val_lit_zero]; rfl⟩
    have o : IsInt (lit 1) 1 := ⟨isFin_lit_one, by rw [val_lit_one]; rfl⟩
    fin_cases r <;> fin_cases c <;> first | exact z | exact o
  rw [(C09_mat4 _ _).1, (C09_mat4 _ _).1]
  constructor
  · intro c r
    refine IsInt.beq (n := (1 : Matrix (Fin 4) (Fin 4) ℤ) r c) ?_ (one r c)
    rw [← Matrix.nonsing_inv_mul N u, Matrix.mul_apply]
    exact C86_mat4_mul _ _ c r _ _ (fun k => (hi r k).1) (fun k => (h k c).1)
      (bound _ _ _ _ (fun r c => (hi r c).2) (fun r c => (h r c).2) (by norm_num) r c)
  · intro c r
    refine IsInt.beq (n := (1 : Matrix (Fin 4) (Fin 4) ℤ) r c) ?_ (one r c)
    rw [← Matrix.mul_nonsing_inv N u, Matrix.mul_apply]
    exact C86_mat4_mul _ _ c r _ _ (fun k => (h r k).1) (fun k => (hi k c).1)
      (bound _ _ _ _ (fun r c => (h r c).2) (fun r c => (hi r c).2) (by norm_num) r c)

/-! Non-vacuity. -/
instance (x : F32) (n : ℤ) : Decidable (IsInt x n) := inferInstanceAs (Decidable (_ ∧ _))

example : IntMat (toMat (⟨⟨lit 2, lit 1⟩, ⟨lit 7, lit 4⟩⟩ : M2 F32)) !![2, 7; 1, 4] 2896 ∧
    (!![2, 7; 1, 4] : Matrix (Fin 2) (Fin 2) ℤ).det = 1 := by
  refine ⟨fun r c => ?_, by decide⟩
  fin_cases r <;> fin_cases c <;> decide +kernel

example : IntMat (toMat (⟨⟨lit 1, lit 0, lit 5⟩, ⟨lit 2, lit 1, lit 6⟩, ⟨lit 3, lit 4, lit 0⟩⟩ : M3 F32))
      !![1, 2, 3; 0, 1, 4; 5, 6, 0] 140 ∧ (!![1, 2, 3; 0, 1, 4; 5, 6, 0] : Matrix (Fin 3) (Fin 3) ℤ).det = 1 := by
  refine ⟨fun r c => ?_, by decide⟩
  fin_cases r <;> fin_cases c <;> decide +kernel

example : IntMat (toMat (⟨⟨lit 1, lit 0, lit 0, lit 2⟩, ⟨lit 3, lit 1, lit 0, lit 0⟩, ⟨lit 0, lit (-5), lit 1, lit 0⟩,
      ⟨lit 0, lit 0, lit 7, lit 1⟩⟩ : M4 F32)) !![1, 3, 0, 0; 0, 1, -5, 0; 0, 0, 1, 7; 2, 0, 0, 1] 28 := by
  intro r c
  fin_cases r <;> fin_cases c <;> decide +kernel

/-- the operands are integers below the bound and the product is exact; beyond the bound it is not -/
example : ExactSum (V2.dot ⟨lit 4095, lit 3⟩ ⟨lit 4096, lit (-1)⟩) (coord (⟨lit 4095, lit 3⟩ : V2 F32))
      (coord (⟨lit 4096, lit (-1)⟩ : V2 F32)) ∧
    IsInt (V2.dot ⟨lit 4095, lit 3⟩ ⟨lit 4096, lit (-1)⟩) 16773117 ∧
    ¬ IsInt (V2.dot ⟨lit 4096, lit 1⟩ ⟨lit 4096, lit 1⟩ : F32) 16777217 :=
  ⟨(C86_dot_vec2 _ _).1, by decide +kernel, by decide +kernel⟩

end Zcm
