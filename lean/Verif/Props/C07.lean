import Verif.Lemmas.Names

/-!
# C07: swizzles return the components they name

For each vector type: reading a swizzle member gives the vector of the components its letters
name, in the order of the letters; the member names are exactly the legal swizzle names
(`SwizzleName`), and no name occurs twice.
-/

namespace Zcm

/-- C07 for `vec2`: what every swizzle member reads. -/
theorem C07_vec2 {β : Type} (v : V2 β) : ∀ sw ∈ V2.swizzles,
    ∃ r, sw.read v.data = some r ∧ r.toList.map some = sw.name.map (named v) := by
  intro sw h
  rw [V2_swizzles] at h
  obtain ⟨r, h1, h2⟩ := read_table (by decide) h v.data
  refine ⟨r, h1, h2.trans (List.map_congr_left fun l _ => ?_)⟩
  have hd : ∀ j, V2.data v j = coord v j := by intro j; fin_cases j <;> rfl
  simp only [named, hd]

/-- C07 for `vec2`: which swizzle members exist. -/
theorem C07_vec2_names (name : List Letter) :
    (∃ sw ∈ V2.swizzles, sw.name = name) ↔ SwizzleName 2 name := by
  rw [V2_swizzles]; exact names_table (by decide) name

/-- C07 for `vec2`: no name is declared twice. -/
theorem C07_vec2_nodup : (V2.swizzles.map Swizzle.name).Nodup :=
  nodup_of_key (by decide +kernel)

/-- C07 for `vec3`: what every swizzle member reads. -/
theorem C07_vec3 {β : Type} (v : V3 β) : ∀ sw ∈ V3.swizzles,
    ∃ r, sw.read v.data = some r ∧ r.toList.map some = sw.name.map (named v) := by
  intro sw h
  rw [V3_swizzles] at h
  obtain ⟨r, h1, h2⟩ := read_table (by decide) h v.data
  refine ⟨r, h1, h2.trans (List.map_congr_left fun l _ => ?_)⟩
  have hd : ∀ j, V3.data v j = coord v j := by intro j; fin_cases j <;> rfl
  simp only [named, hd]

/-- C07 for `vec3`: which swizzle members exist. -/
theorem C07_vec3_names (name : List Letter) :
    (∃ sw ∈ V3.swizzles, sw.name = name) ↔ SwizzleName 3 name := by
  rw [V3_swizzles]; exact names_table (by decide) name

/-- C07 for `vec3`: no name is declared twice. -/
theorem C07_vec3_nodup : (V3.swizzles.map Swizzle.name).Nodup :=
  nodup_of_key (by decide +kernel)

/-- C07 for `vec4`: what every swizzle member reads. -/
theorem C07_vec4 {β : Type} (v : V4 β) : ∀ sw ∈ V4.swizzles,
    ∃ r, sw.read v.data = some r ∧ r.toList.map some = sw.name.map (named v) := by
  intro sw h
  rw [V4_swizzles] at h
  obtain ⟨r, h1, h2⟩ := read_table (by decide) h v.data
  refine ⟨r, h1, h2.trans (List.map_congr_left fun l _ => ?_)⟩
  have hd : ∀ j, V4.data v j = coord v j := by intro j; fin_cases j <;> rfl
  simp only [named, hd]

/-- C07 for `vec4`: which swizzle members exist. -/
theorem C07_vec4_names (name : List Letter) :
    (∃ sw ∈ V4.swizzles, sw.name = name) ↔ SwizzleName 4 name := by
  rw [V4_swizzles]; exact names_table (by decide) name

/-- C07 for `vec4`: no name is declared twice. -/
theorem C07_vec4_nodup : (V4.swizzles.map Swizzle.name).Nodup :=
  nodup_of_key (by decide +kernel)

/-- C07 for `ivec2`: what every swizzle member reads. -/
theorem C07_ivec2 (v : V2 I32) : ∀ sw ∈ IV2.swizzles,
    ∃ r, sw.read v.data = some r ∧ r.toList.map some = sw.name.map (named v) := by
  intro sw h
  rw [IV2_swizzles] at h
  obtain ⟨r, h1, h2⟩ := read_table (by decide) h v.data
  refine ⟨r, h1, h2.trans (List.map_congr_left fun l _ => ?_)⟩
  have hd : ∀ j, V2.data v j = coord v j := by intro j; fin_cases j <;> rfl
  simp only [named, hd]

/-- C07 for `ivec2`: which swizzle members exist. -/
theorem C07_ivec2_names (name : List Letter) :
    (∃ sw ∈ IV2.swizzles, sw.name = name) ↔ SwizzleName 2 name := by
  rw [IV2_swizzles]; exact names_table (by decide) name

/-- C07 for `ivec2`: no name is declared twice. -/
theorem C07_ivec2_nodup : (IV2.swizzles.map Swizzle.name).Nodup :=
  nodup_of_key (by decide +kernel)

/-- C07 for `ivec3`: what every swizzle member reads. -/
theorem C07_ivec3 (v : V3 I32) : ∀ sw ∈ IV3.swizzles,
    ∃ r, sw.read v.data = some r ∧ r.toList.map some = sw.name.map (named v) := by
  intro sw h
  rw [IV3_swizzles] at h
  obtain ⟨r, h1, h2⟩ := read_table (by decide) h v.data
  refine ⟨r, h1, h2.trans (List.map_congr_left fun l _ => ?_)⟩
  have hd : ∀ j, V3.data v j = coord v j := by intro j; fin_cases j <;> rfl
  simp only [named, hd]

/-- C07 for `ivec3`: which swizzle members exist. -/
theorem C07_ivec3_names (name : List Letter) :
    (∃ sw ∈ IV3.swizzles, sw.name = name) ↔ SwizzleName 3 name := by
  rw [IV3_swizzles]; exact names_table (by decide) name

/-- C07 for `ivec3`: no name is declared twice. -/
theorem C07_ivec3_nodup : (IV3.swizzles.map Swizzle.name).Nodup :=
  nodup_of_key (by decide +kernel)

/-- C07 for `ivec4`: what every swizzle member reads. -/
theorem C07_ivec4 (v : V4 I32) : ∀ sw ∈ IV4.swizzles,
    ∃ r, sw.read v.data = some r ∧ r.toList.map some = sw.name.map (named v) := by
  intro sw h
  rw [IV4_swizzles] at h
  obtain ⟨r, h1, h2⟩ := read_table (by decide) h v.data
  refine ⟨r, h1, h2.trans (List.map_congr_left fun l _ => ?_)⟩
  have hd : ∀ j, V4.data v j = coord v j := by intro j; fin_cases j <;> rfl
  simp only [named, hd]

/-- C07 for `ivec4`: which swizzle members exist. -/
theorem C07_ivec4_names (name : List Letter) :
    (∃ sw ∈ IV4.swizzles, sw.name = name) ↔ SwizzleName 4 name := by
  rw [IV4_swizzles]; exact names_table (by decide) name

/-- C07 for `ivec4`: no name is declared twice. -/
theorem C07_ivec4_nodup : (IV4.swizzles.map Swizzle.name).Nodup :=
  nodup_of_key (by decide +kernel)

/-! ## `format_as`: the value handed to a formatting library is the value the member reads -/

theorem C07_vec2_format_as {β : Type} (v : V2 β) :
    (∀ l i, (l, i) ∈ V2.scalars → some (Acc.format_as v.data i) = named v l) ∧
    ∀ sw ∈ V2.swizzles, ∃ r, sw.format_as v.data = some r ∧ r.toList.map some = sw.name.map (named v) := by
  refine ⟨?_, C07_vec2 v⟩
  intro l i h
  revert l i
  intro l i; cases l <;> fin_cases i <;> first | (intro _; rfl) | (intro h; exact absurd h (by decide))

theorem C07_vec3_format_as {β : Type} (v : V3 β) :
    (∀ l i, (l, i) ∈ V3.scalars → some (Acc.format_as v.data i) = named v l) ∧
    ∀ sw ∈ V3.swizzles, ∃ r, sw.format_as v.data = some r ∧ r.toList.map some = sw.name.map (named v) := by
  refine ⟨?_, C07_vec3 v⟩
  intro l i h
  revert l i
  intro l i; cases l <;> fin_cases i <;> first | (intro _; rfl) | (intro h; exact absurd h (by decide))

theorem C07_vec4_format_as {β : Type} (v : V4 β) :
    (∀ l i, (l, i) ∈ V4.scalars → some (Acc.format_as v.data i) = named v l) ∧
    ∀ sw ∈ V4.swizzles, ∃ r, sw.format_as v.data = some r ∧ r.toList.map some = sw.name.map (named v) := by
  refine ⟨?_, C07_vec4 v⟩
  intro l i h
  revert l i
  intro l i; cases l <;> fin_cases i <;> first | (intro _; rfl) | (intro h; exact absurd h (by decide))

theorem C07_ivec2_format_as (v : V2 I32) :
    (∀ l i, (l, i) ∈ IV2.scalars → some (Acc.format_as v.data i) = named v l) ∧
    ∀ sw ∈ IV2.swizzles, ∃ r, sw.format_as v.data = some r ∧ r.toList.map some = sw.name.map (named v) := by
  refine ⟨?_, C07_ivec2 v⟩
  intro l i h
  revert l i
  intro l i; cases l <;> fin_cases i <;> first | (intro _; rfl) | (intro h; exact absurd h (by decide))

theorem C07_ivec3_format_as (v : V3 I32) :
    (∀ l i, (l, i) ∈ IV3.scalars → some (Acc.format_as v.data i) = named v l) ∧
    ∀ sw ∈ IV3.swizzles, ∃ r, sw.format_as v.data = some r ∧ r.toList.map some = sw.name.map (named v) := by
  refine ⟨?_, C07_ivec3 v⟩
  intro l i h
  revert l i
  intro l i; cases l <;> fin_cases i <;> first | (intro _; rfl) | (intro h; exact absurd h (by decide))

theorem C07_ivec4_format_as (v : V4 I32) :
    (∀ l i, (l, i) ∈ IV4.scalars → some (Acc.format_as v.data i) = named v l) ∧
    ∀ sw ∈ IV4.swizzles, ∃ r, sw.format_as v.data = some r ∧ r.toList.map some = sw.name.map (named v) := by
  refine ⟨?_, C07_ivec4 v⟩
  intro l i h
  revert l i
  intro l i; cases l <;> fin_cases i <;> first | (intro _; rfl) | (intro h; exact absurd h (by decide))

/-- Non-vacuity: `zxyw` is a legal name, `xg` (mixed sets) and `xyz` on a `vec2` are not. -/
example : SwizzleName 4 [.z, .x, .y, .w] ∧ ¬ SwizzleName 4 [.x, .g] ∧ ¬ SwizzleName 2 [.x, .y, .z] := by
  refine ⟨⟨by decide, by decide, ⟨[.x, .y, .z, .w], by decide, by decide⟩, by decide⟩, ?_, ?_⟩
  · rintro ⟨-, -, ⟨s, hs, h⟩, -⟩
    revert s; decide
  · rintro ⟨-, h, -⟩
    exact absurd h (by decide)

end Zcm
