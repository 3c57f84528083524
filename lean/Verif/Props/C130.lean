import Verif.Props.C06
/-!
# C130: a component is a table of fields

Setting fields one after the other gives a component in which every name has the value it was last
given.  The two ways of looking a field up differ only when a component has several fields of one name.
-/

namespace Verif
open Sch Spec

set_option linter.unusedSectionVars false

variable {F : Type} [Flt F]

/-- Setting fields one after the other with `add_or_update_field`. -/
def Spec.setFields (template : Sch.Field F) : List (Str × Str) → Component F → Res (Component F)
  | [], c => .ok c
  | (k, v) :: r, c => do
    let (c', _) ← c.addOrUpdateField template k v
    setFields template r c'

/-- The value that a name was last given. -/
def Spec.lastGiven (sets : List (Str × Str)) (k : Str) : Option Str :=
  (sets.reverse.find? fun x => x.1 = k).map (·.2)

/-- There are numbers left for so many new fields. -/
def Spec.RoomFor (n : Nat) (c : Component F) : Prop :=
  (n : Int) ≤ lastI64 ∧ ∀ f ∈ c.fields, f.i + n ≤ lastI64

instance (n : Nat) (c : Component F) : Decidable (RoomFor n c) := inferInstanceAs (Decidable (_ ∧ _))

/-- The names of the fields. -/
def Spec.fieldNames (c : Component F) : List Str := c.fields.map (·.name)

namespace Table

theorem value_none (c : Component F) (k : Str) : c.getFieldValue k = none ↔ k ∉ fieldNames c := by
  simp [Component.getFieldValue, fieldNames, List.find?_eq_none]

/-- One call. -/
theorem step (c : Component F) (t : Sch.Field F) (k v : Str) (n : Nat) (h : RoomFor (n + 1) c) :
    ∃ c' r, c.addOrUpdateField t k v = .ok (c', r) ∧ RoomFor n c' ∧
      fieldNames c' = (if k ∈ fieldNames c then fieldNames c else fieldNames c ++ [k]) ∧
      ∀ j, c'.getFieldValue j = if j = k then some v else c.getFieldValue j := by
  have hn := h.1
  have hi : ∀ f ∈ c.fields, f.i < lastI64 := fun f hf => by have := h.2 f hf; omega
  have hroom : RoomFor n c := ⟨by omega, fun f hf => by have := h.2 f hf; omega⟩
  cases hv : c.getFieldValue k with
  | none =>
    obtain ⟨c', f, h1, _, h3, h4, h5, _, _, _, _, _, h6⟩ := C06_fresh_number c t k v hi
    have hk := (value_none c k).1 hv
    refine ⟨c', .new, by simp only [Component.addOrUpdateField, hv, h1, Res.bind_ok], ⟨hroom.1, ?_⟩, ?_, ?_⟩
    · intro g hg
      rw [h3, List.mem_append, List.mem_singleton] at hg
      rcases hg with hg | rfl
      · exact hroom.2 g hg
      · rcases h6 with h6 | ⟨g', hg', h6⟩
        · omega
        · have := h.2 g' hg'; omega
    · rw [if_neg hk]
      simp [fieldNames, h3, h4]
    · intro j
      simp only [Component.getFieldValue, h3, List.find?_append]
      by_cases hj : j = k
      · subst hj
        have : (c.fields.find? fun f => f.name = j) = none := by
          simpa [Component.getFieldValue] using hv
        rw [this, if_pos rfl]
        simp [h4, h5]
      · rw [if_neg hj]
        have h7 : ¬ f.name = j := fun e => hj (e.symm.trans h4)
        simp [h7]
  | some old =>
    have hk : k ∈ fieldNames c := by
      by_contra hk
      rw [(value_none c k).2 hk] at hv
      cases hv
    rw [if_pos hk]
    by_cases ho : old = v
    · subst ho
      refine ⟨c, .same, by simp [Component.addOrUpdateField, hv], hroom, rfl, ?_⟩
      intro j
      by_cases hj : j = k
      · rw [if_pos hj, hj, hv]
      · rw [if_neg hj]
    · have hname : ∀ f : Sch.Field F, (f.updated k v).name = f.name := by
        intro f; simp only [Field.updated]; split_ifs <;> rfl
      have hi' : ∀ f : Sch.Field F, (f.updated k v).i = f.i := by
        intro f; simp only [Field.updated]; split_ifs <;> rfl
      have hval : ∀ f : Sch.Field F, (f.updated k v).value = if f.name = k then v else f.value := by
        intro f; simp only [Field.updated]; split_ifs <;> rfl
      refine ⟨c.updateField k v, .update old, by simp [Component.addOrUpdateField, hv, ho], ⟨hroom.1, ?_⟩, ?_, ?_⟩
      · intro f hf
        obtain ⟨g, hg, rfl⟩ := List.mem_map.1 hf
        rw [hi']
        exact hroom.2 g hg
      · simp only [fieldNames, Component.updateField, List.map_map]
        exact List.map_congr_left fun f _ => hname f
      · intro j
        have e1 : ((fun f : Sch.Field F => decide (f.name = j)) ∘ fun f : Sch.Field F => f.updated k v) =
            fun f : Sch.Field F => decide (f.name = j) := by
          funext f; simp [hname]
        simp only [Component.getFieldValue, Component.updateField, List.find?_map, e1, Option.map_map] at hv ⊢
        cases hf : c.fields.find? fun f => decide (f.name = j) with
        | none =>
          by_cases hj : j = k
          · subst hj; rw [hf] at hv; cases hv
          · rw [if_neg hj]; rfl
        | some f =>
          have hfj : f.name = j := by simpa using List.find?_some hf
          simp only [Option.map_some, Function.comp_apply, hval, hfj]
          by_cases hj : j = k
          · simp [hj]
          · simp [hj]

theorem lastGiven_cons (k v : Str) (r : List (Str × Str)) (j : Str) :
    lastGiven ((k, v) :: r) j = (lastGiven r j).or (if j = k then some v else none) := by
  simp only [lastGiven, List.reverse_cons, List.find?_append]
  cases (r.reverse.find? fun x => x.1 = j) with
  | some x => simp
  | none =>
    by_cases hj : j = k
    · simp [hj]
    · have : ¬ k = j := fun e => hj e.symm
      simp [hj, this]

/-- First and last field of a name. -/
theorem nodup_find (l : List (Sch.Field F)) (h : (l.map (·.name)).Nodup) (k : Str) :
    (l.reverse.find? fun f => f.name = k) = l.find? fun f => f.name = k := by
  induction l with
  | nil => rfl
  | cons f l ih =>
    rw [List.map_cons, List.nodup_cons] at h
    rw [List.reverse_cons, List.find?_append, ih h.2, List.find?_cons]
    by_cases hk : f.name = k
    · have : (l.find? fun f => f.name = k) = none := by
        rw [List.find?_eq_none]
        intro g hg he
        refine h.1 (List.mem_map.2 ⟨g, hg, ?_⟩)
        rw [hk]; simpa using he
      simp [this, hk]
    · simp [hk]

end Table

/-- Every name has the value it was last given, or else the value it had. -/
theorem C130_table (c : Component F) (t : Sch.Field F) (sets : List (Str × Str)) (h : RoomFor sets.length c) :
    ∃ c', setFields t sets c = .ok c' ∧ ∀ k, c'.getFieldValue k = (lastGiven sets k).or (c.getFieldValue k) := by
  induction sets generalizing c with
  | nil => exact ⟨c, rfl, fun k => rfl⟩
  | cons x r ih =>
    obtain ⟨k, v⟩ := x
    obtain ⟨c1, _, h1, h2, _, h4⟩ := Table.step c t k v r.length h
    obtain ⟨c', h5, h6⟩ := ih c1 h2
    refine ⟨c', by simp only [setFields, h1, Res.bind_ok, h5], fun j => ?_⟩
    rw [h6, h4, Table.lastGiven_cons]
    cases lastGiven r j with
    | some x => rfl
    | none => by_cases hj : j = k <;> simp [hj]

/-- Exactly the names that were not there are added, each once, behind the others. -/
theorem C130_names (c c' : Component F) (t : Sch.Field F) (sets : List (Str × Str)) (h : RoomFor sets.length c)
    (hc : setFields t sets c = .ok c') :
    ∃ added, fieldNames c' = fieldNames c ++ added ∧ added.Nodup ∧
      ∀ k, k ∈ added ↔ k ∈ sets.map (·.1) ∧ k ∉ fieldNames c := by
  induction sets generalizing c with
  | nil => cases hc; exact ⟨[], by simp, List.nodup_nil, by simp⟩
  | cons x r ih =>
    obtain ⟨k, v⟩ := x
    obtain ⟨c1, _, h1, h2, h3, _⟩ := Table.step c t k v r.length h
    simp only [setFields, h1, Res.bind_ok] at hc
    obtain ⟨added, h5, h6, h7⟩ := ih c1 h2 hc
    by_cases hk : k ∈ fieldNames c
    · rw [if_pos hk] at h3
      rw [h3] at h5 h7
      refine ⟨added, h5, h6, fun j => ?_⟩
      rw [h7, List.map_cons, List.mem_cons]
      constructor
      · rintro ⟨h8, h9⟩; exact ⟨Or.inr h8, h9⟩
      · rintro ⟨rfl | h8, h9⟩
        · exact absurd hk h9
        · exact ⟨h8, h9⟩
    · rw [if_neg hk] at h3
      rw [h3] at h5 h7
      refine ⟨k :: added, by rw [h5]; simp, List.nodup_cons.2 ⟨fun h8 => ?_, h6⟩, fun j => ?_⟩
      · exact ((h7 k).1 h8).2 (by simp)
      · rw [List.mem_cons, h7, List.map_cons, List.mem_cons, List.mem_append, List.mem_singleton]
        constructor
        · rintro (rfl | ⟨h8, h9⟩)
          · exact ⟨Or.inl rfl, hk⟩
          · exact ⟨Or.inr h8, fun h10 => h9 (Or.inl h10)⟩
        · rintro ⟨rfl | h8, h9⟩
          · exact Or.inl rfl
          · by_cases hj : j = k
            · exact Or.inl hj
            · exact Or.inr ⟨h8, fun h10 => h10.elim h9 hj⟩

/-- `get_field` finds the first field of a name, and `get_field_value` shows the value of what it finds. -/
theorem C130_get_field (c : Component F) (k : Str) :
    (∀ f, c.getField k = some f ↔ ∃ a b, c.fields = a ++ f :: b ∧ f.name = k ∧ ∀ g ∈ a, g.name ≠ k) ∧
    (c.getField k = none ↔ k ∉ fieldNames c) ∧ c.getFieldValue k = (c.getField k).map (·.value) := by
  refine ⟨fun f => ?_, ?_, rfl⟩
  · rw [Component.getField, List.find?_eq_some_iff_append]
    constructor
    · rintro ⟨h1, a, b, h2, h3⟩
      exact ⟨a, b, h2, by simpa using h1, fun g hg => by simpa using h3 g hg⟩
    · rintro ⟨a, b, h2, h1, h3⟩
      exact ⟨by simpa using h1, a, b, h2, fun g hg => by simpa using h3 g hg⟩
  · rw [Component.getField, List.find?_eq_none]
    simp [fieldNames]

/-- Without two fields of one name the map of all fields agrees with looking them up one by one, and it
stays so. -/
theorem C130_hash (c : Component F) (h : (fieldNames c).Nodup) (k : Str) : c.fieldsHash k = c.getFieldValue k := by
  rw [C05_fields_hash, Table.nodup_find _ h]
  rfl

theorem C130_hash_stays (c c' : Component F) (t : Sch.Field F) (sets : List (Str × Str)) (h : RoomFor sets.length c)
    (hc : setFields t sets c = .ok c') (hn : (fieldNames c).Nodup) (k : Str) :
    c'.fieldsHash k = (lastGiven sets k).or (c.fieldsHash k) := by
  obtain ⟨added, h1, h2, h3⟩ := C130_names c c' t sets h hc
  obtain ⟨c2, h4, h5⟩ := C130_table c t sets h
  rw [hc] at h4
  cases h4
  rw [C130_hash c' ?_ k, h5, C130_hash c hn]
  rw [h1]
  refine List.nodup_append.2 ⟨hn, h2, ?_⟩
  rintro a ha b hb rfl
  exact ((h3 a).1 hb).2 ha

/-- With several fields of one name, setting it can leave the map with another value: exactly if the
first of them had the value already and the last one had not. -/
theorem C130_hash_exact (c c' : Component F) (t : Sch.Field F) (k v : Str) (r : FieldUpdate) (h : RoomFor 1 c)
    (hc : c.addOrUpdateField t k v = .ok (c', r)) :
    c'.fieldsHash k ≠ some v ↔ c.getFieldValue k = some v ∧ c.fieldsHash k ≠ some v := by
  have hi : ∀ f ∈ c.fields, f.i < lastI64 := fun f hf => by have := h.2 f hf; omega
  cases hv : c.getFieldValue k with
  | none =>
    obtain ⟨c2, f, h1, _, h3, h4, h5, _⟩ := C06_fresh_number c t k v hi
    simp only [Component.addOrUpdateField, hv, h1, Res.bind_ok, Res.ok.injEq, Prod.mk.injEq] at hc
    obtain ⟨rfl, _⟩ := hc
    rw [C05_fields_hash, h3, List.reverse_append]
    simp [h4, h5]
  | some old =>
    by_cases ho : old = v
    · subst ho
      simp only [Component.addOrUpdateField, hv, if_true, Res.ok.injEq, Prod.mk.injEq] at hc
      obtain ⟨rfl, _⟩ := hc
      simp
    · simp only [Component.addOrUpdateField, hv, if_neg ho, Res.ok.injEq, Prod.mk.injEq] at hc
      obtain ⟨rfl, _⟩ := hc
      have hk : ∃ f ∈ c.fields, f.name = k := by
        by_contra hk
        rw [(Table.value_none c k).2 (by simpa [fieldNames] using hk)] at hv
        cases hv
      have : (c.updateField k v).fieldsHash k = some v := by
        rw [C05_fields_hash]
        have h2 : ∃ f, ((c.updateField k v).fields.reverse.find? fun f => f.name = k) = some f := by
          rw [← Option.isSome_iff_exists, List.find?_isSome]
          obtain ⟨f, hf, hn⟩ := hk
          refine ⟨f.updated k v, List.mem_reverse.2 (List.mem_map.2 ⟨f, hf, rfl⟩), ?_⟩
          simp only [Field.updated]; split_ifs <;> simp [hn]
        obtain ⟨f, hf⟩ := h2
        rw [hf]
        have h3 := List.mem_of_find?_eq_some hf
        have h4 : f.name = k := by simpa using List.find?_some hf
        obtain ⟨g, _, rfl⟩ := List.mem_map.1 (List.mem_reverse.1 h3)
        simp only [Option.map_some, Option.some.injEq]
        revert h4
        simp only [Field.updated]
        split_ifs <;> simp_all
      simp [this, ho]

/-! ### Cases -/

/-- A component with three fields of different names and room for more. -/
example : RoomFor 3 (sampleComponent Nm) ∧ (fieldNames (sampleComponent Nm)).Nodup ∧
    fieldNames (sampleComponent Nm) ≠ [] := by decide +kernel

/-- A component with two fields named A, where setting A leaves the map with another value. -/
example : ∃ c : Component Nm, RoomFor 1 c ∧ c.getFieldValue (str! "A") = some (str! "x") ∧
    c.fieldsHash (str! "A") ≠ some (str! "x") :=
  ⟨{ (Component.dflt : Component Nm) with fields := [Sch.Field.newFrom 4 (str! "A") (str! "x") Flt.zero Flt.zero,
    Sch.Field.newFrom 5 (str! "A") (str! "y") Flt.zero Flt.zero] }, by decide +kernel, by decide, by decide⟩

end Verif
