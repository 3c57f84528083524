import Verif.Spec.Schematic
import Verif.Basic.Nm
/-!
# C05: updating a component field sets exactly that field
-/

namespace Verif
open Sch Spec

variable {F : Type} [Flt F]

set_option linter.unusedSectionVars false

theorem Spec.setTo_updated (name value : Str) (f : Sch.Field F) : SetTo name value f (f.updated name value) := by
  unfold SetTo Field.updated
  by_cases h : f.name = name <;> by_cases h2 : f.i > 1 <;> simp [h, h2] <;> omega

theorem Spec.forall₂_map {α β : Type} {R : α → β → Prop} {g : α → β} (h : ∀ a, R a (g a)) :
    ∀ l : List α, List.Forall₂ R l (l.map g)
  | [] => .nil
  | a :: l => .cons (h a) (forall₂_map h l)

/-- `update_field` sets the value of every field of that name, hides the fields
above number 1, and changes nothing else: the fields before and after correspond
one to one in order. -/
theorem C05_update_field (c : Component F) (name value : Str) :
    SameButFields c (c.updateField name value) ∧
    List.Forall₂ (SetTo name value) c.fields (c.updateField name value).fields :=
  ⟨⟨rfl, rfl, rfl, rfl, rfl, rfl, rfl⟩, Spec.forall₂_map (Spec.setTo_updated name value) _⟩

example : ∃ f ∈ (sampleComponent Nm).fields, f.name = str! "MPN" ∧ f.value ≠ str! "Y" := by
  refine ⟨_, List.mem_cons_of_mem _ (List.mem_cons_of_mem _ (List.mem_singleton.2 rfl)), rfl, by decide⟩

theorem Spec.maxFieldNum_foldl (l : List (Sch.Field F)) : ∀ a : Int,
    a ≤ l.foldl (fun i f => if f.i > i then f.i else i) a ∧
    (∀ f ∈ l, f.i ≤ l.foldl (fun i f => if f.i > i then f.i else i) a) ∧
    (l.foldl (fun i f => if f.i > i then f.i else i) a = a ∨
      ∃ f ∈ l, f.i = l.foldl (fun i f => if f.i > i then f.i else i) a) := by
  induction l with
  | nil => intro a; simp
  | cons g l ih =>
    intro a
    obtain ⟨h1, h2, h3⟩ := ih (if g.i > a then g.i else a)
    rw [List.foldl_cons]
    refine ⟨?_, ?_, ?_⟩
    · refine Int.le_trans ?_ h1
      split <;> omega
    · intro f hf
      rcases List.mem_cons.1 hf with rfl | hf
      · refine Int.le_trans ?_ h1
        split <;> omega
      · exact h2 f hf
    · rcases h3 with h3 | ⟨f, hf, h3⟩
      · by_cases hg : g.i > a
        · right
          refine ⟨g, List.mem_cons_self, ?_⟩
          rw [h3, if_pos hg]
        · left
          rw [h3, if_neg hg]
      · exact Or.inr ⟨f, List.mem_cons_of_mem _ hf, h3⟩

theorem Spec.fieldNum_ok (c : Component F) (h : ∀ f ∈ c.fields, f.i < lastI64) :
    c.getAvailableFieldNum = .ok (maxFieldNum c.fields + 1) := by
  unfold Component.getAvailableFieldNum
  have h3 := (Spec.maxFieldNum_foldl c.fields 0).2.2
  have : maxFieldNum c.fields ≠ 9223372036854775807 := by
    unfold maxFieldNum lastI64 at *
    rcases h3 with h3 | ⟨f, hf, h3⟩
    · rw [h3]; decide
    · have := h f hf; omega
  simp [this]

/-- `add_or_update_field`: what is returned says whether the field existed and
what its value was, afterwards looking up the name gives the new value, and no
other field changes value, name or number.  (No field may have the largest `i64`
as number.) -/
theorem C05_add_or_update_field (c : Component F) (template : Sch.Field F) (name value : Str)
    (hi : ∀ f ∈ c.fields, f.i < lastI64) :
    ∃ c' r, c.addOrUpdateField template name value = .ok (c', r) ∧
      c'.getFieldValue name = some value ∧ SameButFields c c' ∧
      (r = .new ↔ c.getFieldValue name = none) ∧
      (r = .same ↔ c.getFieldValue name = some value) ∧
      (∀ old, r = .update old ↔ c.getFieldValue name = some old ∧ old ≠ value) ∧
      (r = .same → c' = c) ∧
      (r = .new → ∃ f, c'.fields = c.fields ++ [f] ∧ f.name = name ∧ f.value = value) ∧
      (∀ old, r = .update old → List.Forall₂ (SetTo name value) c.fields c'.fields) := by
  unfold Component.addOrUpdateField
  cases h : c.getFieldValue name with
  | none =>
    simp only [Component.addNewField, Spec.fieldNum_ok c hi, Res.bind_ok]
    refine ⟨_, _, rfl, ?_, ⟨rfl, rfl, rfl, rfl, rfl, rfl, rfl⟩, ?_, ?_, ?_, ?_, ?_, ?_⟩ <;> try simp
    · unfold Component.getFieldValue at h ⊢
      simp only [Option.map_eq_none_iff] at h
      simp [List.find?_append, h, Field.newFrom]
    · simp [Field.newFrom]
  | some old =>
    by_cases ho : old = value
    · subst ho
      simp only [if_pos]
      refine ⟨_, _, rfl, h, ⟨rfl, rfl, rfl, rfl, rfl, rfl, rfl⟩, ?_, ?_, ?_, ?_, ?_, ?_⟩ <;> simp
    · simp only [if_neg ho]
      refine ⟨_, _, rfl, ?_, ⟨rfl, rfl, rfl, rfl, rfl, rfl, rfl⟩, ?_, ?_, ?_, ?_, ?_, ?_⟩ <;> try simp
      · have key : ∀ l : List (Sch.Field F), ∀ o, (l.find? fun f => f.name = name).map (·.value) = some o →
            ((l.map fun f => f.updated name value).find? fun f => f.name = name).map (·.value) =
              some value := by
          intro l
          induction l with
          | nil => simp
          | cons f l ih =>
            intro o hl
            obtain ⟨_, hn, _, _, _, _, _, _, _, _, hv, _⟩ := Spec.setTo_updated name value f
            by_cases hf : f.name = name
            · simp [hn, hf, hv hf]
            · rw [List.find?_cons_of_neg (by simpa using hf)] at hl
              rw [List.map_cons, List.find?_cons_of_neg (by simpa [hn] using hf)]
              exact ih o hl
        exact key c.fields old h
      · exact ho
      · rintro rfl; exact ho rfl
      · exact (C05_update_field c name value).2

example : (∀ f ∈ (sampleComponent Nm).fields, f.i < lastI64) ∧
    (sampleComponent Nm).getFieldValue (str! "MPN") = some (str! "X 1") ∧
    (sampleComponent Nm).getFieldValue (str! "Other") = none := by decide

/-- `fields_hash` maps each field name to the value of the last field of that
name, and contains no other key. -/
theorem C05_fields_hash (c : Component F) (k : Str) :
    c.fieldsHash k = ((c.fields.reverse.find? fun f => f.name = k).map (·.value)) := by
  unfold Component.fieldsHash
  generalize c.fields = l
  have key : ∀ (l : List (Sch.Field F)) (h : Str → Option Str),
      l.foldl (fun h f => fun k => if k = f.name then some f.value else h k) h k =
        ((l.reverse.find? fun f => f.name = k).map (·.value)).or (h k) := by
    intro l
    induction l with
    | nil => simp
    | cons f l ih =>
      intro h
      rw [List.foldl_cons, ih, List.reverse_cons, List.find?_append]
      by_cases hk : k = f.name
      · subst hk
        cases List.find? (fun f_1 => decide (f_1.name = f.name)) l.reverse <;> simp
      · have hk' : ¬ f.name = k := fun h => hk h.symm
        cases List.find? (fun f_1 => decide (f_1.name = k)) l.reverse <;> simp [hk, hk']
  rw [key]
  cases (List.find? (fun f => decide (f.name = k)) l.reverse) <;> rfl

example : (sampleComponent Nm).fieldsHash (str! "MPN") = some (str! "X 1") := by decide

/-- The result as a truth value tells whether the component was changed. -/
theorem C05_changed (c c' : Component F) (template : Sch.Field F) (name value : Str) (r : FieldUpdate)
    (hi : ∀ f ∈ c.fields, f.i < lastI64) (h : c.addOrUpdateField template name value = .ok (c', r)) :
    r.toBool = true ↔ c' ≠ c := by
  obtain ⟨d, t, h1, h2, _, h3, h4, _, h5, h6, _⟩ := C05_add_or_update_field c template name value hi
  rw [h1] at h
  cases h
  constructor
  · rintro hb rfl
    cases r with
    | same => cases hb
    | new => rw [h3.1 rfl] at h2; cases h2
    | update o => exact absurd (h4.2 h2) (by simp)
  · intro hne
    cases r with
    | same => exact absurd (h5 rfl) hne
    | new => rfl
    | update o => rfl

example : ∃ c' r, (sampleComponent Nm).addOrUpdateField (sampleField Nm 5 (str! "T") (str! "t")) (str! "MPN") (str! "Y") = .ok (c', r) ∧
    r.toBool = true := ⟨_, _, rfl, rfl⟩

end Verif
