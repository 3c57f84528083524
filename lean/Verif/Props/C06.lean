import Verif.Props.C05
/-!
# C06: a new component field gets a fresh number
-/

namespace Verif
open Sch Spec

variable {F : Type} [Flt F]

/-- `add_new_field` appends exactly one field, with the given name and value, at
the place of the template, hidden, whose number is positive and larger than that
of every field there was; it is the smallest such number.  (No field may have
the largest `i64` as number.) -/
theorem C06_fresh_number (c : Component F) (template : Sch.Field F) (name value : Str)
    (hi : ∀ f ∈ c.fields, f.i < lastI64) :
    ∃ c' f, c.addNewField template name value = .ok c' ∧ SameButFields c c' ∧
      c'.fields = c.fields ++ [f] ∧ f.name = name ∧ f.value = value ∧ f.x = template.x ∧
      f.y = template.y ∧ f.visible = false ∧ 0 < f.i ∧ (∀ g ∈ c.fields, g.i < f.i) ∧
      (f.i = 1 ∨ ∃ g ∈ c.fields, g.i + 1 = f.i) := by
  simp only [Component.addNewField, Spec.fieldNum_ok c hi, Res.bind_ok]
  obtain ⟨h1, h2, h3⟩ := Spec.maxFieldNum_foldl c.fields 0
  refine ⟨_, _, rfl, ⟨rfl, rfl, rfl, rfl, rfl, rfl, rfl⟩, rfl, rfl, rfl, rfl, rfl, rfl, ?_, ?_, ?_⟩
  · simp only [Field.newFrom, maxFieldNum]; omega
  · intro g hg
    have := h2 g hg
    simp only [Field.newFrom, maxFieldNum]; omega
  · simp only [Field.newFrom, maxFieldNum]
    rcases h3 with h3 | ⟨f, hf, h3⟩
    · left; rw [h3]; rfl
    · right; exact ⟨f, hf, by rw [h3]⟩

example : ∀ f ∈ (sampleComponent Nm).fields, f.i < lastI64 := by decide

/-- With the largest `i64` in use there is no fresh number: the addition
overflows, which is a panic in a build with overflow checks. -/
theorem C06_no_number_left (c : Component F) (template : Sch.Field F) (name value : Str)
    (hr : ∀ f ∈ c.fields, f.i ≤ lastI64) (h : ∃ f ∈ c.fields, f.i = lastI64) :
    c.addNewField template name value = .panic := by
  obtain ⟨h1, h2, h3⟩ := Spec.maxFieldNum_foldl c.fields 0
  obtain ⟨f, hf, hfi⟩ := h
  have h4 := h2 f hf
  have : maxFieldNum c.fields = 9223372036854775807 := by
    unfold maxFieldNum lastI64 at *
    rcases h3 with h3 | ⟨g, hg, h3⟩
    · omega
    · have := hr g hg
      omega
  simp [Component.addNewField, Component.getAvailableFieldNum, this]

example : (⟨[], [], [], 0, 0, [], [sampleField Nm lastI64 [] []], ⟨0, 0, 0, 0⟩⟩ : Component Nm).addNewField
    (sampleField Nm 0 [] []) [] [] = .panic :=
  C06_no_number_left _ _ _ _ (by decide) ⟨_, List.mem_singleton.2 rfl, rfl⟩

end Verif
