import Verif.Spec.Footprint
import Verif.Basic.Nm
/-!
# C32: reading and setting footprint texts
-/

namespace Verif
open Flt Fp Spec

variable {F : Type}

/-- The texts of a module, in order. -/
def Spec.texts (m : Module F) : List (FpText F) :=
  m.elements.filterMap fun e => match e with | .text t => some t | _ => none

/-- The element with the shown value of a reference text forgotten. -/
def Spec.eraseReference : Elem F → Elem F
  | .text t => if t.name = str! "reference" then .text { t with value := [] } else .text t
  | e => e

/-- Looking up a text finds the first one of that kind; it fails exactly if
there is none. -/
theorem C32_get_text (m : Module F) (which : Str) :
    m.getText which = (texts m).find? (fun t => t.name = which) := by
  obtain ⟨n, es⟩ := m
  simp only [Module.getText, texts]
  induction es with
  | nil => rfl
  | cons e es ih =>
    cases e with
    | text t => by_cases h : t.name = which <;> simp [h, ih]
    | _ => simp [ih]

theorem C32_get_reference (m : Module F) :
    m.getReference = ((texts m).find? (fun t => t.name = str! "reference")).map (·.value) := by
  rw [Module.getReference, C32_get_text]

/-- `is_reference_with_name` holds exactly if some reference text shows that
name. -/
theorem C32_is_reference_with_name (m : Module F) (r : Str) :
    m.isReferenceWithName r = true ↔
      ∃ t ∈ texts m, t.name = str! "reference" ∧ t.value = r := by
  simp only [Module.isReferenceWithName, texts, List.any_eq_true, List.mem_filterMap]
  constructor
  · rintro ⟨e, he, h⟩
    cases e with
    | text t => exact ⟨t, ⟨_, he, rfl⟩, by simpa using h⟩
    | _ => simp at h
  · rintro ⟨t, ⟨e, he, h⟩, h2⟩
    refine ⟨e, he, ?_⟩
    cases e <;> simp_all

/-- `set_reference(r, r2)`: every reference text that shows `r` shows `r2`
afterwards, every other text is unchanged, and so is everything else. -/
theorem C32_set_reference (m : Module F) (r r2 : Str) :
    (m.setReference r r2).name = m.name ∧
    (m.setReference r r2).elements.map eraseReference = m.elements.map eraseReference ∧
    texts (m.setReference r r2) = (texts m).map fun t =>
      if t.name = str! "reference" ∧ t.value = r then { t with value := r2 } else t := by
  obtain ⟨n, es⟩ := m
  refine ⟨rfl, ?_, ?_⟩
  · simp only [Module.setReference, List.map_map]
    apply List.map_congr_left
    intro e _
    cases e <;> simp [Module.setReferenceElem, eraseReference]
    rename_i t _
    by_cases h : t.name = str! "reference" <;> by_cases h2 : t.value = r <;> simp_all
  · simp only [texts, Module.setReference]
    induction es with
    | nil => rfl
    | cons e es ih =>
      cases e with
      | text t =>
        by_cases h : t.name = str! "reference" ∧ t.value = r
        · simp [Module.setReferenceElem, h]; simpa using ih
        · simp [Module.setReferenceElem, h]; simpa using ih
      | _ => simpa [Module.setReferenceElem] using ih

/-- In particular a footprint with reference `r` has reference `r2` afterwards,
and one with another reference keeps it. -/
theorem C32_set_then_get (m : Module F) (r r2 s : Str) (h : m.getReference = some s) :
    (m.setReference r r2).getReference = some (if s = r then r2 else s) := by
  rw [C32_get_reference] at h
  rw [C32_get_reference, (C32_set_reference m r r2).2.2]
  generalize texts m = ts at *
  induction ts with
  | nil => simp at h
  | cons t ts ih =>
    by_cases h1 : t.name = str! "reference"
    · have : t.value = s := by simpa [h1] using h
      by_cases h2 : s = r <;> simp [h1, this, h2]
    · simp only [h1, List.map_cons, List.find?_cons, decide_false, false_and, if_false] at *
      exact ih h

example : ∃ m : Module Nm, m.getReference = some (str! "REF**") ∧
    (m.setReference (str! "REF**") (str! "U1")).getReference = some (str! "U1") :=
  ⟨⟨[], [.locked, .text (FpText.new (str! "reference") (str! "REF**"))]⟩, by decide⟩

/-- The presence of the smd attribute. -/
theorem C32_has_smd_attr (m : Module F) :
    m.hasSmdAttr = true ↔ Elem.attr (str! "smd") ∈ m.elements := by
  simp only [Module.hasSmdAttr, List.any_eq_true]
  constructor
  · rintro ⟨e, he, h⟩
    cases e <;> simp_all
  · exact fun h => ⟨_, h, by simp⟩

end Verif
