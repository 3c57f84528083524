import Verif.Spec.Schematic
import Verif.Basic.Nm
/-!
# C08: modifying components by reference
-/

namespace Verif
open Sch Spec

variable {F : Type} [Flt F]

set_option linter.unusedSectionVars false

/-- The element is a component with that reference. -/
def Spec.HasRef (r : Str) : Element F → Prop
  | .component c => c.reference = r
  | _ => False

/-- Two schematics agree except for their elements. -/
def Spec.SameButElements (s s' : Schematic F) : Prop :=
  s'.filename = s.filename ∧ s'.libraries = s.libraries ∧ s'.description = s.description ∧
  s'.sheets = s.sheets ∧ s'.eelayer = s.eelayer

theorem Spec.modifyFirst_none (r : Str) (fn : Component F → Component F) : ∀ l : List (Element F),
    (∀ e ∈ l, ¬ HasRef r e) → modifyFirst r fn l = l
  | [], _ => rfl
  | e :: l, h => by
    rw [List.forall_mem_cons] at h
    have ih := modifyFirst_none r fn l h.2
    cases e with
    | component c =>
      have hc : ¬ c.reference = r := h.1
      simp [modifyFirst, hc, ih]
    | _ => simp [modifyFirst, ih]

theorem Spec.modifyFirst_split (r : Str) (fn : Component F → Component F) (c : Component F)
    (hc : c.reference = r) (b : List (Element F)) : ∀ a : List (Element F), (∀ e ∈ a, ¬ HasRef r e) →
    modifyFirst r fn (a ++ .component c :: b) = a ++ .component (fn c) :: b
  | [], _ => by simp [modifyFirst, hc]
  | e :: a, h => by
    rw [List.forall_mem_cons] at h
    have ih := modifyFirst_split r fn c hc b a h.2
    cases e with
    | component c' =>
      have hc : ¬ c'.reference = r := h.1
      simp [modifyFirst, hc, ih]
    | _ => simp [modifyFirst, ih]

/-- `modify_component` applies the function to the first component with the
reference; every element before and after it stays as it is. -/
theorem C08_modify_component (s : Schematic F) (r : Str) (fn : Component F → Component F)
    (a b : List (Element F)) (c : Component F) (he : s.elements = a ++ .component c :: b)
    (hc : c.reference = r) (ha : ∀ e ∈ a, ¬ HasRef r e) :
    (s.modifyComponent r fn).elements = a ++ .component (fn c) :: b ∧
    SameButElements s (s.modifyComponent r fn) := by
  refine ⟨?_, rfl, rfl, rfl, rfl, rfl⟩
  rw [Schematic.modifyComponent, he]
  exact Spec.modifyFirst_split r fn c hc b a ha

example : ∃ (a b : List (Element Nm)) (c : Component Nm),
    c.reference = str! "R1" ∧ (∀ e ∈ a, ¬ HasRef (str! "R1") e) ∧ a ≠ [] ∧ b ≠ [] := by
  refine ⟨[.component { sampleComponent Nm with reference := str! "R2" }, .other (str! "x")],
    [.component (sampleComponent Nm)], sampleComponent Nm, rfl, ?_, by simp, by simp⟩
  simp [HasRef]

/-- Without such a component nothing changes. -/
theorem C08_modify_component_absent (s : Schematic F) (r : Str) (fn : Component F → Component F)
    (h : ∀ e ∈ s.elements, ¬ HasRef r e) : s.modifyComponent r fn = s := by
  rw [Schematic.modifyComponent, Spec.modifyFirst_none r fn _ h]

example : ∀ e ∈ (Schematic.dflt : Schematic Nm).elements ++ [.other (str! "x")], ¬ HasRef (str! "R1") e := by
  simp [Schematic.dflt, HasRef]

/-- These are the only two cases: every schematic has a first component with the
reference, or none. -/
theorem C08_cases (s : Schematic F) (r : Str) :
    (∃ a c b, s.elements = a ++ .component c :: b ∧ c.reference = r ∧ ∀ e ∈ a, ¬ HasRef r e) ∨
    ∀ e ∈ s.elements, ¬ HasRef r e := by
  generalize s.elements = l
  induction l with
  | nil => right; simp
  | cons e l ih =>
    by_cases h : HasRef r e
    · left
      cases e with
      | component c => exact ⟨[], c, l, rfl, h, by simp⟩
      | _ => exact absurd h (by simp [HasRef])
    · rcases ih with ⟨a, c, b, rfl, hc, ha⟩ | ih
      · left
        exact ⟨e :: a, c, b, rfl, hc, by simpa [h] using ha⟩
      · right
        simpa [h] using ih

/-- An element before and after applying a function to all components. -/
def Spec.Applied (fn : Component F → Component F) (e e' : Element F) : Prop :=
  (∃ c, e = .component c ∧ e' = .component (fn c)) ∨ ((∀ c, e ≠ .component c) ∧ e' = e)

/-- `modify_components` applies the function once to each component, in order,
and changes nothing else. -/
theorem C08_modify_components (s : Schematic F) (fn : Component F → Component F) :
    List.Forall₂ (Applied fn) s.elements (s.modifyComponents fn).elements ∧
    SameButElements s (s.modifyComponents fn) ∧
    (s.modifyComponents fn).components = s.components.map fn := by
  refine ⟨?_, ⟨rfl, rfl, rfl, rfl, rfl⟩, ?_⟩
  · simp only [Schematic.modifyComponents]
    generalize s.elements = l
    induction l with
    | nil => exact .nil
    | cons e l ih =>
      refine .cons ?_ ih
      cases e with
      | component c => exact Or.inl ⟨c, rfl, rfl⟩
      | _ => exact Or.inr ⟨by simp, rfl⟩
  · simp only [Schematic.modifyComponents, Schematic.components]
    generalize s.elements = l
    induction l with
    | nil => rfl
    | cons e l ih =>
      cases e with
      | component c =>
        rw [List.map_cons, List.filterMap_cons_some (f := Element.component?) (b := fn c) rfl, ih,
          List.filterMap_cons_some (f := Element.component?) (b := c) rfl, List.map_cons]
      | _ => rw [List.map_cons, List.filterMap_cons_none rfl, ih, List.filterMap_cons_none rfl]

/-- `components` lists exactly the components, in order, and `collect_components`
appends them to the vector it is given. -/
theorem C08_components (s : Schematic F) (v : List (Component F)) :
    s.collectComponents v = v ++ s.components ∧
    (∀ c, c ∈ s.components ↔ Element.component c ∈ s.elements) := by
  simp only [Schematic.collectComponents, Schematic.components]
  generalize s.elements = l
  constructor
  · induction l generalizing v with
    | nil => simp
    | cons e l ih =>
      cases e with
      | component c => rw [List.foldl_cons, ih, List.filterMap_cons_some (f := Element.component?) (b := c) rfl]; simp
      | _ => rw [List.foldl_cons, ih, List.filterMap_cons_none rfl]
  · intro c
    rw [List.mem_filterMap]
    constructor
    · rintro ⟨e, he, h⟩
      cases e <;> simp [Element.component?] at h
      subst h; exact he
    · intro h; exact ⟨_, h, rfl⟩

end Verif
