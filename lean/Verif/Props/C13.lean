import Verif.Props.C05
/-!
# C13: changing a component reference or name is consistent everywhere
-/

namespace Verif
open Sch Spec

variable {F : Type} [Flt F]

set_option linter.unusedSectionVars false

/-- `f'` is `f` with the value replaced if its number is `i`. -/
def Spec.Revalued (i : Int) (value : Str) (f f' : Sch.Field F) : Prop :=
  (f.i = i ∧ f'.value = value ∧ f' = { f with value := f'.value }) ∨ (f.i ≠ i ∧ f' = f)

/-- After `update_reference` the reference and every reference field (number 0)
show the new designator; nothing else changes. -/
theorem C13_update_reference (c : Component F) (r : Str) :
    (c.updateReference r).reference = r ∧
    List.Forall₂ (Revalued 0 r) c.fields (c.updateReference r).fields ∧
    (c.updateReference r).name = c.name ∧ (c.updateReference r).u = c.u ∧
    (c.updateReference r).x = c.x ∧ (c.updateReference r).y = c.y ∧
    (c.updateReference r).arPath = c.arPath ∧ (c.updateReference r).rotation = c.rotation := by
  refine ⟨rfl, Spec.forall₂_map (fun f => ?_) _, rfl, rfl, rfl, rfl, rfl, rfl⟩
  by_cases h : f.i = 0 <;> simp [Revalued, h]

/-- After `update_name` the name and every value field (number 1) show the new
name; nothing else changes. -/
theorem C13_update_name (c : Component F) (n : Str) :
    (c.updateName n).name = n ∧
    List.Forall₂ (Revalued 1 n) c.fields (c.updateName n).fields ∧
    (c.updateName n).reference = c.reference ∧ (c.updateName n).u = c.u ∧
    (c.updateName n).x = c.x ∧ (c.updateName n).y = c.y ∧
    (c.updateName n).arPath = c.arPath ∧ (c.updateName n).rotation = c.rotation := by
  refine ⟨rfl, Spec.forall₂_map (fun f => ?_) _, rfl, rfl, rfl, rfl, rfl, rfl⟩
  by_cases h : f.i = 1 <;> simp [Revalued, h]

/-- Renaming twice is renaming to the last name, and the order of a reference
and a name change does not matter. -/
theorem C13_laws (c : Component F) (r r' n n' : Str) :
    (c.updateReference r).updateReference r' = c.updateReference r' ∧
    (c.updateName n).updateName n' = c.updateName n' ∧
    (c.updateReference r).updateName n = (c.updateName n).updateReference r := by
  refine ⟨?_, ?_, ?_⟩ <;>
    simp only [Component.updateReference, Component.updateName, List.map_map, Component.mk.injEq,
      true_and, and_true, List.map_inj_left, Function.comp_apply]
  · intro f _; by_cases h : f.i = 0 <;> simp [h]
  · intro f _; by_cases h : f.i = 1 <;> simp [h]
  · intro f _
    by_cases h : f.i = 0
    · simp [h]
    · by_cases h1 : f.i = 1 <;> simp [h, h1]

example : ((sampleComponent Nm).updateReference (str! "R7")).fields.map (·.value) =
    [str! "R7", str! "10k", str! "X 1"] := by decide

end Verif
