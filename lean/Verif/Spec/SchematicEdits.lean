import Verif.Spec.SchematicFile
import Verif.Model.SchematicApi
/-!
# Editing sessions on schematics
-/

namespace Verif.Spec
open Verif Flt Sch

variable {F : Type} [Flt F]

/-- The calls that change a component. -/
inductive CompEdit (F : Type)
  | updateReference (r : Str)
  | updateName (n : Str)
  | updateField (name value : Str)
  | addOrUpdateField (template : Sch.Field F) (name value : Str)

/-- Making the call. -/
def CompEdit.run : CompEdit F → Component F → Res (Component F)
  | .updateReference r, c => .ok (c.updateReference r)
  | .updateName n, c => .ok (c.updateName n)
  | .updateField n v, c => .ok (c.updateField n v)
  | .addOrUpdateField t n v, c => do let (c', _) ← c.addOrUpdateField t n v; .ok c'

/-- The arguments fit the file format: references and names are words, field
names and values have no double quotes and line breaks. -/
def CompEdit.Fits : CompEdit F → Prop
  | .updateReference r => LastWord r
  | .updateName n => Word n
  | .updateField _ v => Quotable v
  | .addOrUpdateField _ n v => Quotable n ∧ Quotable v

/-- Making the calls one after the other. -/
def runComp : List (CompEdit F) → Component F → Res (Component F)
  | [], c => .ok c
  | e :: es, c => do let c' ← e.run c; runComp es c'

/-- The changes made to a schematic: calls on the component with a reference,
counting a sheet, and (the lists are public) appending. -/
inductive SchEdit (F : Type)
  | editComponent (reference : Str) (edits : List (CompEdit F))
  | incrementSheetCount
  | append (e : Element F)
  | appendSheet (s : Sheet)

/-- Making the change.  The component edited is the first one with the reference;
nothing happens if there is none. -/
def SchEdit.run : SchEdit F → Schematic F → Res (Schematic F)
  | .editComponent r es, s =>
    match s.components.find? fun c => c.reference = r with
    | none => .ok (s.modifyComponent r id)
    | some c => do
      let c' ← runComp es c
      .ok (s.modifyComponent r fun _ => c')
  | .incrementSheetCount, s => s.incrementSheetCount
  | .append e, s => .ok { s with elements := s.elements ++ [e] }
  | .appendSheet x, s => .ok { s with sheets := s.sheets ++ [x] }

/-- A component that has the fields 0 to 3 (at least one numbered 3 or higher), so
that further fields get a number for which the file stores a name. -/
def Extensible (c : Component F) : Prop := ∃ f ∈ c.fields, 3 ≤ f.i

instance (c : Component F) : Decidable (Extensible c) := by unfold Extensible; infer_instance

/-- All components of a schematic are extensible. -/
def AllExtensible (s : Schematic F) : Prop := ∀ c, Element.component c ∈ s.elements → Extensible c

/-- The arguments fit the file format. -/
def SchEdit.Fits : SchEdit F → Prop
  | .editComponent _ es => ∀ e ∈ es, e.Fits
  | .incrementSheetCount => True
  | .append e => FitsElement e ∧ ∀ c, e = .component c → Extensible c
  | .appendSheet s => FitsSheet s

/-- Making the changes one after the other. -/
def runSch : List (SchEdit F) → Schematic F → Res (Schematic F)
  | [], s => .ok s
  | e :: es, s => do let s' ← e.run s; runSch es s'

/-- How many numbers a session can use up. -/
def SchEdit.cost : SchEdit F → Nat
  | .editComponent _ es => es.length
  | _ => 1

/-- How many numbers a session can use up. -/
def sessionCost (es : List (SchEdit F)) : Nat := (es.map SchEdit.cost).sum

/-- The sheet count and the field numbers, also those of appended components, are
at least `n` below the largest number. -/
def Room (n : Nat) (s : Schematic F) : Prop :=
  s.description.sheetCount + n ≤ 9223372036854775807 ∧
  ∀ c, Element.component c ∈ s.elements → ∀ f ∈ c.fields, f.i + n < 9223372036854775807

/-- An appended component leaves room as well. -/
def SchEdit.Room (n : Nat) : SchEdit F → Prop
  | .append (.component c) => ∀ f ∈ c.fields, f.i + n < 9223372036854775807
  | _ => True

end Verif.Spec
