import Verif.Spec.Edits
import Verif.Spec.SchematicEdits
/-!
# Calls that do not get in each other's way

When the order of two editing calls does not matter, as far as one can tell from the
calls alone.
-/

namespace Verif.Spec
open Verif

variable {F : Type}

/-- Renaming `a` to `b` and renaming `c` to `d` can be done in any order: one of them changes
nothing, they are the same, or they are about four names of which only the new ones may be
equal. -/
def Apart (a b c d : Str) : Prop :=
  a = b ∨ c = d ∨ (a = c ∧ b = d) ∨ (a ≠ c ∧ b ≠ c ∧ d ≠ a)

instance (a b c d : Str) : Decidable (Apart a b c d) := by unfold Apart; infer_instance

/-- The parts of a footprint that a call changes: nets of pads, texts, position, angle,
or all of the geometry. -/
inductive Facet
  | nets | texts | place | angle | geometry
  deriving DecidableEq, Repr

/-- Which part a call changes, for calls that do not add anything. -/
def FpEdit.part : FpEdit F → Option Facet
  | .flip => some .geometry
  | .rotate _ => some .angle
  | .move _ _ => some .place
  | .setReference _ _ => some .texts
  | .renameNet _ _ => some .nets
  | .append _ => none
  | .fix _ => none

/-- Parts that have nothing to do with each other. -/
def Facet.Disjoint : Facet → Facet → Prop
  | .geometry, .angle | .angle, .geometry => False
  | .geometry, .place | .place, .geometry => False
  | a, b => a ≠ b

/-- Two calls on a footprint that can change places: they are about different parts, or rename
different names. -/
def FpEdit.Free (e f : FpEdit F) : Prop :=
  (∃ p q, e.part = some p ∧ f.part = some q ∧ p.Disjoint q) ∨
  (∃ a b c d, e = .renameNet a b ∧ f = .renameNet c d ∧ Apart a b c d) ∨
  (∃ a b c d, e = .setReference a b ∧ f = .setReference c d ∧ Apart a b c d)

/-- A call that leaves the designator alone. -/
def FpEdit.KeepsReference : FpEdit F → Prop
  | .flip | .rotate _ | .move _ _ | .renameNet _ _ => True
  | _ => False

/-- Two calls on a board that can change places, in one of the two orders. -/
def BoardEdit.FreeOf : BoardEdit F → BoardEdit F → Prop
  | .move _ _, .renameNet _ _ => True
  | .move _ _, .addNet _ _ => True
  | .move _ _, .addNetclass _ => True
  | .renameNet a b, .renameNet c d => Apart a b c d
  | .renameNet a _, .addNet _ n => n ≠ a
  | .renameNet a _, .addNetclass nc => a ∉ nc.nets
  | .setSetup n v, .setSetup n' v' => n = n' ∧ v = v'
  | .setSetup _ _, _ => True
  | .editModule _ es, .move x y => ∀ e ∈ es, e.Free (.move x y)
  | .editModule _ es, .renameNet a b => ∀ e ∈ es, e.Free (.renameNet a b)
  | .editModule _ _, .addNet _ _ => True
  | .editModule _ _, .addNetclass _ => True
  | .editModule r es, .editModule r' es' =>
    (∀ e ∈ es, e.KeepsReference) ∧ (∀ e ∈ es', e.KeepsReference) ∧
      (r ≠ r' ∨ ∀ e ∈ es, ∀ e' ∈ es', e.Free e')
  | _, _ => False

/-- Two calls on a board that can change places. -/
def BoardEdit.Free (e f : BoardEdit F) : Prop := e.FreeOf f ∨ f.FreeOf e

/-- No module of the board has two designators. -/
def OneReference (l : Lay.Layout F) : Prop :=
  ∀ m, Lay.Elem.module_ m ∈ l.elements → ∀ a b : Str,
    m.isReferenceWithName a = true → m.isReferenceWithName b = true → a = b

/-- A call that gives no module a second designator. -/
def BoardEdit.Modest : BoardEdit F → Prop
  | .editModule _ es => ∀ e ∈ es, e.part ≠ none
  | .append _ => False
  | _ => True

/-- The fields numbered 0 and 1 have the names that they get when a file is read. -/
def Standard (c : Sch.Component F) : Prop :=
  ∀ f ∈ c.fields, (f.i = 0 → f.name = str! "Reference") ∧ (f.i = 1 → f.name = str! "Value")

instance (c : Sch.Component F) : Decidable (Standard c) := by unfold Standard; infer_instance

/-- Two calls on a component that can change places, in one of the two orders. -/
def CompEdit.FreeOf : CompEdit F → CompEdit F → Prop
  | .updateReference r, .updateReference r' => r = r'
  | .updateReference _, .updateName _ => True
  | .updateReference _, .updateField n _ => n ≠ str! "Reference"
  | .updateReference _, .addOrUpdateField _ n _ => n ≠ str! "Reference"
  | .updateName n, .updateName n' => n = n'
  | .updateName _, .updateField n _ => n ≠ str! "Value"
  | .updateName _, .addOrUpdateField _ n _ => n ≠ str! "Value"
  | .updateField n v, .updateField n' v' => n ≠ n' ∨ v = v'
  | .updateField n _, .addOrUpdateField _ n' _ => n ≠ n'
  | _, _ => False

/-- Two calls on a component that can change places. -/
def CompEdit.Free (e f : CompEdit F) : Prop := e.FreeOf f ∨ f.FreeOf e

/-- A call that leaves the designator alone. -/
def CompEdit.KeepsReference : CompEdit F → Prop
  | .updateReference _ => False
  | _ => True

/-- Two changes of a schematic that can change places, in one of the two orders. -/
def SchEdit.FreeOf : SchEdit F → SchEdit F → Prop
  | .editComponent r es, .editComponent r' es' =>
    (∀ e ∈ es, e.KeepsReference) ∧ (∀ e ∈ es', e.KeepsReference) ∧
      (r ≠ r' ∨ ∀ e ∈ es, ∀ e' ∈ es', e.Free e')
  | .incrementSheetCount, _ => True
  | .appendSheet _, .editComponent _ _ => True
  | .appendSheet _, .append _ => True
  | _, _ => False

/-- Components that are added have the usual fields. -/
def SchEdit.Modest : SchEdit F → Prop
  | .append (.component c) => Standard c ∧ Extensible c
  | _ => True

/-- All components have the usual fields: those numbered 0 and 1 with the usual names, and
one numbered 3 or higher. -/
def Usual (s : Sch.Schematic F) : Prop :=
  ∀ c, Sch.Element.component c ∈ s.elements → Standard c ∧ Extensible c

/-- Two changes of a schematic that can change places. -/
def SchEdit.Free (e f : SchEdit F) : Prop := e.FreeOf f ∨ f.FreeOf e

end Verif.Spec
