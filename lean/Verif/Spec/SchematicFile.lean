import Verif.Spec.Lines
import Verif.Model.Schematic
/-!
# Specification vocabulary: schematics that fit the file format

Each condition says which contents the file format has room for.
-/

namespace Verif.Spec
open Verif Sch

variable {F : Type} [Flt F]

/-- The format gives the fields 0 to 3 a fixed name. -/
def FixedName (i : Int) (name : Str) : Prop :=
  (i = 0 → name = str! "Reference") ∧ (i = 1 → name = str! "Value") ∧
  (i = 2 → name = str! "Footprint") ∧ (i = 3 → name = str! "UserDocLink")

instance (i : Int) (name : Str) : Decidable (FixedName i name) := inferInstanceAs (Decidable (_ ∧ _))

/-- A field: nonnegative number, fixed name if its number has one, value and name
without double quotes and line breaks. -/
def FitsField (f : Sch.Field F) : Prop :=
  0 ≤ f.i ∧ inI64 f.i ∧ inI64 f.size ∧ Quotable f.value ∧ Quotable f.name ∧ FixedName f.i f.name

instance (f : Sch.Field F) : Decidable (FitsField f) := inferInstanceAs (Decidable (_ ∧ _))

/-- A component: name and reference are words, the unit line is missing or starts
with `U`, the alternative references start with `AR`; the reference ends its line. -/
def FitsComponent (c : Component F) : Prop :=
  Word c.name ∧ LastWord c.reference ∧ OneLine c.u ∧ (c.u = [] ∨ firstWord c.u = some (str! "U")) ∧
  inI64 c.x ∧ inI64 c.y ∧ (∀ a ∈ c.arPath, OneLine a ∧ firstWord a = some (str! "AR")) ∧
  (∀ f ∈ c.fields, FitsField f) ∧
  inI64 c.rotation.a ∧ inI64 c.rotation.b ∧ inI64 c.rotation.c ∧ inI64 c.rotation.d

instance (c : Component F) : Decidable (FitsComponent c) := by
  unfold FitsComponent; infer_instance

def FitsWire (w : Wire) : Prop := inI64 w.x1 ∧ inI64 w.y1 ∧ inI64 w.x2 ∧ inI64 w.y2

instance (w : Wire) : Decidable (FitsWire w) := by unfold FitsWire; infer_instance

def FitsPos (p : Pos) : Prop := inI64 p.x ∧ inI64 p.y

instance (w : Pos) : Decidable (FitsPos w) := by unfold FitsPos; infer_instance

/-- A text: global and hierarchical labels have a shape, the others have none. -/
def FitsText (t : Text) : Prop :=
  inI64 t.x ∧ inI64 t.y ∧ inI64 t.orientation ∧ inI64 t.size ∧ inI64 t.thickness ∧ OneLine t.text ∧
  (match t.t, t.shape with
    | .note, none => True
    | .label, none => True
    | .global, some s => Solid s
    | .hierarchical, some s => Solid s
    | _, _ => False)

instance (t : Text) : Decidable (FitsText t) := by
  unfold FitsText
  have : Decidable (match t.t, t.shape with
    | .note, none => True
    | .label, none => True
    | .global, some s => Solid s
    | .hierarchical, some s => Solid s
    | _, _ => False) := by split <;> infer_instance
  infer_instance

/-- The words that start a known item of a schematic file. -/
def itemWords : List Str :=
  [str! "$Descr", str! "$Comp", str! "$Sheet", str! "$EndSCHEMATC", str! "Wire", str! "Connection",
   str! "NoConn", str! "Text"]

/-- A line of another kind: not blank, not starting with a known word. -/
def FitsOther (s : Str) : Prop := OneLine s ∧ ∃ w ∈ firstWord s, w ∉ itemWords

instance (s : Str) : Decidable (FitsOther s) := by
  unfold FitsOther
  cases h : firstWord s with
  | none => exact isFalse (by simp)
  | some w => exact decidable_of_iff (OneLine s ∧ w ∉ itemWords) (by simp)

def FitsElement : Element F → Prop
  | .component c => FitsComponent c
  | .wire w => FitsWire w
  | .connection p => FitsPos p
  | .noConnect p => FitsPos p
  | .text t => FitsText t
  | .other s => FitsOther s

instance (e : Element F) : Decidable (FitsElement e) := by
  cases e <;> (unfold FitsElement; infer_instance)

def FitsLabel (l : SheetLabel) : Prop := Quotable l.name ∧ inI64 l.x ∧ inI64 l.y ∧ inI64 l.size

instance (e : SheetLabel) : Decidable (FitsLabel e) := by unfold FitsLabel; infer_instance

/-- A sheet: the unique id is a word and ends its line; the label numbers fit the counter (`i32`). -/
def FitsSheet (s : Sheet) : Prop :=
  inI64 s.x ∧ inI64 s.y ∧ inI64 s.dimx ∧ inI64 s.dimy ∧ LastWord s.unique ∧ Quotable s.name ∧
  inI64 s.nameSize ∧ Quotable s.filename ∧ inI64 s.filenameSize ∧ (∀ l ∈ s.labels, FitsLabel l) ∧
  s.labels.length < 2147483646

instance (e : Sheet) : Decidable (FitsSheet e) := by unfold FitsSheet; infer_instance

def FitsDescription (d : Description) : Prop :=
  Word d.size ∧ inI64 d.dimx ∧ inI64 d.dimy ∧ Quotable d.title ∧ Quotable d.date ∧ Quotable d.rev ∧
  Quotable d.comp ∧ Quotable d.comment1 ∧ Quotable d.comment2 ∧ Quotable d.comment3 ∧
  Quotable d.comment4 ∧ inI64 d.sheet ∧ inI64 d.sheetCount

instance (e : Description) : Decidable (FitsDescription e) := by unfold FitsDescription; infer_instance

/-- A schematic that fits the file format. -/
def FitsSchematic (s : Schematic F) : Prop :=
  (∀ l ∈ s.libraries, OneLine l) ∧ OneLine s.eelayer ∧ startsWith s.eelayer (str! "EELAYER ") = true ∧
  FitsDescription s.description ∧ (∀ e ∈ s.elements, FitsElement e) ∧ (∀ e ∈ s.sheets, FitsSheet e)

instance (s : Schematic F) : Decidable (FitsSchematic s) := by unfold FitsSchematic; infer_instance

/-! ### What the writer needs beyond what the reader guarantees -/

/-- A field whose name is written or fixed by its number. -/
def NamedField (f : Sch.Field F) : Prop := 0 ≤ f.i ∧ FixedName f.i f.name

instance (f : Sch.Field F) : Decidable (NamedField f) := inferInstanceAs (Decidable (_ ∧ _))

/-- A component whose name and reference can be written without quotes. -/
def WritableComponent (c : Component F) : Prop :=
  Word c.name ∧ Word c.reference ∧ ∀ f ∈ c.fields, NamedField f

instance (c : Component F) : Decidable (WritableComponent c) := by unfold WritableComponent; infer_instance

def WritableElement : Element F → Prop
  | .component c => WritableComponent c
  | _ => True

instance (e : Element F) : Decidable (WritableElement e) := by
  cases e <;> (unfold WritableElement; infer_instance)

/-- A schematic whose unquoted parts (paper size, component names and references,
sheet ids) are words and whose field names are the ones written. -/
def Writable (s : Schematic F) : Prop :=
  Word s.description.size ∧ (∀ e ∈ s.elements, WritableElement e) ∧ ∀ x ∈ s.sheets, Word x.unique

instance (s : Schematic F) : Decidable (Writable s) := by unfold Writable; infer_instance

/-- A component none of whose lines would end in a carriage return of its own: the
reference, the unit line and the alternative references end their lines. -/
def EndedComponent (c : Component F) : Prop :=
  EndsLine c.reference ∧ EndsLine c.u ∧ ∀ a ∈ c.arPath, EndsLine a

instance (c : Component F) : Decidable (EndedComponent c) := by unfold EndedComponent; infer_instance

def EndedElement : Element F → Prop
  | .component c => EndedComponent c
  | .text t => EndsLine t.text
  | .other s => EndsLine s
  | _ => True

instance (e : Element F) : Decidable (EndedElement e) := by
  cases e <;> (unfold EndedElement; infer_instance)

/-- A schematic in which no stored text that ends a line of the file ends in a carriage
return. -/
def Ended (s : Schematic F) : Prop :=
  (∀ l ∈ s.libraries, EndsLine l) ∧ EndsLine s.eelayer ∧ (∀ e ∈ s.elements, EndedElement e) ∧
  ∀ x ∈ s.sheets, EndsLine x.unique

instance (s : Schematic F) : Decidable (Ended s) := by unfold Ended; infer_instance

/-- The label numbers of all sheets fit the counter (`i32`). -/
def CountableLabels (s : Schematic F) : Prop := ∀ x ∈ s.sheets, x.labels.length < 2147483646

instance (s : Schematic F) : Decidable (CountableLabels s) := by unfold CountableLabels; infer_instance

end Verif.Spec

/-! ### Carriage returns at line ends -/

namespace Verif.Sch
open Verif

variable {F : Type} [Flt F]

/-- A component without the carriage returns that would end its lines. -/
def Component.strip (c : Component F) : Component F :=
  { c with reference := stripCr c.reference, u := stripCr c.u, arPath := c.arPath.map stripCr }

/-- A sheet without the carriage return that would end its second line. -/
def Sheet.strip (s : Sheet) : Sheet := { s with unique := stripCr s.unique }

/-- An element without the carriage returns that would end its lines. -/
def Element.strip : Element F → Element F
  | .component c => .component c.strip
  | .text t => .text { t with text := stripCr t.text }
  | .other s => .other (stripCr s)
  | e => e

/-- A schematic without the carriage returns that would end its lines. -/
def Schematic.strip (s : Schematic F) : Schematic F :=
  { s with
    libraries := s.libraries.map stripCr, eelayer := stripCr s.eelayer,
    elements := s.elements.map Element.strip, sheets := s.sheets.map Sheet.strip }

end Verif.Sch
