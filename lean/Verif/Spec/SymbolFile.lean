import Verif.Spec.SchematicFile
import Verif.Model.SymbolLib
/-!
# Specification vocabulary: symbol libraries that fit the file format
-/

namespace Verif.Spec
open Verif Lib

variable {F : Type} [Flt F]

/-- A field: nonnegative number, fixed name if its number has one, value and name
without double quotes and line breaks. -/
def FitsSymField (f : Lib.Field F) : Prop :=
  0 ≤ f.i ∧ inI64 f.i ∧ inI64 f.dimension ∧ Quotable f.value ∧ Quotable f.name ∧ FixedName f.i f.name

instance (f : Lib.Field F) : Decidable (FitsSymField f) := inferInstanceAs (Decidable (_ ∧ _))

def FitsPin (p : Pin) : Prop :=
  Word p.name ∧ Word p.number ∧ inI64 p.x ∧ inI64 p.y ∧ inI64 p.len ∧ inI64 p.numSize ∧ inI64 p.nameSize ∧
  inI64 p.unit ∧ inI64 p.convert

instance (p : Pin) : Decidable (FitsPin p) := by unfold FitsPin; infer_instance

def FitsRect (r : Rectangle) : Prop :=
  inI64 r.x1 ∧ inI64 r.y1 ∧ inI64 r.x2 ∧ inI64 r.y2 ∧ inI64 r.unit ∧ inI64 r.convert ∧ inI64 r.thickness

instance (p : Rectangle) : Decidable (FitsRect p) := by unfold FitsRect; infer_instance

/-- A drawing: lines of other kinds are neither pins, nor rectangles, nor the end mark. -/
def LineDraw : Draw → Prop
  | .pin p => FitsPin p
  | .rectangle r => FitsRect r
  | .other s => '\n' ∉ s ∧ startsWith s (str! "X ") = false ∧ startsWith s (str! "S ") = false ∧ s ≠ str! "ENDDRAW"

instance (d : Draw) : Decidable (LineDraw d) := by cases d <;> (unfold LineDraw; infer_instance)

/-- A symbol: name, reference and aliases are words; there are at least two fields. -/
def LineSymbol (s : Symbol F) : Prop :=
  Word s.name ∧ Word s.reference ∧ inI64 s.unitCount ∧ 2 ≤ s.fields.length ∧
  (∀ f ∈ s.fields, FitsSymField f) ∧ (∀ a ∈ s.aliases, Word a) ∧ (∀ d ∈ s.draw, LineDraw d)

instance (s : Symbol F) : Decidable (LineSymbol s) := by unfold LineSymbol; infer_instance

/-- A drawing whose text does not end with a carriage return. -/
def EndedDraw : Draw → Prop
  | .pin _ => True
  | .rectangle _ => True
  | .other s => EndsLine s

instance (d : Draw) : Decidable (EndedDraw d) := by cases d <;> (unfold EndedDraw; infer_instance)

/-- No free text that ends a line of the symbol ends with a carriage return: the last
alias and the lines of other kinds. -/
def EndedSymbol (s : Symbol F) : Prop :=
  (∀ a ∈ s.aliases.getLast?, EndsLine a) ∧ ∀ d ∈ s.draw, EndedDraw d

instance (s : Symbol F) : Decidable (EndedSymbol s) := by unfold EndedSymbol; infer_instance

/-- No free text that ends a line of the library ends with a carriage return. -/
def EndedLib (l : SymbolLib F) : Prop := ∀ s ∈ l.symbols, EndedSymbol s

instance (l : SymbolLib F) : Decidable (EndedLib l) := by unfold EndedLib; infer_instance

/-- A symbol that fits the file format. -/
def FitsSymbol (s : Symbol F) : Prop := LineSymbol s ∧ EndedSymbol s

instance (s : Symbol F) : Decidable (FitsSymbol s) := by unfold FitsSymbol; infer_instance

/-- A library that fits the file format. -/
def FitsLib (l : SymbolLib F) : Prop := ∀ s ∈ l.symbols, FitsSymbol s

instance (l : SymbolLib F) : Decidable (FitsLib l) := by unfold FitsLib; infer_instance

/-- A library in which some field is bold. -/
def HasBold (l : SymbolLib F) : Prop := ∃ s ∈ l.symbols, ∃ f ∈ s.fields, f.bold = true

instance (l : SymbolLib F) : Decidable (HasBold l) := by unfold HasBold; infer_instance

end Verif.Spec
