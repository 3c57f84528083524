import Verif.Spec.SymbolFile
/-!
# Specification vocabulary: symbol libraries that can be written back
-/

namespace Verif.Spec
open Verif Lib

variable {F : Type} [Flt F]

/-- The file can hold the field: not bold, and its number determines its name or
lets it be written. -/
def WritableSymField (f : Lib.Field F) : Prop := f.bold = false ∧ 0 ≤ f.i ∧ FixedName f.i f.name

instance (f : Lib.Field F) : Decidable (WritableSymField f) := inferInstanceAs (Decidable (_ ∧ _))

/-- The file can hold the drawing: pins have words for name and number. -/
def WritableDraw : Draw → Prop
  | .pin p => Word p.name ∧ Word p.number
  | .rectangle _ => True
  | .other _ => True

instance (d : Draw) : Decidable (WritableDraw d) := by cases d <;> (unfold WritableDraw; infer_instance)

/-- The file can hold the symbol: everything written without quotes is a word and
there is a second field. -/
def WritableSymbol (s : Symbol F) : Prop :=
  Word s.name ∧ Word s.reference ∧ 2 ≤ s.fields.length ∧ (∀ f ∈ s.fields, WritableSymField f) ∧
  (∀ a ∈ s.aliases, Word a) ∧ (∀ d ∈ s.draw, WritableDraw d)

instance (s : Symbol F) : Decidable (WritableSymbol s) := by unfold WritableSymbol; infer_instance

/-- The file can hold the library. -/
def WritableLib (l : SymbolLib F) : Prop := ∀ s ∈ l.symbols, WritableSymbol s

instance (l : SymbolLib F) : Decidable (WritableLib l) := by unfold WritableLib; infer_instance

end Verif.Spec
