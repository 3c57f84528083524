import Verif.Spec.SymbolFile
/-!
# Editing sessions on symbol libraries
-/

namespace Verif.Spec
open Verif Flt Lib

variable {F : Type} [Flt F]

/-- The changes made to a symbol: `set_name`, and (the fields are public) setting the numbers and
switches and appending to the lists. -/
inductive SymEdit (F : Type)
  | setName (name : Str)
  | setReference (r : Str)
  | setTextOffset (x : F)
  | setFlags (drawPinnumber drawPinname unitLocked isPower : Bool)
  | setUnitCount (n : Int)
  | addField (f : Lib.Field F)
  | addAlias (a : Str)
  | addDraw (d : Draw)

/-- Making the change. -/
def SymEdit.run : SymEdit F → Symbol F → Res (Symbol F)
  | .setName n, s => s.setName n
  | .setReference r, s => .ok { s with reference := r }
  | .setTextOffset x, s => .ok { s with textOffset := x }
  | .setFlags a b c d, s => .ok { s with drawPinnumber := a, drawPinname := b, unitLocked := c, isPower := d }
  | .setUnitCount n, s => .ok { s with unitCount := n }
  | .addField f, s => .ok { s with fields := s.fields ++ [f] }
  | .addAlias a, s => .ok { s with aliases := s.aliases ++ [a] }
  | .addDraw d, s => .ok { s with draw := s.draw ++ [d] }

/-- The arguments fit the file format. -/
def SymEdit.Fits : SymEdit F → Prop
  | .setName n => Word n
  | .setReference r => Word r
  | .setTextOffset _ => True
  | .setFlags _ _ _ _ => True
  | .setUnitCount n => inI64 n
  | .addField f => FitsSymField f ∧ f.bold = false
  | .addAlias a => LastWord a
  | .addDraw d => LineDraw d ∧ EndedDraw d

/-- Changing the symbol at a position of a list; outside the list there is nothing to change,
and indexing panics. -/
def editAt (f : Symbol F → Res (Symbol F)) : Nat → List (Symbol F) → Res (List (Symbol F))
  | _, [] => .panic
  | 0, s :: ss => do let s' ← f s; .ok (s' :: ss)
  | n + 1, s :: ss => do let ss' ← editAt f n ss; .ok (s :: ss')

/-- The changes made to a library: changing the symbol with a number, adding a new symbol
(`Symbol::new`), adding a whole symbol and removing the symbols with a name. -/
inductive LibEdit (F : Type)
  | edit (i : Nat) (e : SymEdit F)
  | addNew (name reference : Str)
  | add (s : Symbol F)
  | remove (name : Str)

/-- Making the change. -/
def LibEdit.run : LibEdit F → SymbolLib F → Res (SymbolLib F)
  | .edit i e, l => do let ss ← editAt e.run i l.symbols; .ok ⟨ss⟩
  | .addNew n r, l => .ok ⟨l.symbols ++ [Symbol.new n r]⟩
  | .add s, l => .ok ⟨l.symbols ++ [s]⟩
  | .remove n, l => .ok ⟨l.symbols.filter fun s => s.name ≠ n⟩

/-- A symbol that fits the file format but for the number of its fields, and has no bold text. -/
def Unfinished (s : Symbol F) : Prop :=
  Word s.name ∧ Word s.reference ∧ inI64 s.unitCount ∧ (∀ f ∈ s.fields, FitsSymField f ∧ f.bold = false) ∧
  (∀ a ∈ s.aliases, Word a) ∧ (∀ d ∈ s.draw, LineDraw d) ∧ EndedSymbol s

/-- The arguments fit the file format. -/
def LibEdit.Fits : LibEdit F → Prop
  | .edit _ e => e.Fits
  | .addNew n r => Word n ∧ Word r
  | .add s => Unfinished s
  | .remove _ => True

/-- Making the changes one after the other. -/
def runLib : List (LibEdit F) → SymbolLib F → Res (SymbolLib F)
  | [], l => .ok l
  | e :: es, l => do let l' ← e.run l; runLib es l'

/-- A library of symbols that fit the file format but perhaps lack fields. -/
def UnfinishedLib (l : SymbolLib F) : Prop := ∀ s ∈ l.symbols, Unfinished s

end Verif.Spec
