import Verif.Spec.SymbolGrammar
import Verif.Spec.SchematicPanics
/-!
# Where reading a symbol library breaks off

The places at which the reader of symbol libraries aborts the program.  Everything
before such a place follows the grammar of `Spec/SymbolGrammar.lean`.
-/

namespace Verif.Spec
open Verif Lib

/-- The words of a symbol field after its size are fine up to a missing letter: of the
direction, of the alignment, or one of the three letters of the style. -/
def SymLetterMissing (dir shown hor style : Str) : Prop :=
  dir = [] ∨
    FirstLetter directions dir ∧ (shown = str! "V" ∨ shown = str! "I") ∧
      (hor = [] ∨
        FirstLetter alignments hor ∧
          (style = [] ∨ ∃ c, FirstLetter alignments [c] ∧ (style = [c] ∨ style = [c, 'I'] ∨ style = [c, 'N'])))

/-- A symbol field that is fine up to a missing letter. -/
def ShortSymField (F : Type) [Flt F] (line : Str) : Prop :=
  ∃ first value x y size dir shown hor style name,
    HasWords line ([first, value, x, y, size, dir, shown, hor, style] ++ name) ∧
    (∃ i, IntWord (first.drop 1) i ∧ (name = [] ∧ i ∈ fixedNames.map Prod.fst ∨ name.length = 1)) ∧
    (∃ u : F, FloatWord x u) ∧ (∃ u : F, FloatWord y u) ∧ (∃ u, IntWord size u) ∧
    SymLetterMissing dir shown hor style

/-- The lines of a symbol up to some point in its fields. -/
def SymbolStart (F : Type) [Flt F] (ls : List Str) : Prop :=
  ∃ heading def_ fields, ls = heading :: str! "#" :: def_ :: fields ∧ (∃ s : Symbol F, DefLine def_ s) ∧
    ∀ l ∈ fields, (∃ r, l = 'F' :: r) ∧ ∃ f : Field F, FieldLine l f

/-- The lines begin with something that makes the reader panic. -/
inductive SymbolBreaks (F : Type) [Flt F] : List Str → Prop
  /-- the file ends after the comment before a symbol -/
  | comment {x} : SymbolBreaks F [x, str! "#"]
  /-- the file ends after the definition or after a field -/
  | cut {ls} (h : SymbolStart F ls) : SymbolBreaks F ls
  /-- there is an empty line after the definition or after a field -/
  | empty {ls rest} (h : SymbolStart F ls) : SymbolBreaks F (ls ++ [] :: rest)
  /-- a letter is missing in a field -/
  | field {ls r rest} (h : SymbolStart F ls) (hs : ShortSymField F ('F' :: r)) : SymbolBreaks F (ls ++ ('F' :: r) :: rest)
  /-- the file ends in or right after the list of footprint filters -/
  | filters {ls b} (h : SymbolStart F ls) (hb : str! "$ENDFPLIST" ∉ b.dropLast) :
      SymbolBreaks F (ls ++ str! "$FPLIST" :: b)

/-- The lines that make the reader of symbol libraries panic: after the heading and
complete symbols comes one that breaks off. -/
def LibraryPanics (F : Type) [Flt F] (ls : List Str) : Prop :=
  ∃ (symbols : List (List Str)) (b : List Str),
    ls = str! "EESchema-LIBRARY Version 2.3" :: str! "#encoding utf-8" :: str! "#" :: (symbols.flatten ++ b) ∧
    (∀ a ∈ symbols, (∃ s : Symbol F, SymbolLines a s) ∧ a.head? ≠ some (str! "#End Library")) ∧
    SymbolBreaks F b ∧ b.head? ≠ some (str! "#End Library")

end Verif.Spec
