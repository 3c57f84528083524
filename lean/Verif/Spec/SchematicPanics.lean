import Verif.Spec.SchematicGrammar
import Verif.Spec.SchematicDefects
/-!
# Where reading a schematic breaks off

The places at which the reader of schematics aborts the program.  Everything before
such a place follows the grammar of `Spec/SchematicGrammar.lean`.
-/

namespace Verif.Spec
open Verif Sch

/-- The first letter of the word is one of these. -/
def FirstLetter {α : Type} (table : List (Char × α)) (w : Str) : Prop := ∃ c r x, w = c :: r ∧ (c, x) ∈ table

/-- The words of a field line after its value are fine up to a missing letter: of the
direction, of the alignment, or one of the three letters of the style. -/
def LetterMissing (F : Type) [Flt F] (dir x y size shown hor style : Str) : Prop :=
  dir = [] ∨
    FirstLetter directions dir ∧ (∃ u : F, FloatWord x u) ∧ (∃ u : F, FloatWord y u) ∧ (∃ u, IntWord size u) ∧
      (shown = str! "0000" ∨ shown = str! "0001") ∧
      (hor = [] ∨
        FirstLetter alignments hor ∧
          (style = [] ∨ ∃ c, FirstLetter alignments [c] ∧ (style = [c] ∨ style = [c, 'I'] ∨ style = [c, 'N'])))

/-- A field line that is fine up to a missing letter. -/
def ShortField (F : Type) [Flt F] (line : Str) : Prop :=
  ∃ first number value dir x y size shown hor style name,
    HasWords line ([first, number, value, dir, x, y, size, shown, hor, style] ++ name) ∧
    (∃ i, IntWord number i ∧ (name = [] ∧ i ∈ fixedNames.map Prod.fst ∨ name.length = 1)) ∧
    LetterMissing F dir x y size shown hor style

/-- `Text kind x y orientation size shape italic` of a global or hierarchical label: the
last word, the thickness, is missing. -/
def ShortLabelLine (line : Str) : Prop :=
  ∃ kind x y orientation size shape italic,
    SpacedWords line [str! "Text", kind, x, y, orientation, size, shape, italic] ∧
    (kind = str! "GLabel" ∨ kind = str! "HLabel") ∧
    (∃ i, IntWord x i) ∧ (∃ i, IntWord y i) ∧ (∃ i, IntWord orientation i) ∧ (∃ i, IntWord size i)

/-- The lines begin with something that makes the reader panic. -/
inductive BreaksOff (F : Type) [Flt F] : List Str → Prop
  /-- a line without words -/
  | blank {l rest} (h : SpacedWords l []) : BreaksOff F (l :: rest)
  /-- an item that is not finished when the file ends -/
  | cut {ls more} {p : Part F} (h0 : ls ≠ []) (h1 : more ≠ []) (h : PartLines (ls ++ more) p) : BreaksOff F ls
  /-- a component with a field in which a letter is missing -/
  | field {l ls es f rest} (hb : BeginsWith (str! "$Comp") l) (h : CompLines (F := F) ls es)
      (hf : BeginsWith (str! "F") f) (hs : ShortField F f) : BreaksOff F (l :: ls ++ f :: rest)
  /-- a label that lacks its thickness -/
  | label {l rest} (h : ShortLabelLine l) : BreaksOff F (l :: rest)

/-- The lines that make the reader of schematics panic: the file ends in its header, or
something makes the reader panic that comes after complete items. -/
def SchematicPanics (F : Type) [Flt F] (ls : List Str) : Prop :=
  EndsInHeader ls ∨
  ∃ (libraries : List Str) (layer : Str) (a b : List Str) (ps : List (Part F)),
    ls = str! "EESchema Schematic File Version 2" :: (libraries.map fun n => str! "LIBS:" ++ n) ++
      (str! "EELAYER " ++ layer) :: str! "EELAYER END" :: (a ++ b) ∧
    ContentLines a ps ∧ BreaksOff F b

end Verif.Spec
