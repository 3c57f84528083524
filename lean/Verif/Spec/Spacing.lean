import Verif.Model.Schematic
import Verif.Model.SymbolLib
/-!
# Texts that differ only in spacing

For the line formats (schematics and symbol libraries): `squeeze` replaces every run of
blanks outside quotes by one blank, so two lines have the same squeezed form exactly when
one can be got from the other by repeating or thinning out blanks that are not inside
quotes and never removing the last blank of a run.  For the tree formats (footprints,
boards, library tables): `Reflow` is one insertion of a white space character next to
another white space character, a parenthesis or a quote, outside quotes.
-/

namespace Verif.Spec
open Verif

/-- `squeeze` from the middle of a line: whether a quote is open, whether the last
character was a blank outside quotes. -/
def squeezeFrom (inside blank : Bool) : Str → Str
  | [] => []
  | c :: s =>
    if c = '"' then c :: squeezeFrom (!inside) false s
    else if c = ' ' ∧ inside = false then
      if blank then squeezeFrom false true s else c :: squeezeFrom false true s
    else c :: squeezeFrom inside false s

/-- The line with every run of blanks outside quotes replaced by a single blank. -/
def squeeze (l : Str) : Str := squeezeFrom false false l

/-- The line with its spacing normalised.  The heading and comment lines, which begin with
`E` and `#`, are compared letter by letter by the readers and are left as they are. -/
def tidyLine : Str → Str
  | 'E' :: l => 'E' :: l
  | '#' :: l => '#' :: l
  | l => squeeze l

/-- The two texts consist of the same lines up to the number of blanks between words. -/
def SameButBlanks (t t' : Str) : Prop := (lines t).map tidyLine = (lines t').map tidyLine

/-- A component with the spacing of the lines that are kept as they are normalised. -/
def tidyComponent {F : Type} (c : Sch.Component F) : Sch.Component F :=
  { c with u := tidyLine c.u, arPath := c.arPath.map tidyLine }

/-- An element with the spacing of the texts that are kept as they are normalised. -/
def tidyElement {F : Type} : Sch.Element F → Sch.Element F
  | .component c => .component (tidyComponent c)
  | .text t => .text { t with text := tidyLine t.text }
  | .other s => .other (tidyLine s)
  | .wire w => .wire w
  | .connection p => .connection p
  | .noConnect p => .noConnect p

/-- A schematic with the spacing of the texts that are kept as they are normalised. -/
def tidySchematic {F : Type} (s : Sch.Schematic F) : Sch.Schematic F :=
  { s with libraries := s.libraries.map squeeze, elements := s.elements.map tidyElement }

/-- A drawing with the spacing of lines that are kept as they are normalised. -/
def tidyDraw : Lib.Draw → Lib.Draw
  | .other s => .other (tidyLine s)
  | .pin p => .pin p
  | .rectangle r => .rectangle r

/-- A symbol with the spacing of lines that are kept as they are normalised. -/
def tidySymbol {F : Type} (s : Lib.Symbol F) : Lib.Symbol F := { s with draw := s.draw.map tidyDraw }

/-- A library with the spacing of lines that are kept as they are normalised. -/
def tidyLib {F : Type} (l : Lib.SymbolLib F) : Lib.SymbolLib F := ⟨l.symbols.map tidySymbol⟩

/-! ## Trees -/

/-- Where a position of a tree text is: outside quotes, inside, or after a backslash
inside. -/
inductive Quoting | out | within | escaped
  deriving DecidableEq

/-- The quoting after one more character. -/
def Quoting.after : Quoting → Char → Quoting
  | .out, c => if c = '"' then .within else .out
  | .within, c => if c = '"' then .out else if c = '\\' then .escaped else .within
  | .escaped, _ => .within

/-- White space in a tree text. -/
def TreeSpace (c : Char) : Prop := c = ' ' ∨ c = '\t' ∨ c = '\r' ∨ c = '\n'

/-- A character at which a bare word ends. -/
def TreeBreak (c : Char) : Prop := TreeSpace c ∨ c = '(' ∨ c = ')' ∨ c = '"'

/-- One white space character is inserted, outside quotes and not inside a word: the text
before it is empty or ends in a word break, or the text behind it is empty or begins with
one. -/
inductive Reflow : Str → Str → Prop
  | mk (a b : Str) (c : Char) (hc : TreeSpace c) (out : a.foldl Quoting.after .out = .out)
      (edge : (∀ x ∈ a.getLast?, TreeBreak x) ∨ (∀ x ∈ b.head?, TreeBreak x)) :
      Reflow (a ++ b) (a ++ c :: b)

end Verif.Spec
