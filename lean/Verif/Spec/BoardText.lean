import Verif.Spec.FootprintText
import Verif.Model.Layout.Codec
/-!
# The text of a board file, section by section
-/

namespace Verif.Spec
open Verif Lay

variable {F : Type} [Flt F]

/-- Atoms after a blank, lists on a line each. -/
def linewise (spell : Str → Str) (level : Int) (l : List Sexp) : Str :=
  l.flatMap fun x => (match x with | .list _ => startLine 1 level | _ => [' ']) ++ flat spell x

/-- A section: empty lines before it as given, closed on a line of its own. -/
def section_ (spell : Str → Str) (before : Nat) (level : Int) (name : Str) (content : Str) : Str :=
  startLine before level ++ ['('] ++ spell name ++ content ++ startLine 1 level ++ [')']

/-- Everything before the elements of a board: version and host on the first
line, then the sections `general`, `page`, `layers` and `setup`. -/
def headerText (spell : Str → Str) (level : Int) (l : Layout F) : Str :=
  flatL spell [Sx.pair (str! "version") (Sx.ofI l.version),
      Sx.node (str! "host") [.str l.host.tool, .str l.host.build]] ++
  section_ spell 2 (level + 1) (str! "general") (linewise spell (level + 2) (body l.general.ser)) ++
  startLine 2 (level + 1) ++ flat spell (Sx.pair (str! "page") (.str l.page)) ++
  section_ spell 1 (level + 1) (str! "layers") (linewise spell (level + 2) (l.layers.map Layer.ser)) ++
  section_ spell 2 (level + 1) (str! "setup")
    (linewise spell (level + 2) (l.setup.elements.map SetupElement.ser) ++
      startLine 1 (level + 2) ++ ['('] ++ spell (str! "pcbplotparams") ++
      linewise spell (level + 3) (l.setup.pcbplotparams.map SetupElement.ser) ++ [')']) ++ ['\n']

/-- The text of one element of a board (without the line break that separates
footprints and tracks from the rest): footprints look as in a file of their own,
one level deeper, with an empty line before them; nets, graphics, tracks and vias
have a line each; net classes and texts are blocks.  Dimensions and zones are
placed by the table of rules, and so are unknown elements, unless the formatter
knows nothing in them: those are written on one line. -/
def boardElementText (spell : Str → Str) (level : Int) : Elem F → Str
  | .module_ m => section_ spell 2 (level + 1) (str! "module")
      ([' '] ++ spell m.name ++ m.elements.flatMap (elementText spell (level + 1)))
  | .net n => startLine 1 (level + 1) ++ flat spell n.ser
  | .grLine x => startLine 1 (level + 1) ++ flat spell x.ser
  | .grArc x => startLine 1 (level + 1) ++ flat spell x.ser
  | .grCircle x => startLine 1 (level + 1) ++ flat spell x.ser
  | .segment x => startLine 1 (level + 1) ++ flat spell x.ser
  | .via x => startLine 1 (level + 1) ++ flat spell x.ser
  | .grText x => section_ spell 1 (level + 1) (str! "gr_text")
      (broken spell [str! "effects"] (level + 2) (body x.ser))
  | .netClass x => section_ spell 2 (level + 1) (str! "net_class")
      (linewise spell (level + 2) (body x.ser))
  | .other x => entryText spell level x
  | e => layOut spell [str! "kicad_pcb"] level 0 e.ser

/-- What separates an element of a board from the one before it: a line break
where the footprints end, and one before the first track.  Unknown elements
without a place of their own have a blank before it. -/
def separator (level : Int) (afterModule seenSegment : Bool) (e : Elem F) : Str :=
  (match e with | .other x => gap [str! "kicad_pcb"] 0 x | _ => []) ++
    boardBreak level afterModule seenSegment e.ser

/-- Whether the list written last is a footprint, after an element. -/
def afterModule (b : Bool) : Elem F → Bool
  | .module_ _ => true
  | .other x => match headOf x with | none => b | some h => decide (h = str! "module")
  | _ => false

/-- Whether there was a track, after an element. -/
def seenSegment (b : Bool) : Elem F → Bool
  | .segment _ => true
  | .other x => b || decide (headOf x = some (str! "segment"))
  | _ => b

/-- The elements of a board, in order. -/
def boardElements (spell : Str → Str) (level : Int) (m s : Bool) : List (Elem F) → Str
  | [] => []
  | e :: es => separator level m s e ++ boardElementText spell level e ++
      boardElements spell level (afterModule m e) (seenSegment s e) es

/-- A board without tracks, footprints or boards inside other things. -/
def PlainBoard (l : Layout F) : Prop :=
  (∀ s ∈ l.setup.elements ++ l.setup.pcbplotparams, s.name ≠ [] ∧ s.name ≠ str! "module" ∧
    s.name ≠ str! "kicad_pcb" ∧ s.name ≠ str! "segment") ∧
  ∀ e ∈ l.elements, (∀ x, e = .other x → BoardItem x) ∧ (∀ z, e = .zone z → RegularL false z.other)

end Verif.Spec
