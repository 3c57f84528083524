import Verif.Basic.Num
import Verif.Model.Split
/-!
# Specification vocabulary: damage in a schematic file
-/

namespace Verif.Spec
open Verif

/-- The first word of a line is the given one. -/
def Begins (w l : Str) : Prop := (splitWs l).head? = some w

/-- A component field line with all its parts, but with an empty orientation or
justification or less than three style letters. -/
def BadField (l : Str) : Prop :=
  Begins (str! "F") l ∧ ∃ v, splitQ l = .ok v ∧ (v.length = 10 ∨ v.length = 11) ∧
    (v[3]? = some [] ∨ v[8]? = some [] ∨ ∃ w, v[9]? = some w ∧ w.length < 3)

/-- A global or hierarchical label line that lacks its last word. -/
def ShortLabel (l : Str) : Prop :=
  Begins (str! "Text") l ∧ (splitWs l).length = 8 ∧
    ((splitWs l)[1]? = some (str! "GLabel") ∨ (splitWs l)[1]? = some (str! "HLabel"))

/-- The damage after the header that makes the schematic reader panic, in the lines of a file. -/
inductive ItemDefect : List Str → Prop
  /-- a blank line -/
  | blankLine {ls l} (hl : l ∈ ls) (h : ∀ c ∈ l, isWs c = true) : ItemDefect ls
  /-- a component without end -/
  | openComponent {a l b} (h : Begins (str! "$Comp") l) (he : str! "$EndComp" ∉ b) : ItemDefect (a ++ l :: b)
  /-- a sheet without end -/
  | openSheet {a l b} (h : Begins (str! "$Sheet") l) (he : str! "$EndSheet" ∉ b) : ItemDefect (a ++ l :: b)
  /-- the file ends inside the description -/
  | openDescription {a l b} (h : Begins (str! "$Descr") l) (hb : b.length < 11) : ItemDefect (a ++ l :: b)
  /-- the file ends after the first line of a wire or text -/
  | cut {a l} (h : Begins (str! "Wire") l ∨ Begins (str! "Text") l) : ItemDefect (a ++ [l])
  /-- a bad field line -/
  | field {ls l} (hl : l ∈ ls) (h : BadField l) : ItemDefect ls
  /-- a short label line -/
  | label {ls l} (hl : l ∈ ls) (h : ShortLabel l) : ItemDefect ls

/-- The file ends in its header: after the first line there are only library lines. -/
def EndsInHeader (ls : List Str) : Prop :=
  ∃ libs, ls = str! "EESchema Schematic File Version 2" :: libs ∧ ∀ l ∈ libs, ∃ r, l = str! "LIBS:" ++ r

/-- The damage that makes the schematic reader panic. -/
def SchDefect (ls : List Str) : Prop := EndsInHeader ls ∨ ItemDefect ls

end Verif.Spec
