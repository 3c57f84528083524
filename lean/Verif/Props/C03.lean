import Verif.Lemmas.SchTerm
import Verif.Basic.Nm
/-!
# C03: reading a schematic always terminates
-/

namespace Verif
open Sch

variable {F : Type} [Flt F]

/-- Every call of `parse_str`, on whatever text, comes to an end (with a value, an
error or a panic). -/
theorem C03_parse_terminates (t : Str) : (parseStr t : Res (Schematic F)) ≠ .diverge :=
  parse_ends none t

/-- The reason: each step of the main loop, whatever was read so far, hands on at
most the lines it was given, and the loop then drops one more. -/
theorem C03_no_step_back (sch sch' : Schematic F) (p p' : List Str)
    (h : parseItem sch p = .ok (sch', p')) : p'.length ≤ p.length :=
  (parseItem_forward sch p).2 sch' p' h

/-- Reading a schematic file ends as well, whatever the file contains. -/
theorem C03_parse_file_terminates (w : World) (f : Str) : (parseFile w f : Res (Schematic F)) ≠ .diverge := by
  unfold parseFile
  split
  · intro h; cases h
  · exact parse_ends _ _

/-- A step that reads a wire uses its two lines. -/
example : parseItem (Schematic.dflt : Schematic Nm)
    [str! "Wire Wire Line", str! "\t1 2 3 4", str! "$EndSCHEMATC"] =
    .ok ({ (Schematic.dflt : Schematic Nm) with elements := [.wire ⟨.wire, 1, 2, 3, 4⟩] },
      [str! "\t1 2 3 4", str! "$EndSCHEMATC"]) := by decide

end Verif
