import Verif.Spec.NumberTexts
import Verif.Spec.Convert
import Verif.Spec.Coord
import Verif.Model.Files
/-!
# The content of a file with the numbers meant by the texts in it
-/

namespace Verif.Spec
open Classical

/-- The number meant by a text, if it is a number text. -/
noncomputable def Number.read (s : Str) : Option Number :=
  if h : ∃ n, NumberText s n then some h.choose else none

/-- Numbers that are read and written down only: what is computed with them is left open. -/
noncomputable instance : Flt Number where
  lit m k := .fin ((m : ℚ) / 10 ^ k)
  ofInt i := .fin (i : ℚ)
  add _ _ := .nan
  sub _ _ := .nan
  mul _ _ := .nan
  neg _ := .nan
  abs _ := .nan
  sqrt _ := .nan
  half _ := .nan
  feq _ _ := false
  lt _ _ := false
  le _ _ := false
  fmin _ _ := .nan
  fmax _ _ := .nan
  eps := .nan
  toStr _ := []
  ofStr := Number.read

end Verif.Spec

namespace Verif

/-- A whole number of nanometres as the number of millimetres it means. -/
def Coord.number (c : Coord) : Spec.Number := .fin c.value

/-- Any file with other numbers. -/
def Files.KicadFile.conv {C F : Type} (f : C → F) : Files.KicadFile C → Files.KicadFile F
  | .unknown p => .unknown p
  | .module_ m => .module_ (m.conv f)
  | .schematic s => .schematic (s.conv f)
  | .layout l => .layout (l.conv f)
  | .symbolLib l => .symbolLib (l.conv f)
  | .project p => .project p
  | .fpLibTable t => .fpLibTable t

end Verif
