import Verif.Model.SchematicApi
/-!
# Specification vocabulary: sheet hierarchies
-/

namespace Verif.Spec
open Verif Sch

variable {F : Type} [Flt F]

/-- A schematic together with what its sheets contain, all the way down. -/
inductive Hier (F : Type)
  | node (s : Schematic F) (subs : List (Hier F))

/-- The schematic at the top. -/
def Hier.root : Hier F → Schematic F
  | .node s _ => s

mutual
/-- `h` is the hierarchy stored in the files: under each schematic there is one
sub-hierarchy per sheet, in sheet order, whose top is what the sheet's file
contains. -/
def Stored (w : World) : Hier F → Prop
  | .node s subs => StoredAll w s s.sheets subs
/-- The same for a list of sheets of `s`. -/
def StoredAll (w : World) (s : Schematic F) : List Sheet → List (Hier F) → Prop
  | [], [] => True
  | sheet :: r, h :: hs => parseFileForSheet w s sheet = .ok h.root ∧ Stored w h ∧ StoredAll w s r hs
  | _, _ => False
end

mutual
/-- All components: those of the top schematic, then those of each sheet. -/
def Hier.components : Hier F → List (Component F)
  | .node s subs => s.components ++ componentsAll subs
/-- All components of several hierarchies. -/
def componentsAll : List (Hier F) → List (Component F)
  | [] => []
  | h :: hs => h.components ++ componentsAll hs
end

mutual
/-- The number of levels. -/
def Hier.depth : Hier F → Nat
  | .node _ subs => depthAll subs + 1
/-- The largest number of levels. -/
def depthAll : List (Hier F) → Nat
  | [] => 0
  | h :: hs => max h.depth (depthAll hs)
end

/-- `sub` is what a sheet of `s` contains. -/
def SubSheet (w : World) (s sub : Schematic F) : Prop :=
  ∃ sheet ∈ s.sheets, parseFileForSheet w s sheet = .ok sub

/-- `t` can be reached from `s` through one or more sheets. -/
inductive Below (w : World) : Schematic F → Schematic F → Prop
  | one {s t : Schematic F} : SubSheet w s t → Below w s t
  | more {s t u : Schematic F} : SubSheet w s t → Below w t u → Below w s u

end Verif.Spec
