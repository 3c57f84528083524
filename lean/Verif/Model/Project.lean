import Verif.Basic.Str
import Verif.Basic.Res
/-!
# Project files (src/project.rs)
-/

namespace Verif.Pro
open Verif

/-- `Project` (src/project.rs 14-17). -/
structure Project where
  data : Str
  deriving DecidableEq, Repr

/-- `project::parse_str` (src/project.rs 20-28). -/
def parseStr (s : Str) : Res Project :=
  if !startsWith s (str! "update=") then .err .other else .ok ⟨s⟩

end Verif.Pro
