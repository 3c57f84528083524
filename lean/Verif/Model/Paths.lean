import Verif.Model.SchematicApi
/-!
# File names on Unix

What `filename_for_sheet` uses of `std::path` on Unix.
-/

namespace Verif.Sch

/-- A text without the slashes at its end (standard library, called at src/schematic.rs 1582). -/
def trimSlashes (p : Str) : Str := (p.reverse.dropWhile (· == '/')).reverse

/-- A text without what follows its last slash (standard library, called at src/schematic.rs 1582). -/
def cutLast (p : Str) : Str := (p.reverse.dropWhile (· != '/')).reverse

/-- `Path::parent` on Unix (standard library, called at src/schematic.rs 1582).  Simplification:
components `.` are kept like other components; the standard library leaves them out. -/
def unixParent (p : Str) : Option Str :=
  if trimSlashes p = [] then none
  else
    let d := cutLast (trimSlashes p)
    if d = [] then some []
    else if trimSlashes d = [] then some (str! "/")
    else some (trimSlashes d)

/-- `Path::join` on Unix (standard library, called at src/schematic.rs 1586): an absolute name
replaces the directory. -/
def unixJoin (dir f : Str) : Str :=
  if f.head? = some '/' then f
  else if dir = [] ∨ dir.getLast? = some '/' then dir ++ f
  else dir ++ str! "/" ++ f

/-- The directory of the schematic joined with the name in the sheet
(src/schematic.rs 1582-1586, on Unix). -/
def unixResolve (path f : Str) : Option Str := (unixParent path).map fun d => unixJoin d f

/-- The files of a Unix system (src/util.rs 11-19, src/schematic.rs 1577-1587). -/
def unixWorld (read : Str → Option Str) : World := ⟨read, unixResolve⟩

end Verif.Sch
