import Verif.Model.Formatter
/-!
# Footprint library tables (src/fp_lib_table.rs)

`Lib::get_expanded_uri` (src/fp_lib_table.rs 36-40) is in `Model/Expand.lean`.
-/

namespace Verif.Tbl
open Verif Sx

/-- `Lib` (src/fp_lib_table.rs 22-33). -/
structure Lib where
  name : Str
  type_ : Str
  uri : Str
  options : Str
  descr : Str
  deriving DecidableEq, Repr

/-- `FpLibTable` (src/fp_lib_table.rs 15-18). -/
structure FpLibTable where
  libs : List Lib
  deriving DecidableEq, Repr

/-- `IntoSexp for Lib` (src/fp_lib_table.rs 53-63). -/
def Lib.ser (l : Lib) : Sexp :=
  node (str! "lib") [pair (str! "name") (.str l.name), pair (str! "type") (.str l.type_),
    pair (str! "uri") (.str l.uri), pair (str! "options") (.str l.options),
    pair (str! "descr") (.str l.descr)]

/-- `IntoSexp for FpLibTable` (src/fp_lib_table.rs 43-51). -/
def FpLibTable.ser (t : FpLibTable) : Sexp := node (str! "fp_lib_table") (t.libs.map Lib.ser)

/-- `FromSexp for Lib` (src/fp_lib_table.rs 73-89); elements after the fifth are
ignored because the iterator is not closed. -/
def Lib.de (s : Sexp) : Res Lib := do
  let i ← iter (str! "lib") s
  let (name, i) ← eat (inList (str! "name") string) i
  let (type_, i) ← eat (inList (str! "type") string) i
  let (uri, i) ← eat (inList (str! "uri") string) i
  let (options, i) ← eat (inList (str! "options") string) i
  let (descr, _) ← eat (inList (str! "descr") string) i
  .ok ⟨name, type_, uri, options, descr⟩

/-- `FromSexp for FpLibTable` (src/fp_lib_table.rs 65-71). -/
def FpLibTable.de (s : Sexp) : Res FpLibTable := do
  let i ← iter (str! "fp_lib_table") s
  let libs ← vec Lib.de i
  .ok ⟨libs⟩

/-- `fp_lib_table::parse` (src/fp_lib_table.rs 92-96). -/
def parse (s : Str) : Res FpLibTable := do
  let t ← parseSexp s
  FpLibTable.de t

/-- `fp_lib_table::to_string` (src/fp_lib_table.rs 99-103). -/
def toText (q : Str → Bool) (level : Int) (t : FpLibTable) : Str := Fm.toText q level t.ser

end Verif.Tbl
