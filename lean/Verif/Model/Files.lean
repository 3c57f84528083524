import Verif.Model.SchematicApi
import Verif.Model.SymbolLib
import Verif.Model.Footprint.Codec
import Verif.Model.Layout.Codec
import Verif.Model.FpLibTable
import Verif.Model.Project
/-!
# Reading and writing files (src/lib.rs 82-237, src/util.rs)
-/

namespace Verif.Files
open Verif

/-- The file system behind src/util.rs 11-44: `read` is the content of each readable file (operating system, not
in /repo).  Different names are different files. -/
structure Disk where
  read : Str → Option Str

/-- What the operating system does with one write (src/util.rs 22-44): the file cannot be created; or it is
created, which empties it if it existed, and writing fails after `n` characters, perhaps
inside the next character; or everything is written. -/
inductive Fate
  | refused
  | cut (n : Nat) (inside : Bool)
  | done
  deriving DecidableEq, Repr

/-- The disk with a new content of a file (src/util.rs 22-44), `none` if it is not readable as text. -/
def Disk.set (d : Disk) (name : Str) (content : Option Str) : Disk :=
  ⟨fun p => if p = name then content else d.read p⟩

/-- `util::read_file` (src/util.rs 11-19). -/
def readFile (d : Disk) (name : Str) : Res Str :=
  match d.read name with
  | some s => .ok s
  | none => .err .io

/-- `util::write_file` (src/util.rs 22-44): the result and the disk afterwards.  A file cut
inside a character is not valid UTF-8, so that `read_file` fails on it. -/
def writeFile (fate : Fate) (d : Disk) (name data : Str) : Res Unit × Disk :=
  match fate with
  | .refused => (.err .other, d)
  | .cut n inside => (.err .other, d.set name (if inside then none else some (data.take n)))
  | .done => (.ok (), d.set name (some data))

/-- `KicadFile` (src/lib.rs 84-99). -/
inductive KicadFile (F : Type)
  | unknown (path : Str)
  | module_ (m : Fp.Module F)
  | schematic (s : Sch.Schematic F)
  | layout (l : Lay.Layout F)
  | symbolLib (l : Lib.SymbolLib F)
  | project (p : Pro.Project)
  | fpLibTable (t : Tbl.FpLibTable)

/-- `Expected` (src/lib.rs 103-118). -/
inductive Expected | module_ | schematic | layout | symbolLib | project | fpLibTable | any
  deriving DecidableEq, Repr

variable {F : Type} [Flt F]

/-- One probe of `read_kicad_file` (e.g. src/lib.rs 140-145): success ends the
search, an error ends it only if this kind was expected. -/
def probe {α : Type} (r : Res α) (wrap : α → KicadFile F) (isExpected : Bool)
    (rest : Res (KicadFile F)) : Res (KicadFile F) :=
  match r with
  | .ok a => .ok (wrap a)
  | .err e => if isExpected then .err e else rest
  | .panic => .panic
  | .diverge => .diverge

/-- `read_kicad_file` after reading the file (src/lib.rs 140-176). -/
def recognise (name data : Str) (expected : Expected) : Res (KicadFile F) :=
  probe (Fp.parse data) .module_ (expected = .module_) <|
  probe (Sch.parse (some name) data) .schematic (expected = .schematic) <|
  probe (Lay.parse data) .layout (expected = .layout) <|
  probe (Lib.parseStr data) .symbolLib (expected = .symbolLib) <|
  probe (Pro.parseStr data) .project (expected = .project) <|
  probe (Tbl.parse data) .fpLibTable (expected = .fpLibTable) <|
  .ok (.unknown name)

/-- `read_kicad_file` (src/lib.rs 138-177). -/
def readKicadFile (d : Disk) (name : Str) (expected : Expected) : Res (KicadFile F) := do
  let data ← readFile d name
  recognise name data expected

/-- `read_module` (src/lib.rs 180-185). -/
def readModule (d : Disk) (name : Str) : Res (Fp.Module F) := do
  match ← (readKicadFile d name .module_ : Res (KicadFile F)) with
  | .module_ m => .ok m
  | _ => .err .other

/-- `read_schematic` (src/lib.rs 188-193). -/
def readSchematic (d : Disk) (name : Str) : Res (Sch.Schematic F) := do
  match ← (readKicadFile d name .schematic : Res (KicadFile F)) with
  | .schematic m => .ok m
  | _ => .err .other

/-- `read_layout` (src/lib.rs 196-201). -/
def readLayout (d : Disk) (name : Str) : Res (Lay.Layout F) := do
  match ← (readKicadFile d name .layout : Res (KicadFile F)) with
  | .layout m => .ok m
  | _ => .err .other

/-- `read_symbol_lib` (src/lib.rs 216-221). -/
def readSymbolLib (d : Disk) (name : Str) : Res (Lib.SymbolLib F) := do
  match ← (readKicadFile d name .symbolLib : Res (KicadFile F)) with
  | .symbolLib m => .ok m
  | _ => .err .other

/-- `read_project` (src/lib.rs 224-229).  `F` is the number type used by the
other parsers that are tried first. -/
def readProject (F : Type) [Flt F] (d : Disk) (name : Str) : Res Pro.Project := do
  match ← (readKicadFile d name .project : Res (KicadFile F)) with
  | .project m => .ok m
  | _ => .err .other

/-- `read_fp_lib_table` (src/lib.rs 232-237). -/
def readFpLibTable (F : Type) [Flt F] (d : Disk) (name : Str) : Res Tbl.FpLibTable := do
  match ← (readKicadFile d name .fpLibTable : Res (KicadFile F)) with
  | .fpLibTable m => .ok m
  | _ => .err .other

/-- `symbol_lib::parse_file` (src/symbol_lib.rs 844-848): the name is `none` if it is not
valid UTF-8, on which `to_str().unwrap()` panics. -/
def parseLibFile (d : Disk) (name : Option Str) : Res (Lib.SymbolLib F) :=
  match name with
  | none => .panic
  | some n => do
    let s ← readFile d n
    Lib.parseStr s

/-- `write_layout` (src/lib.rs 204-207); `q` is the quoting rule of the external
crate. -/
def writeLayout (q : Str → Bool) (fate : Fate) (d : Disk) (l : Lay.Layout F) (name : Str) : Res Unit × Disk :=
  writeFile fate d name (Lay.toText q 0 l)

/-- `write_module` (src/lib.rs 210-213). -/
def writeModule (q : Str → Bool) (fate : Fate) (d : Disk) (m : Fp.Module F) (name : Str) : Res Unit × Disk :=
  writeFile fate d name (Fp.toText q 0 m)

end Verif.Files
