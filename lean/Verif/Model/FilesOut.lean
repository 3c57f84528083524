import Verif.Model.Files
import Verif.Model.SchematicOut
/-!
# What reading a file prints (src/lib.rs 138-237)

`Model/Files.lean` again, with what the schematic reader prints; the other readers print nothing.
-/

namespace Verif.Files
open Verif Told

variable {F : Type} [Flt F]

/-- One probe of `read_kicad_file` (e.g. src/lib.rs 140-145) with its output: what a failed
probe has printed stays printed. -/
def tellProbe {α : Type} (r : Told α) (wrap : α → KicadFile F) (isExpected : Bool)
    (rest : Told (KicadFile F)) : Told (KicadFile F) :=
  match r.res with
  | .ok a => ⟨r.out, .ok (wrap a)⟩
  | .err e => if isExpected then ⟨r.out, .err e⟩ else ⟨r.out ++ rest.out, rest.res⟩
  | .panic => ⟨r.out, .panic⟩
  | .diverge => ⟨r.out, .diverge⟩

/-- `read_kicad_file` after reading the file (src/lib.rs 140-176) with its output. -/
def tellRecognise (name data : Str) (expected : Expected) : Told (KicadFile F) :=
  tellProbe (of (Fp.parse data)) .module_ (expected = .module_) <|
  tellProbe (Sch.tell (some name) data) .schematic (expected = .schematic) <|
  tellProbe (of (Lay.parse data)) .layout (expected = .layout) <|
  tellProbe (of (Lib.parseStr data)) .symbolLib (expected = .symbolLib) <|
  tellProbe (of (Pro.parseStr data)) .project (expected = .project) <|
  tellProbe (of (Tbl.parse data)) .fpLibTable (expected = .fpLibTable) <|
  of (.ok (.unknown name))

/-- `read_kicad_file` (src/lib.rs 138-177) with its output. -/
def tellKicadFile (d : Disk) (name : Str) (expected : Expected) : Told (KicadFile F) := do
  let data ← of (readFile d name)
  tellRecognise name data expected

/-- `read_module` (src/lib.rs 180-185) with its output. -/
def tellModule (d : Disk) (name : Str) : Told (Fp.Module F) := do
  match ← (tellKicadFile d name .module_ : Told (KicadFile F)) with
  | .module_ m => of (.ok m)
  | _ => of (.err .other)

/-- `read_layout` (src/lib.rs 196-201) with its output. -/
def tellLayout (d : Disk) (name : Str) : Told (Lay.Layout F) := do
  match ← (tellKicadFile d name .layout : Told (KicadFile F)) with
  | .layout m => of (.ok m)
  | _ => of (.err .other)

/-- `read_symbol_lib` (src/lib.rs 216-221) with its output. -/
def tellSymbolLib (d : Disk) (name : Str) : Told (Lib.SymbolLib F) := do
  match ← (tellKicadFile d name .symbolLib : Told (KicadFile F)) with
  | .symbolLib m => of (.ok m)
  | _ => of (.err .other)

end Verif.Files
