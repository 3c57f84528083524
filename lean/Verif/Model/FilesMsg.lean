import Verif.Model.Programs
import Verif.Model.SymbolLibMsg
/-!
# The messages of the functions that read and write files (src/error.rs, src/lib.rs 138-237, src/util.rs)

`Model/Files.lean` again, with the texts of the messages.  The texts that come from the
operating system and from the external crate symbolic_expressions are parameters.
-/

namespace Verif

/-- `KicadError` (src/error.rs 12-25) with the text that `Display` shows for what it carries. -/
structure Fault where
  kind : Err
  text : Str
  deriving DecidableEq, Repr

/-- `Display for KicadError` (src/error.rs 57-68). -/
def Fault.shown (f : Fault) : Str :=
  match f.kind with
  | .parse => str! "Kicad Parse Error: " ++ f.text
  | .other => str! "Kicad Other Error: " ++ f.text
  | .io => str! "Kicad IO Error: " ++ f.text
  | .envVar => str! "Kicad Env Var Error: " ++ f.text
  | .shellExpand => str! "Kicad Shell Expand Error: " ++ f.text
  | .sexp => str! "Kicad Symbolic Expression Error: " ++ f.text

/-- Outcome of a call, with the whole error (`Result<_, KicadError>`, src/error.rs 11-25). -/
inductive Tried (α : Type)
  | ok (a : α)
  | err (f : Fault)
  | panic
  | diverge
  deriving DecidableEq, Repr

namespace Tried

/-- Go on after a success (`?`, e.g. src/lib.rs 244). -/
def bind {α β : Type} (x : Tried α) (f : α → Tried β) : Tried β :=
  match x with
  | .ok a => f a
  | .err e => .err e
  | .panic => .panic
  | .diverge => .diverge

instance : Monad Tried where -- the `?` of src/lib.rs 244
  pure := .ok
  bind := bind

/-- The outcome without the text (the variants of src/error.rs 11-25). -/
def forget {α : Type} : Tried α → Res α
  | .ok a => .ok a
  | .err f => .err f.kind
  | .panic => .panic
  | .diverge => .diverge

/-- The outcome of a function whose errors are messages (`str_error`, src/error.rs 70-73). -/
def ofSaid {α : Type} : Said α → Tried α
  | .ok a => .ok a
  | .err m => .err ⟨.other, m⟩
  | .panic => .panic
  | .diverge => .diverge

/-- The outcome of a function whose errors come from elsewhere, with their text
(`From<SexpError>`, `From<io::Error>`, src/error.rs 27-43). -/
def ofRes {α : Type} (text : Str) : Res α → Tried α
  | .ok a => .ok a
  | .err e => .err ⟨e, text⟩
  | .panic => .panic
  | .diverge => .diverge

end Tried

namespace Files
open Tried

/-- Texts of errors that are not made in /repo (shown by src/error.rs 57-68): of the operating system for a file that
cannot be read, created or written, and of symbolic_expressions for a text. -/
structure Texts where
  read : Str → Str
  create : Str → Str
  write : Str → Str
  module_ : Str → Str
  layout : Str → Str
  table : Str → Str

variable {F : Type} [Flt F] (tx : Texts)

/-- `util::read_file` (src/util.rs 11-19). -/
def tryFile (d : Disk) (name : Str) : Tried Str := ofRes (tx.read name) (readFile d name)

/-- `util::write_file` (src/util.rs 22-44): the result; the disk afterwards is that of `writeFile`. -/
def tryWrite (fate : Fate) (name : Str) : Tried Unit :=
  match fate with
  | .refused => .err ⟨.other, str! "create error in file '" ++ name ++ str! "': " ++ tx.create name⟩
  | .cut _ _ => .err ⟨.other, str! "write error in file '" ++ name ++ str! "': " ++ tx.write name⟩
  | .done => .ok ()

/-- `project::parse_str` (src/project.rs 20-28). -/
def tryProject (s : Str) : Tried Pro.Project :=
  if startsWith s (str! "update=") then .ok ⟨s⟩ else .err ⟨.other, str! "not a kicad project file!"⟩

/-- One probe of `read_kicad_file` (e.g. src/lib.rs 140-145). -/
def tryProbe {α : Type} (r : Tried α) (wrap : α → KicadFile F) (isExpected : Bool)
    (rest : Tried (KicadFile F)) : Tried (KicadFile F) :=
  match r with
  | .ok a => .ok (wrap a)
  | .err e => if isExpected then .err e else rest
  | .panic => .panic
  | .diverge => .diverge

/-- `read_kicad_file` after reading the file (src/lib.rs 140-176). -/
def tryRecognise (name data : Str) (expected : Expected) : Tried (KicadFile F) :=
  tryProbe (ofRes (tx.module_ data) (Fp.parse data)) .module_ (expected = .module_) <|
  tryProbe (ofSaid (Sch.Msg.parse (some name) data)) .schematic (expected = .schematic) <|
  tryProbe (ofRes (tx.layout data) (Lay.parse data)) .layout (expected = .layout) <|
  tryProbe (ofSaid (Lib.Msg.parseStr data)) .symbolLib (expected = .symbolLib) <|
  tryProbe (tryProject data) .project (expected = .project) <|
  tryProbe (ofRes (tx.table data) (Tbl.parse data)) .fpLibTable (expected = .fpLibTable) <|
  .ok (.unknown name)

/-- `read_kicad_file` (src/lib.rs 138-177). -/
def tryKicadFile (d : Disk) (name : Str) (expected : Expected) : Tried (KicadFile F) := do
  let data ← tryFile tx d name
  tryRecognise tx name data expected

/-- The error for a file of another kind (src/lib.rs 183, 191, 199, 219, 227, 235). -/
def wrongKind {α : Type} (x : KicadFile F) (name : Str) : Tried α :=
  .err ⟨.other, str! "unexpected " ++ Prog.showFile x ++ str! " in " ++ name⟩

/-- `read_module` (src/lib.rs 180-185). -/
def tryModule (d : Disk) (name : Str) : Tried (Fp.Module F) := do
  match ← (tryKicadFile tx d name .module_ : Tried (KicadFile F)) with
  | .module_ m => .ok m
  | x => wrongKind x name

/-- `read_schematic` (src/lib.rs 188-193). -/
def trySchematic (d : Disk) (name : Str) : Tried (Sch.Schematic F) := do
  match ← (tryKicadFile tx d name .schematic : Tried (KicadFile F)) with
  | .schematic m => .ok m
  | x => wrongKind x name

/-- `read_layout` (src/lib.rs 196-201). -/
def tryLayout (d : Disk) (name : Str) : Tried (Lay.Layout F) := do
  match ← (tryKicadFile tx d name .layout : Tried (KicadFile F)) with
  | .layout m => .ok m
  | x => wrongKind x name

/-- `read_symbol_lib` (src/lib.rs 216-221). -/
def trySymbolLib (d : Disk) (name : Str) : Tried (Lib.SymbolLib F) := do
  match ← (tryKicadFile tx d name .symbolLib : Tried (KicadFile F)) with
  | .symbolLib m => .ok m
  | x => wrongKind x name

/-- `read_project` (src/lib.rs 224-229). -/
def tryProjectFile (F : Type) [Flt F] (d : Disk) (name : Str) : Tried Pro.Project := do
  match ← (tryKicadFile tx d name .project : Tried (KicadFile F)) with
  | .project m => .ok m
  | x => wrongKind x name

/-- `read_fp_lib_table` (src/lib.rs 232-237). -/
def tryFpLibTable (F : Type) [Flt F] (d : Disk) (name : Str) : Tried Tbl.FpLibTable := do
  match ← (tryKicadFile tx d name .fpLibTable : Tried (KicadFile F)) with
  | .fpLibTable m => .ok m
  | x => wrongKind x name

end Files
end Verif
