import Verif.Model.Files
/-!
# Vocabulary for the properties about reading and writing files
-/

namespace Verif.Spec
open Verif Files

variable {F : Type} [Flt F]

/-- The six kinds of file, in the order in which `read_kicad_file` tries them. -/
inductive FileKind | module_ | schematic | layout | symbolLib | project | fpLibTable
  deriving DecidableEq, Repr

/-- Place of a kind in the order of the attempts. -/
def FileKind.place : FileKind → Nat
  | .module_ => 0
  | .schematic => 1
  | .layout => 2
  | .symbolLib => 3
  | .project => 4
  | .fpLibTable => 5

/-- The kind an expectation asks for (`none` for any file). -/
def wanted : Expected → Option FileKind
  | .module_ => some .module_
  | .schematic => some .schematic
  | .layout => some .layout
  | .symbolLib => some .symbolLib
  | .project => some .project
  | .fpLibTable => some .fpLibTable
  | .any => none

/-- The parser of a kind accepts the text. -/
def Accepts (F : Type) [Flt F] (name text : Str) : FileKind → Prop
  | .module_ => ∃ m : Fp.Module F, Fp.parse text = .ok m
  | .schematic => ∃ s : Sch.Schematic F, Sch.parse (some name) text = .ok s
  | .layout => ∃ l : Lay.Layout F, Lay.parse text = .ok l
  | .symbolLib => ∃ l : Lib.SymbolLib F, Lib.parseStr text = .ok l
  | .project => ∃ p, Pro.parseStr text = .ok p
  | .fpLibTable => ∃ t, Tbl.parse text = .ok t

/-- The parser of a kind rejects the text with error `e`. -/
def RejectsWith (F : Type) [Flt F] (name text : Str) (e : Err) : FileKind → Prop
  | .module_ => (Fp.parse text : Res (Fp.Module F)) = .err e
  | .schematic => (Sch.parse (some name) text : Res (Sch.Schematic F)) = .err e
  | .layout => (Lay.parse text : Res (Lay.Layout F)) = .err e
  | .symbolLib => (Lib.parseStr text : Res (Lib.SymbolLib F)) = .err e
  | .project => Pro.parseStr text = .err e
  | .fpLibTable => Tbl.parse text = .err e

/-- The parser of a kind panics on the text. -/
def Panics (F : Type) [Flt F] (name text : Str) : FileKind → Prop
  | .module_ => (Fp.parse text : Res (Fp.Module F)) = .panic
  | .schematic => (Sch.parse (some name) text : Res (Sch.Schematic F)) = .panic
  | .layout => (Lay.parse text : Res (Lay.Layout F)) = .panic
  | .symbolLib => (Lib.parseStr text : Res (Lib.SymbolLib F)) = .panic
  | .project => Pro.parseStr text = .panic
  | .fpLibTable => Tbl.parse text = .panic

/-- The file value is what the parser of its kind reads from the text; an unknown
file is one rejected by all six parsers. -/
def IsContent (name text : Str) : KicadFile F → Prop
  | .module_ m => Fp.parse text = .ok m
  | .schematic s => Sch.parse (some name) text = .ok s
  | .layout l => Lay.parse text = .ok l
  | .symbolLib l => Lib.parseStr text = .ok l
  | .project p => Pro.parseStr text = .ok p
  | .fpLibTable t => Tbl.parse text = .ok t
  | .unknown p => p = name ∧ ∀ k, ∃ e, RejectsWith F name text e k

/-- The kind of a file value. -/
def kindOf : KicadFile F → Option FileKind
  | .module_ _ => some .module_
  | .schematic _ => some .schematic
  | .layout _ => some .layout
  | .symbolLib _ => some .symbolLib
  | .project _ => some .project
  | .fpLibTable _ => some .fpLibTable
  | .unknown _ => none

end Verif.Spec
