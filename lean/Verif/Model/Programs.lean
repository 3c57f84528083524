import Verif.Model.FilesOut
import Verif.Model.Footprint.Check
/-!
# The command line programs (src/bin/*.rs)

A run of a program is what it writes to the standard output and the records of level
`info` and above it logs; the output of a run that panics is not modelled.  The programs
that start `env_logger` set `RUST_LOG=debug`, so no such record is filtered out.  The
`debug!` records of the library (src/layout/de.rs 255, 362) are in `Model/BoxMsg.lean`; those
of the external crates, and the time stamp and level prefix that `env_logger` adds to each
record, are not modelled.
-/

namespace Verif.Prog
open Verif Files

variable {F : Type} [Flt F]

/-- The log levels that are used (src/bin/adjust_layout.rs 23, src/bin/klc_kicad_mod.rs 25). -/
inductive Level | info | warn
  deriving DecidableEq, Repr

/-- A log record: level and text (src/bin/adjust_layout.rs 23). -/
abbrev Record := Level × Str

/-- What a finished run leaves behind (src/bin/*.rs). -/
structure Run where
  out : Str
  log : List Record
  deriving DecidableEq, Repr

/-- `Result::unwrap`: an error panics (e.g. src/bin/adjust_layout.rs 20). -/
def unwrap {α : Type} : Res α → Res α
  | .err _ => .panic
  | r => r

/-- `args.next(); args.next().unwrap()` (e.g. src/bin/identify.rs 8-10): the
first argument after the program name. -/
def firstArg : List Str → Res Str
  | [] => .panic
  | a :: _ => .ok a

/-- `println!("{}", s)` (src/bin/adjust_layout.rs 24). -/
def println (s : Str) : Str := s ++ ['\n']

/-- What a reader has printed, one `println!` per notice (src/schematic.rs 1293, 1387, 1389). -/
def printed {α : Type} (t : Told α) : Str := t.out.flatMap println

/-- `Display for KicadFile` (src/lib.rs 121-133).  Paths are `Str`, so
`to_str().unwrap()` does not fail. -/
def showFile : KicadFile F → Str
  | .unknown x => str! "unknown: " ++ x
  | .module_ _ => str! "module"
  | .schematic _ => str! "schematic"
  | .layout _ => str! "layout"
  | .symbolLib _ => str! "symbollib"
  | .project _ => str! "project"
  | .fpLibTable _ => str! "fp-lib-table"

/-- `CheckFixItem::dump_on_logger` (src/checkfix.rs 146-170). -/
def itemRecord (indent : Nat) (i : CheckFixItem) : Record :=
  (if i.info then .info else .warn,
    List.replicate (indent * 2) ' ' ++ showInt i.section_ ++ str! "." ++ showInt i.rule ++ str! " " ++
      i.item ++ str! ":" ++ i.message)

/-- `CheckFixData::dump_on_logger` (src/checkfix.rs 95-106). -/
def dumpRecords (indent : Nat) (d : CheckFixData) : List Record :=
  (d.dump indent).map fun x => itemRecord x.1 x.2

/-- `identify` (src/bin/identify.rs 7-14). -/
def identify (F : Type) [Flt F] (d : Disk) (args : List Str) : Res Run := do
  let name ← firstArg args
  let t := (tellKicadFile d name .any : Told (KicadFile F))
  let f ← unwrap t.res
  .ok ⟨printed t ++ println (str! "found: " ++ showFile f), []⟩

/-- `adjust_layout` (src/bin/adjust_layout.rs 12-25); `q` is the quoting rule of
the external crate. -/
def adjustLayout (F : Type) [Flt F] (q : Str → Bool) (d : Disk) (args : List Str) : Res Run := do
  let name ← firstArg args
  let t := (tellLayout d name : Told (Lay.Layout F))
  let l ← unwrap t.res
  let l := l.adjust (Flt.lit 100 0) (Flt.lit 0 0)
  .ok ⟨printed t ++ println (Lay.toText q 0 l), [(.info, name)]⟩

/-- `dump_layout` (src/bin/dump_layout.rs 11-23). -/
def dumpLayout (F : Type) [Flt F] (q : Str → Bool) (d : Disk) (args : List Str) : Res Run := do
  let name ← firstArg args
  let t := (tellLayout d name : Told (Lay.Layout F))
  let l ← unwrap t.res
  .ok ⟨printed t ++ println (Lay.toText q 0 l), [(.info, name)]⟩

/-- `dump_footprint` (src/bin/dump_footprint.rs 7-16). -/
def dumpFootprint (F : Type) [Flt F] (q : Str → Bool) (d : Disk) (args : List Str) : Res Run := do
  let name ← firstArg args
  let t := (tellModule d name : Told (Fp.Module F))
  let m ← unwrap t.res
  .ok ⟨printed t ++ println m.name ++ println (Fp.toText q 0 m), []⟩

/-- The report of one checked item: heading and findings (e.g.
src/bin/klc_kicad_mod.rs 24-29). -/
def report (heading : Str) (findings : List CheckFixData) : List Record :=
  if findings.isEmpty then []
  else (.info, heading) :: (findings.map (dumpRecords 1)).flatten

/-- `klc_kicad_mod` (src/bin/klc_kicad_mod.rs 14-30). -/
def klcKicadMod (F : Type) [Flt F] (d : Disk) (args : List Str) : Res Run := do
  let name ← firstArg args
  let t := (tellModule d name : Told (Fp.Module F))
  let m ← unwrap t.res
  .ok ⟨printed t, report (str! "Module " ++ m.name) (m.check Config.klc)⟩

/-- `klc_symbol_lib` (src/bin/klc_symbol_lib.rs 14-32). -/
def klcSymbolLib (F : Type) [Flt F] (d : Disk) (args : List Str) : Res Run := do
  let name ← firstArg args
  let t := (tellSymbolLib d name : Told (Lib.SymbolLib F))
  let l ← unwrap t.res
  .ok ⟨printed t, (l.symbols.map fun s => report (str! "Symbol " ++ s.name) s.check).flatten⟩

end Verif.Prog
