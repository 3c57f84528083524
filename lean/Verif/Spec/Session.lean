import Verif.Model.Layout.Codec
import Verif.Spec.Edits
import Verif.Spec.SchematicEdits
import Verif.Spec.Settle
import Verif.Spec.SymbolEdits
/-!
# Editing sessions with saving in between

A session is a list of steps, each an edit or "save the file and read it again".
-/

namespace Verif.Spec
open Verif Flt

variable {F : Type} [Flt F]

/-- One step of a session. -/
inductive Step (E : Type)
  | edit (e : E)
  | saveAndRead

/-- The edits of a session, without the saving in between. -/
def editsOf {E : Type} : List (Step E) → List E
  | [] => []
  | .edit e :: s => e :: editsOf s
  | .saveAndRead :: s => editsOf s

/-- A session on a footprint. -/
def fpSession (q : Str → Bool) (level : Int) : List (Step (FpEdit F)) → Fp.Module F → Res (Fp.Module F)
  | [], m => .ok m
  | .edit e :: s, m => fpSession q level s (e.run m)
  | .saveAndRead :: s, m => do
    let m' ← Fp.parse (Fp.toText q level m)
    fpSession q level s m'

/-- A session on a board; a failing edit leaves the board as it is. -/
def boardSession (q : Str → Bool) (level : Int) :
    List (Step (BoardEdit F)) → Lay.Layout F → Res (Lay.Layout F)
  | [], l => .ok l
  | .edit e :: s, l =>
    match e.run l with
    | .ok l' => boardSession q level s l'
    | .err _ => boardSession q level s l
    | .panic => .panic
    | .diverge => .diverge
  | .saveAndRead :: s, l => do
    let l' ← Lay.parse (Lay.toText q level l)
    boardSession q level s l'

/-- A session on a schematic. -/
def schSession : List (Step (SchEdit F)) → Sch.Schematic F → Res (Sch.Schematic F)
  | [], x => .ok x
  | .edit e :: s, x => do
    let x' ← e.run x
    schSession s x'
  | .saveAndRead :: s, x => do
    let x' ← Sch.parseStr x.show
    schSession s x'

/-- A session on a symbol library. -/
def libSession : List (Step (LibEdit F)) → Lib.SymbolLib F → Res (Lib.SymbolLib F)
  | [], l => .ok l
  | .edit e :: s, l => do
    let l' ← e.run l
    libSession s l'
  | .saveAndRead :: s, l => do
    let t ← l.show
    let l' ← Lib.parseStr t
    libSession s l'

/-- A schematic without the name of the file it is from. -/
def unnamed (s : Sch.Schematic F) : Sch.Schematic F := { s with filename := none }

end Verif.Spec
