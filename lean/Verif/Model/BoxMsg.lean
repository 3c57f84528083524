import Verif.Model.FixMsg
import Verif.Model.SchematicApi
import Verif.Model.Layout.Data
import Verif.Model.Layout.Notes
/-!
# What measuring, fixing and the layout programs log

All records of the library, those of level `debug` included.  How a number is printed by
`{:?}` and how a tree is printed (`Display for Sexp`) are not modelled: such a record is kept
as the values it prints.
-/

namespace Verif
open Verif Flt

variable {F : Type} [Flt F]

/-- A record of level `debug` whose text does not depend on anything
(src/footprint/data.rs 548, src/layout/data.rs 359, src/schematic.rs 370, 435). -/
inductive Poor
  | fpText
  | grText
  | component
  | unhandled
  deriving DecidableEq, Repr

/-- The text of the record (src/footprint/data.rs 548, src/layout/data.rs 359,
src/schematic.rs 370, 435). -/
def Poor.text : Poor → Str
  | .fpText => str! "bound for FpText is poor"
  | .grText => str! "poor bounding box for GrText"
  | .component => str! "Component bound calculation is poor"
  | .unhandled => str! "unhandled schematic element for bounding box"

/-- A value and what computing it has logged (e.g. src/footprint/data.rs 546-550). -/
structure Warned (α : Type) where
  val : α
  log : List Poor

namespace Fp

/-- `BoundingBox for FpText`, with what it logs (src/footprint/data.rs 545-551). -/
def FpText.boundWarned (t : FpText F) : Warned (Bound F) := ⟨t.bound, [.fpText]⟩

/-- `BoundingBox for Element`, with what it logs (src/footprint/data.rs 325-348). -/
def Elem.boundWarned : Elem F → Warned (Bound F)
  | .text x => x.boundWarned
  | e => ⟨e.bound, []⟩

/-- One iteration of the loop in `BoundingBox for Module`, with what it logs
(src/footprint/data.rs 244-254). -/
def Module.boundStepWarned (x y : F) (b : Warned (Bound F)) (e : Elem F) : Warned (Bound F) :=
  if e.isGraphics && (e.isFab || e.isPad) then
    let b2 := e.boundWarned
    ⟨b.val.update { b2.val with
        x1 := add b2.val.x1 x, y1 := add b2.val.y1 y, x2 := add b2.val.x2 x, y2 := add b2.val.y2 y },
      b.log ++ b2.log⟩
  else b

/-- `BoundingBox for Module`, with what it logs (src/footprint/data.rs 240-260). -/
def Module.boundWarned (m : Module F) : Warned (Bound F) :=
  let (x, y) := m.at_
  let b := m.elements.foldl (Module.boundStepWarned x y) ⟨Bound.new x y x y, []⟩
  ⟨b.val.swapIfNeeded, b.log⟩

/-- A record of `fix`: of a measurement (src/footprint/data.rs 1732), `bound`, `at` and `a`
(src/footprint/data.rs 1733, 1735, 1748) and the corners (src/footprint/data.rs 1753). -/
inductive FixNote (F : Type)
  | poor (p : Poor)
  | bound (b : Bound F)
  | place (p : F × F)
  | box (p q : F × F)
  | record (r : Prog.Record)

/-- Generating a courtyard, with all that is logged (src/footprint/data.rs 1723-1762). -/
def fixCourtyardLogged (m : Module F) : Module F × List (FixNote F) :=
  if courtyardCount m < 4 then
    let w := m.boundWarned
    let b := w.val
    let (x, y) := m.at_
    ({ m with elements := m.elements ++ courtyardLines m },
      w.log.map .poor ++ [.bound b, .place (x, y), .box (sub b.x1 x, sub b.y1 y) (sub b.x2 x, sub b.y2 y),
        .record (courtyardRecord m)])
  else (m, [])

/-- `CheckFix::fix for Module`, with all that is logged (src/footprint/data.rs 1648-1763). -/
def Module.fixLogged (m : Module F) (cfg : Config F) : Module F × List (FixNote F) :=
  fixCourtyardLogged (fixPlacement (fixTexts cfg m))

end Fp

namespace Lay

/-- `BoundingBox for GrText`, with what it logs (src/layout/data.rs 357-362). -/
def GrText.boundWarned (t : GrText F) : Warned (Bound F) := ⟨t.bound, [.grText]⟩

/-- `BoundingBox for Dimension`, with what it logs (src/layout/data.rs 513-526). -/
def Dimension.boundWarned (d : Dimension F) : Warned (Bound F) :=
  let t := d.text.boundWarned
  let b : Bound F := Bound.dflt
  let b := b.update t.val
  let b := b.update (Fp.ptsBound d.feature1)
  let b := b.update (Fp.ptsBound d.feature2)
  let b := b.update (Fp.ptsBound d.crossbar)
  let b := b.update (Fp.ptsBound d.arrow1a)
  let b := b.update (Fp.ptsBound d.arrow1b)
  let b := b.update (Fp.ptsBound d.arrow2a)
  ⟨b.update (Fp.ptsBound d.arrow2b), t.log⟩

/-- `BoundingBox for Element`, with what it logs (src/layout/data.rs 885-900). -/
def Elem.boundWarned : Elem F → Warned (Bound F)
  | .module_ e => e.boundWarned
  | .grText e => e.boundWarned
  | .dimension e => e.boundWarned
  | e => ⟨e.bound, []⟩

/-- The loop of `BoundingBox for Layout`, with what it logs (src/layout/data.rs 627-629). -/
def Layout.boundStepWarned (b : Warned (Bound F)) (e : Elem F) : Warned (Bound F) :=
  let w := e.boundWarned
  ⟨b.val.update w.val, b.log ++ w.log⟩

/-- `BoundingBox for Layout`, with what it logs (src/layout/data.rs 624-633). -/
def Layout.boundWarned (l : Layout F) : Warned (Bound F) :=
  let b := l.elements.foldl Layout.boundStepWarned ⟨Bound.dflt, []⟩
  ⟨b.val.swapIfNeeded, b.log⟩

end Lay

namespace Sch

/-- `BoundingBox for Component`, with what it logs (src/schematic.rs 433-438). -/
def Component.boundWarned (c : Component F) : Warned (Bound F) := ⟨c.bound, [.component]⟩

/-- `BoundingBox for Element`, with what it logs (src/schematic.rs 361-375). -/
def Element.boundWarned : Element F → Warned (Bound F)
  | .component c => c.boundWarned
  | _ => ⟨Bound.dflt, [.unhandled]⟩

/-- The loop over the elements in `BoundingBox for Schematic`, with what it logs
(src/schematic.rs 38-40). -/
def boundStepWarned (b : Warned (Bound F)) (e : Element F) : Warned (Bound F) :=
  let w := e.boundWarned
  ⟨b.val.update w.val, b.log ++ w.log⟩

/-- `BoundingBox for Schematic`, with what it logs (src/schematic.rs 35-47); the sheets log
nothing (828-837), but may panic. -/
def Schematic.boundWarned (s : Schematic F) : Warned (Res (Bound F)) :=
  let b := s.elements.foldl boundStepWarned ⟨Bound.dflt, []⟩
  ⟨do
    let b ← sheetsBound s.sheets b.val
    .ok b.swapIfNeeded, b.log⟩

end Sch

namespace Prog
open Files

/-- What `read_kicad_file` logs after reading the file (src/lib.rs 140-176): of the readers it
tries only that of layouts logs anything. -/
def recogniseNotes (F : Type) [Flt F] (name data : Str) (expected : Expected) : List Lay.Note :=
  match (Fp.parse data : Res (Fp.Module F)) with
  | .err _ =>
    if expected = .module_ then []
    else match (Sch.tell (some name) data : Told (Sch.Schematic F)).res with
      | .err _ => if expected = .schematic then [] else (Lay.parseNoted data : Lay.Noted (Lay.Layout F)).notes
      | _ => []
  | _ => []

/-- What `read_layout` logs (src/lib.rs 138-176, 196-201). -/
def readLayoutNotes (F : Type) [Flt F] (d : Disk) (name : Str) : List Lay.Note :=
  match readFile d name with
  | .ok data => recogniseNotes F name data .layout
  | _ => []

/-- A line of the log: a record of the reader, a record of the program
(src/layout/de.rs 255, 362, src/bin/dump_layout.rs 21). -/
inductive LogLine
  | note (n : Lay.Note)
  | record (r : Record)

/-- The whole log of `dump_layout`, be it finished or not (src/bin/dump_layout.rs 11-23). -/
def dumpLayoutLog (F : Type) [Flt F] (d : Disk) (args : List Str) : List LogLine :=
  match firstArg args with
  | .ok name =>
    (readLayoutNotes F d name).map .note ++
      match unwrap (tellLayout d name : Told (Lay.Layout F)).res with
      | .ok _ => [.record (.info, name)]
      | _ => []
  | _ => []

/-- The whole log of `adjust_layout`, be it finished or not (src/bin/adjust_layout.rs 12-25);
moving the board logs nothing (src/layout/data.rs 616-622). -/
def adjustLayoutLog (F : Type) [Flt F] (d : Disk) (args : List Str) : List LogLine :=
  match firstArg args with
  | .ok name =>
    (readLayoutNotes F d name).map .note ++
      match unwrap (tellLayout d name : Told (Lay.Layout F)).res with
      | .ok _ => [.record (.info, name)]
      | _ => []
  | _ => []

end Prog

end Verif
