import Verif.Model.Schematic
/-!
# Working with schematics (src/schematic.rs): components, fields, boxes, sheets
-/

namespace Verif.Sch
open Verif Flt

variable {F : Type} [Flt F]

/-! ## Bounding boxes -/

/-- `BoundingBox for Component` (src/schematic.rs 433-438).  The first
coordinate is `y`, as in the code. -/
def Component.bound (c : Component F) : Bound F := Bound.newFromI64 c.y c.y c.x c.y

/-- A sum or difference of `i64` values (the operators of src/schematic.rs
832-834): overflow is a panic with overflow checks (debug build). -/
def checkI64 (i : Int) : Res Int := if inI64 i then .ok i else .panic

/-- `BoundingBox for Sheet` (src/schematic.rs 828-837). -/
def Sheet.bound (s : Sheet) : Res (Bound F) := do
  let y1 ← checkI64 (s.y - 100)
  let x2 ← checkI64 (s.x + s.dimx)
  let y ← checkI64 (s.y + s.dimy)
  let y2 ← checkI64 (y + 100)
  .ok (Bound.newFromI64 s.x y1 x2 y2)

/-- `BoundingBox for Element` (src/schematic.rs 361-375). -/
def Element.bound : Element F → Bound F
  | .component c => c.bound
  | .wire _ => Bound.dflt
  | .connection _ => Bound.dflt
  | .noConnect _ => Bound.dflt
  | .text _ => Bound.dflt
  | .other _ => Bound.dflt

/-- The loop over the sheets in `bounding_box` (src/schematic.rs 41-43). -/
def sheetsBound : List Sheet → Bound F → Res (Bound F)
  | [], b => .ok b
  | sh :: r, b => do
    let c ← sh.bound
    sheetsBound r (b.update c)

/-- `BoundingBox for Schematic` (src/schematic.rs 35-47). -/
def Schematic.bound (s : Schematic F) : Res (Bound F) := do
  let b ← sheetsBound s.sheets (s.elements.foldl (fun b e => b.update e.bound) Bound.dflt)
  .ok b.swapIfNeeded

/-! ## Components -/

/-- `FieldUpdate` (src/schematic.rs 441-448). -/
inductive FieldUpdate
  | new
  | update (old : Str)
  | same
  deriving DecidableEq, Repr

/-- `Into<bool> for FieldUpdate` (src/schematic.rs 450-458). -/
def FieldUpdate.toBool : FieldUpdate → Bool
  | .new => true
  | .update _ => true
  | .same => false

/-- `get_field_value` (src/schematic.rs 475-482). -/
def Component.getFieldValue (c : Component F) (name : Str) : Option Str :=
  (c.fields.find? fun f => f.name = name).map (·.value)

/-- `get_field` (src/schematic.rs 485-492). -/
def Component.getField (c : Component F) (name : Str) : Option (Field F) :=
  c.fields.find? fun f => f.name = name

/-- The loop of `get_available_field_num` (src/schematic.rs 496-501). -/
def maxFieldNum (fields : List (Field F)) : Int :=
  fields.foldl (fun i f => if f.i > i then f.i else i) 0

/-- `get_available_field_num` (src/schematic.rs 495-503).  `i + 1` on the
largest `i64` overflows: a panic with overflow checks (debug build). -/
def Component.getAvailableFieldNum (c : Component F) : Res Int :=
  let i := maxFieldNum c.fields
  if i = 9223372036854775807 then .panic else .ok (i + 1)

/-- `fields_hash` (src/schematic.rs 506-512): the map as a lookup function. -/
def Component.fieldsHash (c : Component F) : Str → Option Str :=
  c.fields.foldl (fun h f => fun k => if k = f.name then some f.value else h k) fun _ => none

/-- `update_reference` (src/schematic.rs 515-522). -/
def Component.updateReference (c : Component F) (r : Str) : Component F :=
  { c with
    reference := r
    fields := c.fields.map fun f => if f.i = 0 then { f with value := r } else f }

/-- `update_name` (src/schematic.rs 525-532). -/
def Component.updateName (c : Component F) (n : Str) : Component F :=
  { c with
    name := n
    fields := c.fields.map fun f => if f.i = 1 then { f with value := n } else f }

/-- The body of the loop of `update_field` (src/schematic.rs 537-543). -/
def Field.updated (f : Field F) (name value : Str) : Field F :=
  let f := if f.name = name then { f with value := value } else f
  if f.i > 1 then { f with visible := false } else f

/-- `update_field` (src/schematic.rs 535-545). -/
def Component.updateField (c : Component F) (name value : Str) : Component F :=
  { c with fields := c.fields.map fun f => f.updated name value }

/-- `ComponentField::new_from` (src/schematic.rs 764-779). -/
def Field.newFrom (i : Int) (name value : Str) (x y : F) : Field F :=
  { i, value, orientation := .horizontal, x, y, size := 60, visible := false,
    hjustify := .center, vjustify := .center, italic := false, bold := false, name }

/-- `add_new_field` (src/schematic.rs 570-581). -/
def Component.addNewField (c : Component F) (template : Field F) (name value : Str) :
    Res (Component F) := do
  let i ← c.getAvailableFieldNum
  let f := Field.newFrom i name value template.x template.y
  .ok { c with fields := c.fields ++ [{ f with visible := false }] }

/-- `add_or_update_field` (src/schematic.rs 548-566). -/
def Component.addOrUpdateField (c : Component F) (template : Field F) (name value : Str) :
    Res (Component F × FieldUpdate) :=
  match c.getFieldValue name with
  | some old =>
    if old = value then .ok (c, .same) else .ok (c.updateField name value, .update old)
  | none => do
    let c ← c.addNewField template name value
    .ok (c, .new)

/-! ## Schematics -/

/-- The loop of `modify_component` (src/schematic.rs 91-102). -/
def modifyFirst (reference : Str) (fn : Component F → Component F) :
    List (Element F) → List (Element F)
  | [] => []
  | .component c :: r =>
    if c.reference = reference then .component (fn c) :: r
    else .component c :: modifyFirst reference fn r
  | e :: r => e :: modifyFirst reference fn r

/-- `modify_component` (src/schematic.rs 87-103).  The callback is a pure
function of the component. -/
def Schematic.modifyComponent (s : Schematic F) (reference : Str)
    (fn : Component F → Component F) : Schematic F :=
  { s with elements := modifyFirst reference fn s.elements }

/-- The loop body of `modify_components` (src/schematic.rs 110-119). -/
def Element.modify (fn : Component F → Component F) : Element F → Element F
  | .component c => .component (fn c)
  | e => e

/-- `modify_components` (src/schematic.rs 106-120). -/
def Schematic.modifyComponents (s : Schematic F) (fn : Component F → Component F) :
    Schematic F :=
  { s with elements := s.elements.map (Element.modify fn) }

/-- The component of an element, if it is one (the `match` of src/schematic.rs 125-132). -/
def Element.component? : Element F → Option (Component F)
  | .component c => some c
  | _ => none

/-- `components` (src/schematic.rs 137-150). -/
def Schematic.components (s : Schematic F) : List (Component F) :=
  s.elements.filterMap Element.component?

/-- `collect_components` (src/schematic.rs 123-134): the vector after the call. -/
def Schematic.collectComponents (s : Schematic F) (v : List (Component F)) : List (Component F) :=
  s.elements.foldl (fun v e => match e with | .component c => v ++ [c] | _ => v) v

/-- `increment_sheet_count` (src/schematic.rs 200-202); overflow panics (debug build). -/
def Schematic.incrementSheetCount (s : Schematic F) : Res (Schematic F) :=
  if s.description.sheetCount = 9223372036854775807 then .panic
  else .ok { s with
    description := { s.description with sheetCount := s.description.sheetCount + 1 } }

/-! ## Sheets in other files -/

/-- What the functions below need from the operating system.

`read` is the text of a file (`util::read_file`, src/util.rs 11-19), `none` when
it cannot be read.  `resolve` is `Path::parent` of the schematic's file name
joined with the sheet's file name (standard library), `none` when there is no
parent. -/
structure World where
  read : Str → Option Str
  resolve : Str → Str → Option Str

/-- `filename_for_sheet` (src/schematic.rs 1577-1587). -/
def filenameForSheet (w : World) (s : Schematic F) (sheet : Sheet) : Res Str :=
  match s.filename with
  | none => .err .other
  | some path =>
    match w.resolve path sheet.filename with
    | none => .err .other
    | some p => .ok p

/-- `parse_file` (src/schematic.rs 1571-1574). -/
def parseFile (w : World) (filename : Str) : Res (Schematic F) :=
  match w.read filename with
  | none => .err .io
  | some s => parse (some filename) s

/-- `parse_file_for_sheet` (src/schematic.rs 1591-1594). -/
def parseFileForSheet (w : World) (s : Schematic F) (sheet : Sheet) : Res (Schematic F) := do
  let f ← filenameForSheet w s sheet
  parseFile w f

/-- The loop over the sheets in `all_components` (src/schematic.rs 165-169);
`sub` is the recursive call. -/
def sheetsComponents (sub : Sheet → Res (List (Component F))) :
    List Sheet → List (Component F) → Res (List (Component F))
  | [], v => .ok v
  | sheet :: r, v => do
    let v2 ← sub sheet
    sheetsComponents sub r (v ++ v2)

/-- `all_components` (src/schematic.rs 153-171); `fuel` bounds the depth of the
recursion, `diverge` means the bound was reached. -/
def allComponents (w : World) : Nat → Schematic F → Res (List (Component F))
  | 0, _ => .diverge
  | fuel + 1, s =>
    sheetsComponents (fun sheet => do
      let sub ← parseFileForSheet w s sheet
      allComponents w fuel sub) s.sheets s.components

/-- The loop over the sheets in `component_by_reference` (src/schematic.rs
187-196): a sheet that cannot be read ends the search, a sheet without the
component (or with an error further down) does not. -/
def sheetsFind (load : Sheet → Res (Schematic F)) (sub : Schematic F → Res (Component F)) :
    List Sheet → Res (Component F)
  | [] => .err .other
  | sheet :: r => do
    let s ← load sheet
    match sub s with
    | .ok c => .ok c
    | .err _ => sheetsFind load sub r
    | .panic => .panic
    | .diverge => .diverge

/-- `component_by_reference` (src/schematic.rs 174-197). -/
def componentByReference (w : World) (reference : Str) : Nat → Schematic F → Res (Component F)
  | 0, _ => .diverge
  | fuel + 1, s =>
    match s.components.find? fun c => c.reference = reference with
    | some c => .ok c
    | none => sheetsFind (parseFileForSheet w s) (componentByReference w reference fuel) s.sheets

end Verif.Sch
