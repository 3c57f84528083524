import Verif.Model.SchematicApi
import Verif.Model.Footprint.Check
import Verif.Model.Footprint.Codec
/-!
# Arithmetic without overflow checks, and `unwrap`s that are reached

The sums of `i64` in `Model/SchematicApi.lean` panic when they overflow, as in a build with overflow
checks.  Without (release build) they wrap around.
-/

namespace Verif
open Flt

/-- A 64-bit sum without overflow checks (the operators of src/schematic.rs 201, 502, 832-834 in a
release build). -/
def wrapI64 (i : Int) : Int := (i + 9223372036854775808) % 18446744073709551616 - 9223372036854775808

namespace Sch

variable {F : Type} [Flt F]

/-- `BoundingBox for Sheet` (src/schematic.rs 828-837), release build. -/
def Sheet.boundRelease (s : Sheet) : Bound F :=
  Bound.newFromI64 s.x (wrapI64 (s.y - 100)) (wrapI64 (s.x + s.dimx)) (wrapI64 (wrapI64 (s.y + s.dimy) + 100))

/-- `BoundingBox for Schematic` (src/schematic.rs 35-47), release build. -/
def Schematic.boundRelease (s : Schematic F) : Bound F :=
  (s.sheets.foldl (fun b sh => b.update sh.boundRelease)
    (s.elements.foldl (fun b e => b.update e.bound) Bound.dflt)).swapIfNeeded

/-- `get_available_field_num` (src/schematic.rs 495-503), release build. -/
def Component.getAvailableFieldNumRelease (c : Component F) : Int := wrapI64 (maxFieldNum c.fields + 1)

/-- `add_new_field` (src/schematic.rs 570-581), release build. -/
def Component.addNewFieldRelease (c : Component F) (template : Field F) (name value : Str) : Component F :=
  let f := Field.newFrom c.getAvailableFieldNumRelease name value template.x template.y
  { c with fields := c.fields ++ [{ f with visible := false }] }

/-- `add_or_update_field` (src/schematic.rs 548-566), release build. -/
def Component.addOrUpdateFieldRelease (c : Component F) (template : Field F) (name value : Str) :
    Component F × FieldUpdate :=
  match c.getFieldValue name with
  | some old => if old = value then (c, .same) else (c.updateField name value, .update old)
  | none => (c.addNewFieldRelease template name value, .new)

/-- `increment_sheet_count` (src/schematic.rs 200-202), release build. -/
def Schematic.incrementSheetCountRelease (s : Schematic F) : Schematic F :=
  { s with description := { s.description with sheetCount := wrapI64 (s.description.sheetCount + 1) } }

end Sch

namespace Fp

variable {F : Type} [Flt F]

/-- The second reference that `fix` adds (src/footprint/data.rs 1675-1694), on a given layer. -/
def reference2On (cfg : Config F) (layer : Layer) : FpText F :=
  { name := str! "user", value := str! "%R", at_ := ⟨zero, zero, zero⟩, layer := layer,
    effects := ⟨⟨⟨cfg.fontSize, cfg.fontSize, .xy⟩, cfg.fontThickness, false⟩, none⟩, hide := false }

/-- Adding the second reference if it is missing (src/footprint/data.rs 1674-1696); the name of the
layer is parsed and the result unwrapped (1691). -/
def addReference2 (cfg : Config F) (name : Str) (es : List (Elem F)) : Res (List (Elem F)) :=
  if (Module.getText ⟨name, es⟩ (str! "user")).isNone then
    match Layer.fromString (str! "F.Fab") with
    | .ok layer => .ok (es ++ [.text (reference2On cfg layer)])
    | _ => .panic
  else .ok es

/-- The second reference in `fix` (src/footprint/data.rs 1673-1705); the text that must be there by
now is looked up and unwrapped (1697). -/
def fixReference2 (cfg : Config F) (name : Str) (es : List (Elem F)) : Res (List (Elem F)) := do
  let es ← addReference2 cfg name es
  match Module.getText ⟨name, es⟩ (str! "user") with
  | none => .panic
  | some _ => .ok (Module.modText (str! "user") (fixText cfg (str! "%R") .fab) es)

/-- `CheckFix::fix for Module` (src/footprint/data.rs 1648-1763) with its `unwrap`s. -/
def Module.fixUnwrapping (m : Module F) (cfg : Config F) : Res (Module F) := do
  let es := Module.modText (str! "reference") (fixText cfg (str! "REF**") .silkS) m.elements
  let es := Module.modText (str! "value") (fixText cfg m.name .fab) es
  let es ← fixReference2 cfg m.name es
  .ok (fixCourtyard (fixPlacement ⟨m.name, es⟩))

end Fp

/-- `CheckFixData::flatter` (src/checkfix.rs 61-70) with its `unwrap`. -/
def CheckFixData.flatterUnwrapping : CheckFixData → Res CheckFixData
  | .item i => .ok (.item i)
  | .more v =>
    if v.length = 1 then
      match v.head? with
      | some x => .ok x
      | none => .panic
    else .ok (.more v)

end Verif
