import Verif.Model.Footprint.Data
import Verif.Model.CheckFix
/-!
# Footprints: style check and fix (src/footprint/data.rs 1384-1763)
-/

namespace Verif.Fp
open Verif Flt

variable {F : Type} [Flt F]

/-- A finding when a condition holds (the `if … { v.push(…) }` of src/footprint/data.rs 1383-1646). -/
def when_ (c : Bool) (d : CheckFixData) : List CheckFixData := if c then [d] else []

/-- `(a - b).abs() > EPSILON` (src/footprint/data.rs 1419). -/
def differs (a b : F) : Bool := lt eps (Flt.abs (sub a b))

/-- Checks of the reference text (src/footprint/data.rs 1390-1461). -/
def checkReference (cfg : Config F) (name : Str) : Option (FpText F) → List CheckFixData
  | some r =>
    when_ (r.value ≠ str! "REF**") (.new 7 3 name (str! "reference should be REF**")) ++
    when_ (r.layer.t ≠ .silkS) (.new 7 3 name (str! "reference should be on SilkS layertype")) ++
    when_ r.hide (.new 7 3 name (str! "reference should not be hidden")) ++
    when_ (differs r.effects.font.size.x r.effects.font.size.y)
      (.new 7 3 name (str! "reference label font aspect ratio should be 1:1")) ++
    when_ (differs r.effects.font.size.y cfg.fontSize)
      (.newInfo 7 3 name (str! "reference label should have height " ++ toStr cfg.fontSize)) ++
    when_ (differs r.effects.font.size.x cfg.fontSize)
      (.newInfo 7 3 name (str! "reference label should have width " ++ toStr cfg.fontSize)) ++
    when_ (differs r.effects.font.thickness cfg.fontThickness)
      (.newInfo 7 3 name (str! "reference label thickness should be " ++ toStr cfg.fontThickness))
  | none => [.new 7 3 name (str! "reference missing")]

/-- Checks of the value text (src/footprint/data.rs 1463-1524). -/
def checkValue (cfg : Config F) (name : Str) : Option (FpText F) → List CheckFixData
  | some r =>
    when_ (r.value ≠ name) (.new 7 4 name (str! "value text has to match footprint name")) ++
    when_ (r.layer.t ≠ .fab) (.new 7 4 name (str! "value text has to be on Fab layer")) ++
    when_ r.hide (.new 7 4 name (str! "value text should not be hidden")) ++
    when_ (differs r.effects.font.size.y cfg.fontSize)
      (.newInfo 7 3 name (str! "value label should have height " ++ toStr cfg.fontSize)) ++
    when_ (differs r.effects.font.size.x cfg.fontSize)
      (.newInfo 7 3 name (str! "value label should have width " ++ toStr cfg.fontSize)) ++
    when_ (differs r.effects.font.thickness cfg.fontThickness)
      (.newInfo 7 3 name (str! "value label thickness should be " ++ toStr cfg.fontThickness))
  | none => [.new 7 4 name (str! "value missing")]

/-- Checks of the second reference text (src/footprint/data.rs 1526-1588). -/
def checkReference2 (cfg : Config F) (name : Str) : Option (FpText F) → List CheckFixData
  | some r =>
    when_ (r.value ≠ str! "%R") (.new 7 4 name (str! "reference 2 should be %R")) ++
    when_ (r.layer.t ≠ .fab) (.new 7 4 name (str! "reference 2 should be on Fab layertype")) ++
    when_ (differs r.effects.font.size.x r.effects.font.size.y)
      (.new 7 4 name (str! "reference 2 label font aspect ratio should be 1:1")) ++
    when_ (differs r.effects.font.size.y cfg.fontSize)
      (.newInfo 7 3 name (str! "reference 2 label should have height " ++ toStr cfg.fontSize)) ++
    when_ (differs r.effects.font.size.x cfg.fontSize)
      (.newInfo 7 3 name (str! "reference 2 label should have width " ++ toStr cfg.fontSize)) ++
    when_ (differs r.effects.font.thickness cfg.fontThickness)
      (.newInfo 7 3 name (str! "reference 2 label thickness should be " ++ toStr cfg.fontThickness))
  | none => [.new 7 4 name (str! "reference 2 missing")]

/-- Number of courtyard lines (src/footprint/data.rs 1591-1596, 1724-1729). -/
def courtyardCount (m : Module F) : Nat := (m.lines.filter fun l => l.layer.t = .crtYd).length

/-- Number of surface-mount pads (src/footprint/data.rs 1606-1614). -/
def smdCount (m : Module F) : Nat := (m.pads.filter fun p => p.t = .smd).length

/-- Number of through-hole pads (src/footprint/data.rs 1606-1614). -/
def pthCount (m : Module F) : Nat := (m.pads.filter fun p => p.t = .pth).length

/-- The placement message (src/footprint/data.rs 1621, 1631). -/
def placementMsg : Str :=
  str! "SMD components need to have placement Smd (Normal+Insert in Properties)"

/-- Placement checks (src/footprint/data.rs 1615-1638). -/
def checkPlacement (m : Module F) : List CheckFixData :=
  if pthCount m = 0 ∧ smdCount m > 0 then
    when_ (!m.hasSmdAttr) (.new 8 1 m.name placementMsg)
  else if pthCount m > 0 ∧ smdCount m = 0 then
    when_ m.hasSmdAttr (.new 9 1 m.name placementMsg)
  else []

/-- `CheckFix::check for Module` (src/footprint/data.rs 1384-1646). -/
def Module.check (m : Module F) (cfg : Config F) : List CheckFixData :=
  checkReference cfg m.name (m.getText (str! "reference")) ++
  checkValue cfg m.name (m.getText (str! "value")) ++
  checkReference2 cfg m.name (m.getText (str! "user")) ++
  when_ (decide (courtyardCount m < 4)) (.new 7 5 m.name (str! "missing courtyard on CrtYd layer")) ++
  checkPlacement m

/-- The assignments made to a text by `fix` (src/footprint/data.rs 1652-1658,
1664-1670, 1698-1704). -/
def fixText (cfg : Config F) (value : Str) (t : LayerType) (x : FpText F) : FpText F :=
  { x with
    value := value
    layer := { x.layer with t := t }
    hide := false
    effects := { x.effects with
      font := { x.effects.font with
        size := { x.effects.font.size with x := cfg.fontSize, y := cfg.fontSize }
        thickness := cfg.fontThickness } } }

/-- The text appended when there is no second reference
(src/footprint/data.rs 1677-1694). -/
def newReference2 (cfg : Config F) : FpText F :=
  { name := str! "user", value := str! "%R", at_ := ⟨zero, zero, zero⟩, layer := ⟨.front, .fab⟩,
    effects := ⟨⟨⟨cfg.fontSize, cfg.fontSize, .xy⟩, cfg.fontThickness, false⟩, none⟩, hide := false }

/-- Fixing the three texts (src/footprint/data.rs 1649-1705). -/
def fixTexts (cfg : Config F) (m : Module F) : Module F :=
  let es := Module.modText (str! "reference") (fixText cfg (str! "REF**") .silkS) m.elements
  let es := Module.modText (str! "value") (fixText cfg m.name .fab) es
  let es := if (Module.getText ⟨m.name, es⟩ (str! "user")).isNone then
      es ++ [.text (newReference2 cfg)] else es
  { m with elements := Module.modText (str! "user") (fixText cfg (str! "%R") .fab) es }

/-- Adding the placement attribute (src/footprint/data.rs 1706-1722). -/
def fixPlacement (m : Module F) : Module F :=
  if pthCount m = 0 ∧ smdCount m > 0 then
    if !m.hasSmdAttr then m.append (.attr (str! "smd")) else m
  else m

/-- Margin of the generated courtyard (src/footprint/data.rs 1736-1742). -/
def courtyardOffset (m : Module F) : F :=
  let b := m.bound
  if lt b.width (lit 2 0) && lt b.height (lit 2 0) then lit 15 2
  else if startsWith m.name (str! "BGA") then lit 1 1
  else lit 25 2

/-- Corners of the generated courtyard (src/footprint/data.rs 1732-1752). -/
def courtyardBox (m : Module F) : F × F × F × F :=
  let b := m.bound
  let (x, y) := m.at_
  let offset := courtyardOffset m
  let x1a := sub b.x1 x
  let y1a := sub b.y1 y
  let x2a := sub b.x2 x
  let y2a := sub b.y2 y
  (sub (fmin x1a x2a) offset, sub (fmin y1a y2a) offset,
   add (fmax x1a x2a) offset, add (fmax y1a y2a) offset)

/-- The four generated lines (src/footprint/data.rs 1754-1757). -/
def courtyardLines (m : Module F) : List (Elem F) :=
  let (x1, y1, x2, y2) := courtyardBox m
  [.line (FpLine.make x1 y1 x2 y1 .crtYd (lit 5 2)),
   .line (FpLine.make x2 y1 x2 y2 .crtYd (lit 5 2)),
   .line (FpLine.make x2 y2 x1 y2 .crtYd (lit 5 2)),
   .line (FpLine.make x1 y2 x1 y1 .crtYd (lit 5 2))]

/-- Generating a courtyard (src/footprint/data.rs 1723-1762). -/
def fixCourtyard (m : Module F) : Module F :=
  if courtyardCount m < 4 then { m with elements := m.elements ++ courtyardLines m } else m

/-- `CheckFix::fix for Module` (src/footprint/data.rs 1648-1763). -/
def Module.fix (m : Module F) (cfg : Config F) : Module F :=
  fixCourtyard (fixPlacement (fixTexts cfg m))

end Verif.Fp
