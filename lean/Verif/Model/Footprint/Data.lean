import Verif.Model.Bound
import Verif.Basic.Res
/-!
# Footprints: data and operations (src/footprint/data.rs)

`net` names (`NetName`, a newtype around `String` in src/layout/data.rs) are
plain strings here.
-/

namespace Verif.Fp
open Verif Flt

variable {F : Type}

/-- `LayerSide` (src/footprint/data.rs 836-859). -/
inductive LayerSide
  | front | back | dwgs | cmts | eco1 | eco2 | edge | both | in1 | in2 | none
  deriving DecidableEq, Repr

/-- `LayerType` (src/footprint/data.rs 880-903). -/
inductive LayerType
  | cu | paste | mask | silkS | user | adhes | cuts | crtYd | fab | margin
  | other (s : Str)
  deriving DecidableEq, Repr

/-- `Layer` (src/footprint/data.rs 913-918). -/
structure Layer where
  side : LayerSide
  t : LayerType
  deriving DecidableEq, Repr

/-- `Layer::default` (src/footprint/data.rs 872-876, 905-909, 912). -/
def Layer.dflt : Layer := ⟨.front, .cu⟩

/-- `XyType` (src/footprint/data.rs 675-688). -/
inductive XyType
  | xy | start | end_ | size | center | rectDelta
  deriving DecidableEq, Repr

/-- `Xy` (src/footprint/data.rs 698-705). -/
structure Xy (F : Type) where
  x : F
  y : F
  t : XyType
  deriving DecidableEq, Repr

/-- `Xy::new_empty` (src/footprint/data.rs 726-732). -/
def Xy.newEmpty [Flt F] (t : XyType) : Xy F := ⟨zero, zero, t⟩

/-- `At` (src/footprint/data.rs 577-584). -/
structure At (F : Type) where
  x : F
  y : F
  rot : F
  deriving DecidableEq, Repr

/-- `At::default` (src/footprint/data.rs 576). -/
def At.dflt [Flt F] : At F := ⟨zero, zero, zero⟩

/-- `Font` (src/footprint/data.rs 625-632). -/
structure Font (F : Type) where
  size : Xy F
  thickness : F
  italic : Bool
  deriving DecidableEq, Repr

/-- `Font::default` (src/footprint/data.rs 624). -/
def Font.dflt [Flt F] : Font F := ⟨Xy.newEmpty .xy, zero, false⟩

/-- `Justify` (src/footprint/data.rs 664-671). -/
inductive Justify
  | mirror | left | right
  deriving DecidableEq, Repr

/-- `Effects` (src/footprint/data.rs 636-641). -/
structure Effects (F : Type) where
  font : Font F
  justify : Option Justify
  deriving DecidableEq, Repr

/-- `Effects::default` (src/footprint/data.rs 635). -/
def Effects.dflt [Flt F] : Effects F := ⟨Font.dflt, none⟩

/-- `FpText` (src/footprint/data.rs 483-496). -/
structure FpText (F : Type) where
  name : Str
  value : Str
  at_ : At F
  layer : Layer
  effects : Effects F
  hide : Bool
  deriving DecidableEq, Repr

/-- `FpText::new` (src/footprint/data.rs 555-564). -/
def FpText.new [Flt F] (name value : Str) : FpText F :=
  ⟨name, value, At.dflt, Layer.dflt, Effects.dflt, false⟩

/-- `Drill` (src/footprint/data.rs 772-783). -/
structure Drill (F : Type) where
  shape : Option Str
  width : F
  height : F
  offsetX : F
  offsetY : F
  deriving DecidableEq, Repr

/-- `PadType` (src/footprint/data.rs 787-794). -/
inductive PadType
  | smd | pth | npPth
  deriving DecidableEq, Repr

/-- `PadShape` (src/footprint/data.rs 810-819). -/
inductive PadShape
  | rect | circle | oval | trapezoid
  deriving DecidableEq, Repr

/-- `Net` (src/footprint/data.rs 1345-1350). -/
structure Net where
  num : Int
  name : Str
  deriving DecidableEq, Repr

/-- `Pad` (src/footprint/data.rs 997-1026); `layers` is the vector inside
`Layers` (975-978). -/
structure Pad (F : Type) where
  name : Str
  t : PadType
  shape : PadShape
  size : Xy F
  rectDelta : Option (Xy F)
  at_ : At F
  layers : List Layer
  net : Option Net
  zoneConnect : Option Int
  drill : Option (Drill F)
  solderPasteMargin : Option F
  solderMaskMargin : Option F
  clearance : Option F
  thermalGap : Option F
  deriving DecidableEq, Repr

/-- `Pad::new` (src/footprint/data.rs 1088-1105). -/
def Pad.new [Flt F] (name : Str) (t : PadType) (shape : PadShape) : Pad F :=
  ⟨name, t, shape, Xy.newEmpty .size, none, At.dflt, [], none, none, none, none, none, none, none⟩

/-- `FpPoly` (src/footprint/data.rs 1153-1160); `pts` is the vector inside `Pts`
(737-740). -/
structure FpPoly (F : Type) where
  pts : List (Xy F)
  width : F
  layer : Layer
  deriving DecidableEq, Repr

/-- `FpLine` (src/footprint/data.rs 1189-1198). -/
structure FpLine (F : Type) where
  start : Xy F
  end_ : Xy F
  layer : Layer
  width : F
  deriving DecidableEq, Repr

/-- `FpLine::default` (src/footprint/data.rs 1208-1217). -/
def FpLine.dflt [Flt F] : FpLine F := ⟨Xy.newEmpty .start, Xy.newEmpty .end_, Layer.dflt, zero⟩

/-- `FpLine::make` (src/footprint/data.rs 1226-1235). -/
def FpLine.make [Flt F] (x1 y1 x2 y2 : F) (t : LayerType) (width : F) : FpLine F :=
  ⟨⟨x1, y1, .start⟩, ⟨x2, y2, .end_⟩, { Layer.dflt with t := t }, width⟩

/-- `FpCircle` (src/footprint/data.rs 1244-1253). -/
structure FpCircle (F : Type) where
  center : Xy F
  end_ : Xy F
  layer : Layer
  width : F
  deriving DecidableEq, Repr

/-- `FpCircle::default` (src/footprint/data.rs 1255-1264). -/
def FpCircle.dflt [Flt F] : FpCircle F :=
  ⟨Xy.newEmpty .center, Xy.newEmpty .end_, Layer.dflt, zero⟩

/-- `FpArc` (src/footprint/data.rs 1297-1308). -/
structure FpArc (F : Type) where
  start : Xy F
  end_ : Xy F
  angle : F
  layer : Layer
  width : F
  deriving DecidableEq, Repr

/-- `FpArc::default` (src/footprint/data.rs 1325-1335). -/
def FpArc.dflt [Flt F] : FpArc F :=
  ⟨Xy.newEmpty .start, Xy.newEmpty .end_, zero, Layer.dflt, zero⟩

/-- `Xyz` (src/footprint/data.rs 1367-1374). -/
structure Xyz (F : Type) where
  x : F
  y : F
  z : F
  deriving DecidableEq, Repr

/-- `Model` (src/footprint/data.rs 1354-1363). -/
structure Model (F : Type) where
  name : Str
  at_ : Xyz F
  scale : Xyz F
  rotate : Xyz F
  deriving DecidableEq, Repr

/-- `Element` (src/footprint/data.rs 286-323). -/
inductive Elem (F : Type)
  | solderMaskMargin (x : F)
  | layer (l : Layer)
  | descr (s : Str)
  | tags (s : Str)
  | attr (s : Str)
  | text (t : FpText F)
  | pad (p : Pad F)
  | poly (p : FpPoly F)
  | line (l : FpLine F)
  | circle (c : FpCircle F)
  | arc (a : FpArc F)
  | tedit (i : Int)
  | tstamp (i : Int)
  | path (s : Str)
  | at_ (a : At F)
  | model (m : Model F)
  | clearance (x : F)
  | locked
  deriving DecidableEq, Repr

/-- `Module` (src/footprint/data.rs 27-32). -/
structure Module (F : Type) where
  name : Str
  elements : List (Elem F)
  deriving DecidableEq, Repr

/-! ## Texts, attributes and location of a module -/

namespace Module

/-- `Module::new` (src/footprint/data.rs 40-45). -/
def new (name : Str) : Module F := ⟨name, []⟩

/-- `Module::append` (src/footprint/data.rs 47-49). -/
def append (m : Module F) (e : Elem F) : Module F := { m with elements := m.elements ++ [e] }

/-- `Module::is_reference_with_name` (src/footprint/data.rs 51-60). -/
def isReferenceWithName (m : Module F) (reference : Str) : Bool :=
  m.elements.any fun e => match e with
    | .text t => t.name = str! "reference" && t.value = reference
    | _ => false

/-- `Module::get_text` (src/footprint/data.rs 68-77), also as `get_reference_text`,
`get_reference2_text` and `get_value_text` with `reference`, `user` and `value` (92-94, 102-104, 130-132). -/
def getText (m : Module F) (which : Str) : Option (FpText F) :=
  m.elements.findSome? fun e => match e with
    | .text t => if t.name = which then some t else none
    | _ => none

/-- Changing what `Module::get_text_mut` returns (src/footprint/data.rs 80-89), also as
`get_reference_text_mut`, `get_reference2_text_mut` and `get_value_text_mut` (97-99, 107-114). -/
def modText (which : Str) (f : FpText F → FpText F) : List (Elem F) → List (Elem F)
  | [] => []
  | .text t :: es => if t.name = which then .text (f t) :: es else .text t :: modText which f es
  | e :: es => e :: modText which f es

/-- `Module::get_reference` (src/footprint/data.rs 63-65). -/
def getReference (m : Module F) : Option Str := (m.getText (str! "reference")).map (·.value)

/-- `Module::has_smd_attr` (src/footprint/data.rs 118-127). -/
def hasSmdAttr (m : Module F) : Bool :=
  m.elements.any fun e => match e with
    | .attr s => s = str! "smd"
    | _ => false

/-- `Module::get_tstamp` (src/footprint/data.rs 135-142). -/
def getTstamp (m : Module F) : Option Int :=
  m.elements.findSome? fun e => match e with
    | .tstamp s => some s
    | _ => none

/-- `Module::get_tedit` (src/footprint/data.rs 145-152). -/
def getTedit (m : Module F) : Option Int :=
  m.elements.findSome? fun e => match e with
    | .tedit s => some s
    | _ => none

/-- The loop body of `Module::set_reference` (src/footprint/data.rs 157-164). -/
def setReferenceElem (reference reference2 : Str) : Elem F → Elem F
  | .text t =>
    if t.name = str! "reference" ∧ t.value = reference then .text { t with value := reference2 }
    else .text t
  | e => e

/-- `Module::set_reference` (src/footprint/data.rs 155-165). -/
def setReference (m : Module F) (reference reference2 : Str) : Module F :=
  { m with elements := m.elements.map (setReferenceElem reference reference2) }

/-- The first `At` element of a module (the loop of src/footprint/data.rs 169-173). -/
def firstAt : List (Elem F) → Option (At F)
  | [] => none
  | .at_ a :: _ => some a
  | _ :: es => firstAt es

/-- `Module::at` (src/footprint/data.rs 168-175). -/
def at_ [Flt F] (m : Module F) : F × F :=
  match firstAt m.elements with
  | some a => (a.x, a.y)
  | none => (zero, zero)

/-- `Module::get_rotation` (src/footprint/data.rs 179-186). -/
def getRotation [Flt F] (m : Module F) : F :=
  match firstAt m.elements with
  | some a => a.rot
  | none => zero

/-- `Module::adjust_at` (src/footprint/data.rs 189-196), loop body. -/
def adjustElem [Flt F] (x y : F) : Elem F → Elem F
  | .at_ a => .at_ { a with x := add a.x x, y := add a.y y }
  | e => e

/-- `Module::adjust_at` and `Adjust for Module` (src/footprint/data.rs 189-196,
262-266). -/
def adjust [Flt F] (m : Module F) (x y : F) : Module F :=
  { m with elements := m.elements.map (adjustElem x y) }

/-- `Module::is_front` (src/footprint/data.rs 199-206). -/
def isFront (m : Module F) : Bool :=
  match (m.elements.findSome? fun e => match e with | .layer l => some l | _ => none) with
  | some l => l.side = .front
  | none => true

end Module

/-- `Pad::rename_net` (src/footprint/data.rs 1108-1122). -/
def Pad.renameNet (p : Pad F) (old new : Str) : Pad F :=
  { p with net := match p.net with
      | some net => if net.name = old then some { net with name := new } else some net
      | none => none }

namespace Module

/-- The loop body of `Module::rename_net` (src/footprint/data.rs 210-214). -/
def renameNetElem (old new : Str) : Elem F → Elem F
  | .pad p => .pad (p.renameNet old new)
  | e => e

/-- `Module::rename_net` (src/footprint/data.rs 209-215). -/
def renameNet (m : Module F) (old new : Str) : Module F :=
  { m with elements := m.elements.map (renameNetElem old new) }

/-- `Module::pads` (src/footprint/data.rs 218-226). -/
def pads (m : Module F) : List (Pad F) :=
  m.elements.filterMap fun e => match e with | .pad p => some p | _ => none

/-- `Module::lines` (src/footprint/data.rs 229-237). -/
def lines (m : Module F) : List (FpLine F) :=
  m.elements.filterMap fun e => match e with | .line l => some l | _ => none

end Module

/-! ## Flip (src/footprint/data.rs 14-17 and its implementations) -/

/-- `Flip for LayerSide` (src/footprint/data.rs 861-870). -/
def LayerSide.flip : LayerSide → LayerSide
  | .front => .back
  | .back => .front
  | x => x

/-- `Flip for Layer` (src/footprint/data.rs 920-924). -/
def Layer.flip (l : Layer) : Layer := { l with side := l.side.flip }

/-- `Flip for At` (src/footprint/data.rs 586-591). -/
def At.flip [Flt F] (a : At F) : At F := { a with y := neg a.y, rot := sub (lit 360 0) a.rot }

/-- `Flip for Xy` (src/footprint/data.rs 707-711). -/
def Xy.flip [Flt F] (p : Xy F) : Xy F := { p with y := neg p.y }

/-- `Flip for Effects` (src/footprint/data.rs 643-650). -/
def Effects.flip (e : Effects F) : Effects F :=
  { e with justify := match e.justify with | none => some .mirror | some _ => none }

/-- `Flip for FpText` (src/footprint/data.rs 498-504). -/
def FpText.flip [Flt F] (t : FpText F) : FpText F :=
  { t with at_ := t.at_.flip, layer := t.layer.flip, effects := t.effects.flip }

/-- `Flip for Pad` and `Flip for Layers` (src/footprint/data.rs 980-986,
1028-1033). -/
def Pad.flip [Flt F] (p : Pad F) : Pad F :=
  { p with at_ := p.at_.flip, layers := p.layers.map Layer.flip }

/-- `Flip for FpPoly` and `Flip for Pts` (src/footprint/data.rs 742-748,
1162-1167). -/
def FpPoly.flip [Flt F] (p : FpPoly F) : FpPoly F :=
  { p with pts := p.pts.map Xy.flip, layer := p.layer.flip }

/-- `Flip for FpLine` (src/footprint/data.rs 1200-1206). -/
def FpLine.flip [Flt F] (l : FpLine F) : FpLine F :=
  { l with start := l.start.flip, end_ := l.end_.flip, layer := l.layer.flip }

/-- `Flip for FpCircle` (src/footprint/data.rs 1266-1272). -/
def FpCircle.flip [Flt F] (c : FpCircle F) : FpCircle F :=
  { c with center := c.center.flip, end_ := c.end_.flip, layer := c.layer.flip }

/-- `Flip for FpArc` (src/footprint/data.rs 1310-1316). -/
def FpArc.flip [Flt F] (a : FpArc F) : FpArc F :=
  { a with start := a.start.flip, end_ := a.end_.flip, layer := a.layer.flip }

/-- `Flip for Element` (src/footprint/data.rs 375-398). -/
def Elem.flip [Flt F] : Elem F → Elem F
  | .pad p => .pad p.flip
  | .poly p => .poly p.flip
  | .line p => .line p.flip
  | .circle p => .circle p.flip
  | .arc p => .arc p.flip
  | .text p => .text p.flip
  | .at_ p => .at_ p.flip
  | .layer p => .layer p.flip
  | e => e

/-- `Flip for Module` (src/footprint/data.rs 268-274). -/
def Module.flip [Flt F] (m : Module F) : Module F := { m with elements := m.elements.map Elem.flip }

/-! ## Rotate (src/footprint/data.rs 20-23 and its implementations) -/

/-- `Rotate for At` (src/footprint/data.rs 611-622). -/
def At.rotate [Flt F] (a : At F) (rot : F) : At F :=
  let r := add a.rot rot
  let r := if le (lit 360 0) r then sub r (lit 360 0) else r
  let r := if lt r zero then add r (lit 360 0) else r
  { a with rot := r }

/-- `Rotate for Element`, with `Rotate for Pad` and `Rotate for FpText`
(src/footprint/data.rs 400-423, 506-510, 1035-1039). -/
def Elem.rotate [Flt F] (rot : F) : Elem F → Elem F
  | .pad p => .pad { p with at_ := p.at_.rotate rot }
  | .text t => .text { t with at_ := t.at_.rotate rot }
  | .at_ a => .at_ (a.rotate rot)
  | e => e

/-- `Rotate for Module` (src/footprint/data.rs 276-282). -/
def Module.rotate [Flt F] (m : Module F) (rot : F) : Module F :=
  { m with elements := m.elements.map (Elem.rotate rot) }

/-! ## Equality (`PartialEq`, derived or written out) -/

/-- Equality of options of comparable things (`PartialEq` for `Option`, used by src/footprint/data.rs 1041-1084). -/
def optEq {α : Type} (eq : α → α → Bool) : Option α → Option α → Bool
  | none, none => true
  | some a, some b => eq a b
  | _, _ => false

/-- Equality of vectors of comparable things (`PartialEq` for `Vec`, used by src/footprint/data.rs 736, 974). -/
def listEq {α : Type} (eq : α → α → Bool) : List α → List α → Bool
  | [], [] => true
  | a :: as, b :: bs => eq a b && listEq eq as bs
  | _, _ => false

/-- `PartialEq for Layer` (src/footprint/data.rs 926-930). -/
def Layer.eq (a b : Layer) : Bool := a.t = b.t
/-- Derived `PartialEq for Xy` (src/footprint/data.rs 697). -/
def Xy.eq [Flt F] (a b : Xy F) : Bool := feq a.x b.x && feq a.y b.y && decide (a.t = b.t)
/-- Derived `PartialEq for At` (src/footprint/data.rs 576). -/
def At.eq [Flt F] (a b : At F) : Bool := feq a.x b.x && feq a.y b.y && feq a.rot b.rot
/-- Derived `PartialEq for Font` (src/footprint/data.rs 624). -/
def Font.eq [Flt F] (a b : Font F) : Bool :=
  a.size.eq b.size && feq a.thickness b.thickness && a.italic == b.italic
/-- Derived `PartialEq for Effects` (src/footprint/data.rs 635). -/
def Effects.eq [Flt F] (a b : Effects F) : Bool :=
  a.font.eq b.font && decide (a.justify = b.justify)
/-- `PartialEq for FpText` (src/footprint/data.rs 512-543). -/
def FpText.eq [Flt F] (a b : FpText F) : Bool :=
  if a.name = str! "reference" ∧ b.name = str! "reference" then true
  else if a.name = str! "value" ∧ b.name = str! "value" then true
  else if !a.at_.eq b.at_ then false
  else if a.name ≠ b.name then false
  else if a.value ≠ b.value then false
  else if !a.at_.eq b.at_ then false
  else if !a.layer.eq b.layer then false
  else if !a.effects.eq b.effects then false
  else if a.hide ≠ b.hide then false
  else true
/-- Derived `PartialEq for Drill` (src/footprint/data.rs 771). -/
def Drill.eq [Flt F] (a b : Drill F) : Bool :=
  decide (a.shape = b.shape) && feq a.width b.width && feq a.height b.height &&
  feq a.offsetX b.offsetX && feq a.offsetY b.offsetY
/-- `PartialEq for Pad` (src/footprint/data.rs 1041-1084). -/
def Pad.eq [Flt F] (a b : Pad F) : Bool :=
  if !a.at_.eq b.at_ then false
  else if a.name ≠ b.name then false
  else if a.t ≠ b.t then false
  else if a.shape ≠ b.shape then false
  else if !a.size.eq b.size then false
  else if !optEq Xy.eq a.rectDelta b.rectDelta then false
  else if !listEq Layer.eq a.layers b.layers then false
  else if a.zoneConnect ≠ b.zoneConnect then false
  else if !optEq Drill.eq a.drill b.drill then false
  else if !optEq feq a.solderPasteMargin b.solderPasteMargin then false
  else if !optEq feq a.solderMaskMargin b.solderMaskMargin then false
  else if !optEq feq a.clearance b.clearance then false
  else if !optEq feq a.thermalGap b.thermalGap then false
  else true
/-- Derived `PartialEq for FpPoly` (src/footprint/data.rs 1152). -/
def FpPoly.eq [Flt F] (a b : FpPoly F) : Bool :=
  listEq Xy.eq a.pts b.pts && feq a.width b.width && a.layer.eq b.layer
/-- Derived `PartialEq for FpLine` (src/footprint/data.rs 1188). -/
def FpLine.eq [Flt F] (a b : FpLine F) : Bool :=
  a.start.eq b.start && a.end_.eq b.end_ && a.layer.eq b.layer && feq a.width b.width
/-- Derived `PartialEq for FpCircle` (src/footprint/data.rs 1243). -/
def FpCircle.eq [Flt F] (a b : FpCircle F) : Bool :=
  a.center.eq b.center && a.end_.eq b.end_ && a.layer.eq b.layer && feq a.width b.width
/-- Derived `PartialEq for FpArc` (src/footprint/data.rs 1296). -/
def FpArc.eq [Flt F] (a b : FpArc F) : Bool :=
  a.start.eq b.start && a.end_.eq b.end_ && feq a.angle b.angle && a.layer.eq b.layer &&
  feq a.width b.width
/-- Derived `PartialEq for Xyz` (src/footprint/data.rs 1366). -/
def Xyz.eq [Flt F] (a b : Xyz F) : Bool := feq a.x b.x && feq a.y b.y && feq a.z b.z
/-- Derived `PartialEq for Model` (src/footprint/data.rs 1353). -/
def Model.eq [Flt F] (a b : Model F) : Bool :=
  decide (a.name = b.name) && a.at_.eq b.at_ && a.scale.eq b.scale && a.rotate.eq b.rotate
/-- Derived `PartialEq for Element` (src/footprint/data.rs 285). -/
def Elem.eq [Flt F] : Elem F → Elem F → Bool
  | .solderMaskMargin a, .solderMaskMargin b => feq a b
  | .layer a, .layer b => a.eq b
  | .descr a, .descr b => decide (a = b)
  | .tags a, .tags b => decide (a = b)
  | .attr a, .attr b => decide (a = b)
  | .text a, .text b => a.eq b
  | .pad a, .pad b => a.eq b
  | .poly a, .poly b => a.eq b
  | .line a, .line b => a.eq b
  | .circle a, .circle b => a.eq b
  | .arc a, .arc b => a.eq b
  | .tedit a, .tedit b => decide (a = b)
  | .tstamp a, .tstamp b => decide (a = b)
  | .path a, .path b => decide (a = b)
  | .at_ a, .at_ b => a.eq b
  | .model a, .model b => a.eq b
  | .clearance a, .clearance b => feq a b
  | .locked, .locked => true
  | _, _ => false

/-! ## Bounding boxes -/

/-- The point as a box (src/footprint/data.rs 759-768). -/
def pointBound [Flt F] (x y : F) : Bound F := Bound.new x y x y

/-- `BoundingBox for Pts` and `BoundingBox for FpPoly` (the same loop;
src/footprint/data.rs 758-768, 1169-1179). -/
def ptsBound [Flt F] (pts : List (Xy F)) : Bound F :=
  (pts.foldl (fun b e => b.update (pointBound e.x e.y)) Bound.dflt).swapIfNeeded

/-- `BoundingBox for Pad` (src/footprint/data.rs 1135-1149). -/
def Pad.bound [Flt F] (p : Pad F) : Bound F :=
  let x := p.at_.x
  let y := p.at_.y
  let rot := p.at_.rot
  let near (d : F) : Bool := lt (Flt.abs d) (lit 1 1)
  let (dx, dy) :=
    if near (sub rot (lit 90 0)) || near (add rot (lit 90 0)) || near (sub rot (lit 270 0)) ||
        near (add rot (lit 270 0)) then (p.size.y, p.size.x)
    else (p.size.x, p.size.y)
  Bound.new (sub x (half dx)) (sub y (half dy)) (add x (half dx)) (add y (half dy))

/-- `BoundingBox for FpCircle` (src/footprint/data.rs 1274-1287). -/
def FpCircle.bound [Flt F] (c : FpCircle F) : Bound F :=
  let dx := sub c.center.x c.end_.x
  let dy := sub c.center.y c.end_.y
  let d2 := add (mul dx dx) (mul dy dy)
  let d := sqrt d2
  Bound.new (sub c.center.x d) (sub c.center.y d) (add c.center.x d) (add c.center.y d)

/-- `BoundingBox for FpLine` (src/footprint/data.rs 1219-1223). -/
def FpLine.bound [Flt F] (l : FpLine F) : Bound F :=
  Bound.new l.start.x l.start.y l.end_.x l.end_.y

/-- `BoundingBox for FpArc` (src/footprint/data.rs 1318-1323). -/
def FpArc.bound [Flt F] (l : FpArc F) : Bound F :=
  Bound.new l.start.x l.start.y l.end_.x l.end_.y

/-- `BoundingBox for FpText` (src/footprint/data.rs 545-551). -/
def FpText.bound [Flt F] (t : FpText F) : Bound F := pointBound t.at_.x t.at_.y

/-- `BoundingBox for Element` (src/footprint/data.rs 325-348). -/
def Elem.bound [Flt F] : Elem F → Bound F
  | .pad x => x.bound
  | .poly x => ptsBound x.pts
  | .line x => x.bound
  | .circle x => x.bound
  | .text x => x.bound
  | .arc x => x.bound
  | _ => Bound.dflt

/-- `Element::is_graphics` (src/footprint/data.rs 426-447). -/
def Elem.isGraphics : Elem F → Bool
  | .pad _ | .poly _ | .line _ | .circle _ | .arc _ => true
  | _ => false

/-- `Element::is_fab` (src/footprint/data.rs 449-470) with the `is_fab` of lines, circles,
arcs and polygons (1181-1185, 1236-1240, 1289-1293, 1337-1341). -/
def Elem.isFab : Elem F → Bool
  | .poly e => e.layer.t = .fab
  | .line e => e.layer.t = .fab
  | .circle e => e.layer.t = .fab
  | .arc e => e.layer.t = .fab
  | _ => false

/-- `Element::is_pad` (src/footprint/data.rs 472-478). -/
def Elem.isPad : Elem F → Bool
  | .pad _ => true
  | _ => false

/-- One iteration of the loop in `BoundingBox for Module`
(src/footprint/data.rs 244-254). -/
def Module.boundStep [Flt F] (x y : F) (b : Bound F) (e : Elem F) : Bound F :=
  if e.isGraphics && (e.isFab || e.isPad) then
    let b2 := e.bound
    b.update { b2 with x1 := add b2.x1 x, y1 := add b2.y1 y, x2 := add b2.x2 x, y2 := add b2.y2 y }
  else b

/-- `BoundingBox for Module` (src/footprint/data.rs 240-260). -/
def Module.bound [Flt F] (m : Module F) : Bound F :=
  let (x, y) := m.at_
  (m.elements.foldl (Module.boundStep x y) (Bound.new x y x y)).swapIfNeeded

end Verif.Fp
