import Verif.Model.Footprint.Data
import Verif.Model.Sexp
/-!
# Layouts: data and operations (src/layout/data.rs)

Net names (`NetName`, a newtype around `String`, src/layout/data.rs 269, with its
conversions from text, 271-281, and its `Display`, 928-932) are plain strings; `Pts` is the vector inside it.
-/

namespace Verif.Lay
open Verif Flt

/-- `Hatch` (src/layout/data.rs 126-131). -/
structure Hatch (F : Type) where
  style : Str
  pitch : F
  deriving DecidableEq, Repr

/-- `ConnectPads` (src/layout/data.rs 135-140). -/
structure ConnectPads (F : Type) where
  connection : Option Str
  clearance : F
  deriving DecidableEq, Repr

/-- `Keepout` (src/layout/data.rs 145-152). -/
structure Keepout where
  tracks : Bool
  vias : Bool
  copperpour : Bool
  deriving DecidableEq, Repr

/-- `Fill` (src/layout/data.rs 157-172). -/
structure Fill (F : Type) where
  filled : Bool
  segment : Bool
  arcSegments : Int
  thermalGap : F
  thermalBridgeWidth : F
  smoothing : Option Str
  cornerRadius : F
  deriving DecidableEq, Repr

/-- `Zone` (src/layout/data.rs 62-91).  `priority` is a `u64`. -/
structure Zone (F : Type) where
  net : Int
  netName : Str
  layer : Fp.Layer
  tstamp : Str
  hatch : Hatch F
  priority : Nat
  connectPads : ConnectPads F
  minThickness : F
  keepout : Option Keepout
  fill : Fill F
  polygons : List (List (Fp.Xy F))
  filledPolygons : List (List (Fp.Xy F))
  fillSegments : Option (List (Fp.Xy F))
  other : List Sexp
  deriving Repr

/-- `Host` (src/layout/data.rs 176-181). -/
structure Host where
  tool : Str
  build : Str
  deriving DecidableEq, Repr

/-- `Area` (src/layout/data.rs 208-217). -/
structure Area (F : Type) where
  x1 : F
  y1 : F
  x2 : F
  y2 : F
  deriving DecidableEq, Repr

/-- `General` (src/layout/data.rs 185-204). -/
structure General (F : Type) where
  links : Int
  noConnects : Int
  area : Area F
  thickness : F
  drawings : Int
  tracks : Int
  zones : Int
  modules : Int
  nets : Int
  deriving DecidableEq, Repr

/-- `LayerType` (src/layout/data.rs 234-245). -/
inductive LayerType
  | signal | power | mixed | jumper | user
  deriving DecidableEq, Repr

/-- `Layer` (src/layout/data.rs 221-230). -/
structure Layer where
  num : Int
  layer : Fp.Layer
  layerType : LayerType
  hide : Bool
  deriving DecidableEq, Repr

/-- `SetupElement` (src/layout/data.rs 258-265). -/
structure SetupElement where
  name : Str
  value1 : Str
  value2 : Option Str
  deriving DecidableEq, Repr

/-- `Setup` (src/layout/data.rs 249-254). -/
structure Setup where
  elements : List SetupElement
  pcbplotparams : List SetupElement
  deriving DecidableEq, Repr

/-- `NetClass` (src/layout/data.rs 311-334). -/
structure NetClass (F : Type) where
  name : Str
  desc : Str
  clearance : F
  traceWidth : F
  viaDia : F
  viaDrill : F
  uviaDia : F
  uviaDrill : F
  diffPairGap : Option F
  diffPairWidth : Option F
  nets : List Str
  deriving DecidableEq, Repr

/-- `GrText` (src/layout/data.rs 338-349). -/
structure GrText (F : Type) where
  value : Str
  at_ : Fp.At F
  layer : Fp.Layer
  effects : Fp.Effects F
  tstamp : Option Str
  deriving DecidableEq, Repr

/-- `GrLine` (src/layout/data.rs 366-379). -/
structure GrLine (F : Type) where
  start : Fp.Xy F
  end_ : Fp.Xy F
  angle : F
  layer : Fp.Layer
  width : F
  tstamp : Option Str
  deriving DecidableEq, Repr

/-- `GrArc` (src/layout/data.rs 400-413). -/
structure GrArc (F : Type) where
  start : Fp.Xy F
  end_ : Fp.Xy F
  angle : F
  layer : Fp.Layer
  width : F
  tstamp : Option Str
  deriving DecidableEq, Repr

/-- `GrCircle` (src/layout/data.rs 435-446). -/
structure GrCircle (F : Type) where
  center : Fp.Xy F
  end_ : Fp.Xy F
  layer : Fp.Layer
  width : F
  tstamp : Option Str
  deriving DecidableEq, Repr

/-- `Dimension` (src/layout/data.rs 473-498). -/
structure Dimension (F : Type) where
  name : Str
  width : F
  layer : Fp.Layer
  tstamp : Option Str
  text : GrText F
  feature1 : List (Fp.Xy F)
  feature2 : List (Fp.Xy F)
  crossbar : List (Fp.Xy F)
  arrow1a : List (Fp.Xy F)
  arrow1b : List (Fp.Xy F)
  arrow2a : List (Fp.Xy F)
  arrow2b : List (Fp.Xy F)
  deriving DecidableEq, Repr

/-- `Segment` (src/layout/data.rs 531-546). -/
structure Segment (F : Type) where
  start : Fp.Xy F
  end_ : Fp.Xy F
  width : F
  layer : Fp.Layer
  net : Int
  tstamp : Option Str
  status : Option Str
  deriving DecidableEq, Repr

/-- `Via` (src/layout/data.rs 569-584). -/
structure Via (F : Type) where
  blind : Bool
  micro : Bool
  at_ : Fp.At F
  size : F
  drill : F
  layers : List Fp.Layer
  net : Int
  deriving DecidableEq, Repr

/-- `Element` (src/layout/data.rs 32-58); `Net` is the footprint's record (the
layout's own one, src/layout/data.rs 302-307, has the same fields). -/
inductive Elem (F : Type)
  | module_ (m : Fp.Module F)
  | net (n : Fp.Net)
  | netClass (n : NetClass F)
  | grText (t : GrText F)
  | grLine (l : GrLine F)
  | grArc (a : GrArc F)
  | grCircle (c : GrCircle F)
  | dimension (d : Dimension F)
  | segment (s : Segment F)
  | via (v : Via F)
  | zone (z : Zone F)
  | other (s : Sexp)
  deriving Repr

/-- `Layout` (src/layout/data.rs 13-28). -/
structure Layout (F : Type) where
  version : Int
  host : Host
  general : General F
  page : Str
  setup : Setup
  layers : List Layer
  elements : List (Elem F)
  deriving Repr

variable {F : Type} [Flt F]

/-- `Host::default` (src/layout/data.rs 795-802). -/
def Host.dflt : Host := ⟨str! "pcbnew", str! "custom"⟩

/-- `General::default` (src/layout/data.rs 804-818). -/
def General.dflt : General F :=
  ⟨0, 0, ⟨zero, zero, zero, zero⟩, lit 16 1, 0, 0, 0, 0, 0⟩

/-- `Layout::default` (src/layout/data.rs 602-614). -/
def Layout.dflt : Layout F := ⟨4, Host.dflt, General.dflt, str! "A4", ⟨[], []⟩, [], []⟩

/-! ## Net names -/

/-- `NetName::replace_block` (src/layout/data.rs 285-290). -/
def replaceBlock (name from_ to : Str) : Str :=
  replaceStr (['/'] ++ from_ ++ ['/']) (['/'] ++ to ++ ['/']) name

/-- `NetName::rename` (src/layout/data.rs 293-297). -/
def rename (name from_ to : Str) : Str := if name = from_ then to else name

/-- `NetName::is_unnamed_net` (src/layout/data.rs 904-915). -/
def isUnnamedNet (name : Str) : Option (Str × Str) :=
  if startsWith name (str! "Net-(") then
    match splitPred (fun c => c == '-' || c == '(' || c == ')') name with
    | [_, _, c, d, _] => some (c, d)
    | _ => none
  else none

/-- `NetName::set_unnamed_net` (src/layout/data.rs 918-925). -/
def setUnnamedNet (name new : Str) : Res Str :=
  match isUnnamedNet name with
  | some (_, pad) => .ok (str! "Net-(" ++ new ++ str! "-" ++ pad ++ str! ")")
  | none => .err .other

/-! ## Layout operations -/

/-- `Layout::nets` (src/layout/data.rs 637-645). -/
def Layout.nets (l : Layout F) : List Fp.Net :=
  l.elements.filterMap fun e => match e with | .net n => some n | _ => none

/-- `Layout::netclasses` (src/layout/data.rs 686-694). -/
def Layout.netclasses (l : Layout F) : List (NetClass F) :=
  l.elements.filterMap fun e => match e with | .netClass n => some n | _ => none

/-- `Layout::get_modules` (src/layout/data.rs 720-728). -/
def Layout.getModules (l : Layout F) : List (Fp.Module F) :=
  l.elements.filterMap fun e => match e with | .module_ m => some m | _ => none

/-- A net-name update function (src/layout/data.rs 659): the name after the call and the error it
returned, if any. -/
abbrev Update := Str → Str × Option Err

/-- The loop over the nets of a net class (src/layout/data.rs 666-668). -/
def updateNames (u : Update) : List Str → List Str × Option Err
  | [] => ([], none)
  | n :: ns =>
    match u n with
    | (n', some e) => (n' :: ns, some e)
    | (n', none) => let (r, e) := updateNames u ns; (n' :: r, e)

/-- The loop over the elements of a module (src/layout/data.rs 669-675). -/
def updatePads (u : Update) : List (Fp.Elem F) → List (Fp.Elem F) × Option Err
  | [] => ([], none)
  | .pad p :: es =>
    match p.net with
    | some net =>
      let p' := fun n => Fp.Elem.pad { p with net := some { net with name := n } }
      match u net.name with
      | (n', some e) => (p' n' :: es, some e)
      | (n', none) => let (r, e) := updatePads u es; (p' n' :: r, e)
    | none => let (r, e) := updatePads u es; (.pad p :: r, e)
  | e :: es => let (r, err) := updatePads u es; (e :: r, err)

/-- One element in `Layout::update_net_names` (src/layout/data.rs 662-680). -/
def Elem.updateNames (u : Update) : Elem F → Elem F × Option Err
  | .net n => let (name, e) := u n.name; (.net { n with name := name }, e)
  | .netClass nc => let (nets, e) := Lay.updateNames u nc.nets; (.netClass { nc with nets := nets }, e)
  | .module_ m => let (es, e) := updatePads u m.elements; (.module_ { m with elements := es }, e)
  | .zone z => let (name, e) := u z.netName; (.zone { z with netName := name }, e)
  | x => (x, none)

/-- The loop of `Layout::update_net_names` (src/layout/data.rs 661-682); it stops
at the first error. -/
def updateElems (u : Update) : List (Elem F) → List (Elem F) × Option Err
  | [] => ([], none)
  | x :: xs =>
    match x.updateNames u with
    | (x', some e) => (x' :: xs, some e)
    | (x', none) => let (r, e) := updateElems u xs; (x' :: r, e)

/-- `Layout::update_net_names` (src/layout/data.rs 657-683): the layout after the
call and the returned error. -/
def Layout.updateNetNames (l : Layout F) (u : Update) : Layout F × Option Err :=
  let (es, e) := updateElems u l.elements
  ({ l with elements := es }, e)

/-- `Layout::change_net_name` (src/layout/data.rs 648-654); the `unwrap` panics if
`update_net_names` reports an error. -/
def Layout.changeNetName (l : Layout F) (old new : Str) : Res (Layout F) :=
  match l.updateNetNames fun n => (rename n old new, none) with
  | (l', none) => .ok l'
  | (_, some _) => .panic

/-- `Layout::get_module` (src/layout/data.rs 697-717). -/
def getModuleIn (reference : Str) : List (Elem F) → Option (Fp.Module F)
  | [] => none
  | .module_ m :: es => if m.isReferenceWithName reference then some m else getModuleIn reference es
  | _ :: es => getModuleIn reference es

/-- `Layout::get_module` (src/layout/data.rs 697-717). -/
def Layout.getModule (l : Layout F) (reference : Str) : Option (Fp.Module F) :=
  getModuleIn reference l.elements

/-- The loop of `Layout::modify_module` (src/layout/data.rs 735-752). -/
def modifyModuleIn (reference : Str) (f : Fp.Module F → Fp.Module F) :
    List (Elem F) → Option (List (Elem F))
  | [] => none
  | .module_ m :: es =>
    if m.isReferenceWithName reference then some (.module_ (f m) :: es)
    else (modifyModuleIn reference f es).map (.module_ m :: ·)
  | e :: es => (modifyModuleIn reference f es).map (e :: ·)

/-- `Layout::modify_module` (src/layout/data.rs 731-754); `none` is the error, in
which case the layout is unchanged. -/
def Layout.modifyModule (l : Layout F) (reference : Str) (f : Fp.Module F → Fp.Module F) :
    Res (Layout F) :=
  match modifyModuleIn reference f l.elements with
  | some es => .ok { l with elements := es }
  | none => .err .other

/-- `Layout::add_net` (src/layout/data.rs 757-762). -/
def Layout.addNet (l : Layout F) (num : Int) (name : Str) : Layout F :=
  { l with elements := l.elements ++ [.net ⟨num, name⟩] }

/-- `Layout::add_netclass` (src/layout/data.rs 765-792); the arguments are packed
in the record they are stored in. -/
def Layout.addNetclass (l : Layout F) (nc : NetClass F) : Layout F :=
  { l with elements := l.elements ++ [.netClass nc] }

/-- Derived `PartialEq for NetClass` (src/layout/data.rs 310). -/
def NetClass.eq (a b : NetClass F) : Bool :=
  decide (a.name = b.name) && decide (a.desc = b.desc) && feq a.clearance b.clearance &&
  feq a.traceWidth b.traceWidth && feq a.viaDia b.viaDia && feq a.viaDrill b.viaDrill &&
  feq a.uviaDia b.uviaDia && feq a.uviaDrill b.uviaDrill &&
  Fp.optEq feq a.diffPairGap b.diffPairGap && Fp.optEq feq a.diffPairWidth b.diffPairWidth &&
  decide (a.nets = b.nets)

/-- `NetClass::equal_no_net` (src/layout/data.rs 822-828). -/
def NetClass.equalNoNet (a b : NetClass F) : Bool :=
  NetClass.eq { a with nets := [] } { b with nets := [] }

/-- `NetClass::has_net` (src/layout/data.rs 831-838). -/
def NetClass.hasNet (a : NetClass F) (name : Str) : Bool := a.nets.any fun n => n = name

/-- `Setup::get` (src/layout/data.rs 843-850). -/
def Setup.get (s : Setup) (name : Str) : Option Str :=
  (s.elements.find? fun e => e.name = name).map (·.value1)

/-- The loop of `Setup::update_element` (src/layout/data.rs 854-859); `none` means
no element has the name. -/
def updateElementIn (name value : Str) : List SetupElement → Option (List SetupElement)
  | [] => none
  | e :: es =>
    if e.name = name then some ({ e with value1 := value } :: es)
    else (updateElementIn name value es).map (e :: ·)

/-- `Setup::update_element` (src/layout/data.rs 853-865). -/
def Setup.updateElement (s : Setup) (name value : Str) : Setup :=
  match updateElementIn name value s.elements with
  | some es => { s with elements := es }
  | none => { s with elements := s.elements ++ [⟨name, value, none⟩] }

/-! ## Moving -/

/-- `Adjust for Xy` (src/footprint/data.rs 713-718). -/
def adjXy (x y : F) (p : Fp.Xy F) : Fp.Xy F := { p with x := add p.x x, y := add p.y y }
/-- `Adjust for Pts` (src/footprint/data.rs 750-756). -/
def adjPts (x y : F) (l : List (Fp.Xy F)) : List (Fp.Xy F) := l.map (adjXy x y)
/-- `Adjust for At` (src/footprint/data.rs 593-598). -/
def adjAt (x y : F) (p : Fp.At F) : Fp.At F := { p with x := add p.x x, y := add p.y y }
/-- `Adjust for GrText` (src/layout/data.rs 351-355). -/
def GrText.adjust (x y : F) (t : GrText F) : GrText F := { t with at_ := adjAt x y t.at_ }
/-- `Adjust for Zone` (src/layout/data.rs 93-105). -/
def Zone.adjust (x y : F) (z : Zone F) : Zone F :=
  { z with
    polygons := z.polygons.map (adjPts x y)
    filledPolygons := z.filledPolygons.map (adjPts x y)
    fillSegments := z.fillSegments.map (adjPts x y) }
/-- `Adjust for Dimension` (src/layout/data.rs 500-511). -/
def Dimension.adjust (x y : F) (d : Dimension F) : Dimension F :=
  { d with
    text := d.text.adjust x y
    feature1 := adjPts x y d.feature1
    feature2 := adjPts x y d.feature2
    crossbar := adjPts x y d.crossbar
    arrow1a := adjPts x y d.arrow1a
    arrow1b := adjPts x y d.arrow1b
    arrow2a := adjPts x y d.arrow2a
    arrow2b := adjPts x y d.arrow2b }

/-- `Adjust for Element` with the `Adjust` implementations of the graphic
elements (src/layout/data.rs 381-386, 415-420, 448-455, 548-553, 586-590,
868-883). -/
def Elem.adjust (x y : F) : Elem F → Elem F
  | .module_ e => .module_ (e.adjust x y)
  | .grText e => .grText (e.adjust x y)
  | .grLine e => .grLine { e with start := adjXy x y e.start, end_ := adjXy x y e.end_ }
  | .grArc e => .grArc { e with start := adjXy x y e.start, end_ := adjXy x y e.end_ }
  | .grCircle e => .grCircle { e with center := adjXy x y e.center, end_ := adjXy x y e.end_ }
  | .dimension e => .dimension (e.adjust x y)
  | .segment e => .segment { e with start := adjXy x y e.start, end_ := adjXy x y e.end_ }
  | .via e => .via { e with at_ := adjAt x y e.at_ }
  | .zone e => .zone (e.adjust x y)
  | .net n => .net n
  | .netClass n => .netClass n
  | .other s => .other s

/-- `Adjust for Layout` (src/layout/data.rs 616-622). -/
def Layout.adjust (l : Layout F) (x y : F) : Layout F :=
  { l with elements := l.elements.map (Elem.adjust x y) }

/-! ## Bounding boxes -/

/-- The sorted box of two points (`BoundingBox` for `GrLine`, `GrArc` and
`Segment`, src/layout/data.rs 388-396, 422-430, 555-563). -/
def twoPoint (a b : Fp.Xy F) : Bound F :=
  Bound.new (fmin a.x b.x) (fmin a.y b.y) (fmax a.x b.x) (fmax a.y b.y)

/-- `BoundingBox for GrCircle` (src/layout/data.rs 457-469). -/
def GrCircle.bound (c : GrCircle F) : Bound F :=
  let r := add (mul (sub c.center.x c.end_.x) (sub c.center.x c.end_.x))
    (mul (sub c.center.y c.end_.y) (sub c.center.y c.end_.y))
  let r := sqrt r
  Bound.new (sub c.center.x r) (sub c.center.y r) (add c.center.x r) (add c.center.y r)

/-- `BoundingBox for GrText` (src/layout/data.rs 357-362). -/
def GrText.bound (t : GrText F) : Bound F := Fp.pointBound t.at_.x t.at_.y

/-- `BoundingBox for Dimension` (src/layout/data.rs 513-526). -/
def Dimension.bound (d : Dimension F) : Bound F :=
  let b : Bound F := Bound.dflt
  let b := b.update d.text.bound
  let b := b.update (Fp.ptsBound d.feature1)
  let b := b.update (Fp.ptsBound d.feature2)
  let b := b.update (Fp.ptsBound d.crossbar)
  let b := b.update (Fp.ptsBound d.arrow1a)
  let b := b.update (Fp.ptsBound d.arrow1b)
  let b := b.update (Fp.ptsBound d.arrow2a)
  b.update (Fp.ptsBound d.arrow2b)

/-- `BoundingBox for Zone` (src/layout/data.rs 107-122). -/
def Zone.bound (z : Zone F) : Bound F :=
  let b : Bound F := z.polygons.foldl (fun b p => b.update (Fp.ptsBound p)) Bound.dflt
  let b := z.filledPolygons.foldl (fun b p => b.update (Fp.ptsBound p)) b
  let b := match z.fillSegments with | some p => b.update (Fp.ptsBound p) | none => b
  b.swapIfNeeded

/-- `BoundingBox for Via` (src/layout/data.rs 592-600). -/
def Via.bound (v : Via F) : Bound F :=
  Bound.new (sub v.at_.x v.size) (sub v.at_.y v.size) (add v.at_.x v.size) (add v.at_.y v.size)

/-- `BoundingBox for Element` (src/layout/data.rs 885-900). -/
def Elem.bound : Elem F → Bound F
  | .module_ e => e.bound
  | .grText e => e.bound
  | .grLine e => twoPoint e.start e.end_
  | .grArc e => twoPoint e.start e.end_
  | .grCircle e => e.bound
  | .dimension e => e.bound
  | .segment e => twoPoint e.start e.end_
  | .via e => e.bound
  | .zone e => e.bound
  | .net _ | .netClass _ | .other _ => Bound.dflt

/-- `BoundingBox for Layout` (src/layout/data.rs 624-633). -/
def Layout.bound (l : Layout F) : Bound F :=
  (l.elements.foldl (fun b e => b.update e.bound) Bound.dflt).swapIfNeeded

end Verif.Lay
