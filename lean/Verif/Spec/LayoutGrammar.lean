import Verif.Spec.FootprintGrammar
import Verif.Model.Layout.Data
/-!
# The language of board files

Which trees stand for which boards.  Optional parts that are missing have the values
given here.
-/

namespace Verif.Spec
open Verif Lay Flt

variable {F : Type} [Flt F]

/-! ## Heading -/

/-- `(host tool build)` -/
def HostTree (e : Sexp) (v : Host) : Prop :=
  e = .list (.str (str! "host") :: .str v.tool :: .str v.build :: [])

/-- `(area x1 y1 x2 y2)` -/
def AreaTree (e : Sexp) (v : Area F) : Prop :=
  ∃ x1 y1 x2 y2,
    e = .list (.str (str! "area") :: x1 :: y1 :: x2 :: y2 :: []) ∧ NumTree x1 v.x1 ∧ NumTree y1 v.y1 ∧
    NumTree x2 v.x2 ∧ NumTree y2 v.y2

/-- `(general (links n) (no_connects n) area (thickness x) (drawings n) (tracks n) (zones n) (modules n) (nets n))` -/
def GeneralTree (e : Sexp) (v : General F) : Prop :=
  ∃ links noConnects area thickness drawings tracks zones modules nets,
    e = .list (.str (str! "general") :: links :: noConnects :: area :: thickness :: drawings :: tracks :: zones :: modules :: nets :: []) ∧
    Named (str! "links") IntTree links v.links ∧ Named (str! "no_connects") IntTree noConnects v.noConnects ∧
    AreaTree area v.area ∧ Named (str! "thickness") NumTree thickness v.thickness ∧
    Named (str! "drawings") IntTree drawings v.drawings ∧ Named (str! "tracks") IntTree tracks v.tracks ∧
    Named (str! "zones") IntTree zones v.zones ∧ Named (str! "modules") IntTree modules v.modules ∧
    Named (str! "nets") IntTree nets v.nets

def boardLayerTypes : List (Str × LayerType) :=
  [(str! "signal", .signal), (str! "power", .power), (str! "mixed", .mixed), (str! "jumper", .jumper), (str! "user", .user)]

/-- `(number name type [word])`: the layer is hidden if there is any word behind the type. -/
def BoardLayerTree (e : Sexp) (l : Layer) : Prop :=
  ∃ num name type hide o, e = .list (num :: .str name :: .str type :: hide) ∧ IntTree num l.num ∧
    LayerWord name l.layer ∧ (type, l.layerType) ∈ boardLayerTypes ∧ Opt WordTree hide o ∧ l.hide = o.isSome

/-- `(layers layer …)` -/
def BoardLayersTree (e : Sexp) (ls : List Layer) : Prop :=
  ∃ parts, e = .list (.str (str! "layers") :: parts) ∧ Many BoardLayerTree parts ls

/-- `(name value [value])` -/
def SetupElementTree (e : Sexp) (s : SetupElement) : Prop :=
  ∃ rest, e = .list (.str s.name :: .str s.value1 :: rest) ∧ Opt WordTree rest s.value2

/-- What a part of the setup says. -/
inductive SetupItem
  | element (s : SetupElement)
  | params (l : List SetupElement)

def SetupItem.element? : SetupItem → Option SetupElement | .element s => some s | _ => none
def SetupItem.params? : SetupItem → Option (List SetupElement) | .params l => some l | _ => none

/-- A setting, or `(pcbplotparams setting …)`. -/
inductive SetupItemTree : Sexp → SetupItem → Prop
  | element {e s} (h : SetupElementTree e s) (hn : s.name ≠ str! "pcbplotparams") : SetupItemTree e (.element s)
  | params {parts l} (h : Many SetupElementTree parts l) :
      SetupItemTree (.list (.str (str! "pcbplotparams") :: parts)) (.params l)

/-- `(setup item …)`; plot parameters are collected. -/
def SetupTree (e : Sexp) (s : Setup) : Prop :=
  ∃ parts is, e = .list (.str (str! "setup") :: parts) ∧ Many SetupItemTree parts is ∧
    s.elements = is.filterMap SetupItem.element? ∧ s.pcbplotparams = (is.filterMap SetupItem.params?).flatten

/-! ## Net classes -/

/-- What a part of a net class says. -/
inductive NetClassItem (F : Type)
  | clearance (x : F)
  | traceWidth (x : F)
  | viaDia (x : F)
  | viaDrill (x : F)
  | uviaDia (x : F)
  | uviaDrill (x : F)
  | diffPairGap (x : F)
  | diffPairWidth (x : F)
  | addNet (s : Str)

def NetClassItem.clearance? {F : Type} : NetClassItem F → Option F | .clearance x => some x | _ => none
def NetClassItem.traceWidth? {F : Type} : NetClassItem F → Option F | .traceWidth x => some x | _ => none
def NetClassItem.viaDia? {F : Type} : NetClassItem F → Option F | .viaDia x => some x | _ => none
def NetClassItem.viaDrill? {F : Type} : NetClassItem F → Option F | .viaDrill x => some x | _ => none
def NetClassItem.uviaDia? {F : Type} : NetClassItem F → Option F | .uviaDia x => some x | _ => none
def NetClassItem.uviaDrill? {F : Type} : NetClassItem F → Option F | .uviaDrill x => some x | _ => none
def NetClassItem.diffPairGap? {F : Type} : NetClassItem F → Option F | .diffPairGap x => some x | _ => none
def NetClassItem.diffPairWidth? {F : Type} : NetClassItem F → Option F | .diffPairWidth x => some x | _ => none
def NetClassItem.addNet? {F : Type} : NetClassItem F → Option Str | .addNet s => some s | _ => none

/-- The parts of a net class. -/
inductive NetClassItemTree : Sexp → NetClassItem F → Prop
  | clearance {e x} (h : Named (str! "clearance") NumTree e x) : NetClassItemTree e (.clearance x)
  | traceWidth {e x} (h : Named (str! "trace_width") NumTree e x) : NetClassItemTree e (.traceWidth x)
  | viaDia {e x} (h : Named (str! "via_dia") NumTree e x) : NetClassItemTree e (.viaDia x)
  | viaDrill {e x} (h : Named (str! "via_drill") NumTree e x) : NetClassItemTree e (.viaDrill x)
  | uviaDia {e x} (h : Named (str! "uvia_dia") NumTree e x) : NetClassItemTree e (.uviaDia x)
  | uviaDrill {e x} (h : Named (str! "uvia_drill") NumTree e x) : NetClassItemTree e (.uviaDrill x)
  | diffPairGap {e x} (h : Named (str! "diff_pair_gap") NumTree e x) : NetClassItemTree e (.diffPairGap x)
  | diffPairWidth {e x} (h : Named (str! "diff_pair_width") NumTree e x) : NetClassItemTree e (.diffPairWidth x)
  | addNet {e s} (h : Named (str! "add_net") WordTree e s) : NetClassItemTree e (.addNet s)

/-- `(net_class name description item …)`: the last value of a kind counts, and nets are
collected. -/
def NetClassTree (e : Sexp) (n : NetClass F) : Prop :=
  ∃ parts is, e = .list (.str (str! "net_class") :: .str n.name :: .str n.desc :: parts) ∧
    Many NetClassItemTree parts is ∧
    n.clearance = (is.filterMap NetClassItem.clearance?).getLast?.getD (lit 1524 4) ∧
    n.traceWidth = (is.filterMap NetClassItem.traceWidth?).getLast?.getD (lit 2032 4) ∧
    n.viaDia = (is.filterMap NetClassItem.viaDia?).getLast?.getD (lit 675 3) ∧
    n.viaDrill = (is.filterMap NetClassItem.viaDrill?).getLast?.getD (lit 25 2) ∧
    n.uviaDia = (is.filterMap NetClassItem.uviaDia?).getLast?.getD (lit 508 3) ∧
    n.uviaDrill = (is.filterMap NetClassItem.uviaDrill?).getLast?.getD (lit 127 3) ∧
    n.diffPairGap = (is.filterMap NetClassItem.diffPairGap?).getLast? ∧
    n.diffPairWidth = (is.filterMap NetClassItem.diffPairWidth?).getLast? ∧
    n.nets = is.filterMap NetClassItem.addNet?

/-! ## Drawings -/

/-- `(gr_text value at layer effects [(tstamp word)])` -/
def GrTextTree (e : Sexp) (v : GrText F) : Prop :=
  ∃ at_ layer effects tstamp,
    e = .list (.str (str! "gr_text") :: .str v.value :: at_ :: layer :: effects :: tstamp) ∧ AtTree at_ v.at_ ∧
    LayerTree layer v.layer ∧ EffectsTree effects v.effects ∧
    Opt (Named (str! "tstamp") WordTree) tstamp v.tstamp

/-- `(gr_line point point [(angle a)] layer [(width w)] [(tstamp word)])` -/
def GrLineTree (e : Sexp) (v : GrLine F) : Prop :=
  ∃ start end_ angle layer width tstamp o_angle o_width,
    e = .list (.str (str! "gr_line") :: start :: end_ :: (angle ++ (layer :: (width ++ tstamp)))) ∧
    XyTree start v.start ∧ XyTree end_ v.end_ ∧ Opt (Named (str! "angle") NumTree) angle o_angle ∧
    LayerTree layer v.layer ∧ Opt (Named (str! "width") NumTree) width o_width ∧
    Opt (Named (str! "tstamp") WordTree) tstamp v.tstamp ∧ v.angle = o_angle.getD zero ∧
    v.width = o_width.getD zero

/-- `(gr_arc point point (angle a) layer [(width w)] [(tstamp word)])` -/
def GrArcTree (e : Sexp) (v : GrArc F) : Prop :=
  ∃ start end_ angle layer width tstamp o_width,
    e = .list (.str (str! "gr_arc") :: start :: end_ :: angle :: layer :: (width ++ tstamp)) ∧
    XyTree start v.start ∧ XyTree end_ v.end_ ∧ Named (str! "angle") NumTree angle v.angle ∧
    LayerTree layer v.layer ∧ Opt (Named (str! "width") NumTree) width o_width ∧
    Opt (Named (str! "tstamp") WordTree) tstamp v.tstamp ∧ v.width = o_width.getD zero

/-- `(gr_circle point point layer [(width w)] [(tstamp word)])` -/
def GrCircleTree (e : Sexp) (v : GrCircle F) : Prop :=
  ∃ center end_ layer width tstamp o_width,
    e = .list (.str (str! "gr_circle") :: center :: end_ :: layer :: (width ++ tstamp)) ∧
    XyTree center v.center ∧ XyTree end_ v.end_ ∧ LayerTree layer v.layer ∧
    Opt (Named (str! "width") NumTree) width o_width ∧ Opt (Named (str! "tstamp") WordTree) tstamp v.tstamp ∧
    v.width = o_width.getD zero

/-- `(dimension name (width w) layer [(tstamp word)] gr_text (feature1 pts) … (arrow2b pts)` -/
def DimensionTree (e : Sexp) (v : Dimension F) : Prop :=
  ∃ width layer tstamp text feature1 feature2 crossbar arrow1a arrow1b arrow2a arrow2b,
    e = .list (.str (str! "dimension") :: .str v.name :: width :: layer :: (tstamp ++ (text :: feature1 :: feature2 :: crossbar :: arrow1a :: arrow1b :: arrow2a :: arrow2b :: []))) ∧
    Named (str! "width") NumTree width v.width ∧ LayerTree layer v.layer ∧
    Opt (Named (str! "tstamp") WordTree) tstamp v.tstamp ∧ GrTextTree text v.text ∧
    Named (str! "feature1") PtsTree feature1 v.feature1 ∧ Named (str! "feature2") PtsTree feature2 v.feature2 ∧
    Named (str! "crossbar") PtsTree crossbar v.crossbar ∧ Named (str! "arrow1a") PtsTree arrow1a v.arrow1a ∧
    Named (str! "arrow1b") PtsTree arrow1b v.arrow1b ∧ Named (str! "arrow2a") PtsTree arrow2a v.arrow2a ∧
    Named (str! "arrow2b") PtsTree arrow2b v.arrow2b

/-! ## Zones -/

/-- `(hatch style pitch)` -/
def HatchTree (e : Sexp) (v : Hatch F) : Prop :=
  ∃ pitch,
    e = .list (.str (str! "hatch") :: .str v.style :: pitch :: []) ∧ NumTree pitch v.pitch

/-- `(connect_pads [word] (clearance x))` -/
def ConnectPadsTree (e : Sexp) (v : ConnectPads F) : Prop :=
  ∃ connection clearance,
    e = .list (.str (str! "connect_pads") :: (connection ++ (clearance :: []))) ∧
    Opt WordTree connection v.connection ∧ Named (str! "clearance") NumTree clearance v.clearance

/-- A word that forbids something if it begins with `not`. -/
def AllowedTree (e : Sexp) (b : Bool) : Prop := ∃ w, e = .str w ∧ (b = false ↔ ∃ r, w = str! "not" ++ r)

/-- `(keepout (tracks word) (vias word) (copperpour word))` -/
def KeepoutTree (e : Sexp) (k : Keepout) : Prop :=
  ∃ tracks vias copperpour, e = .list [.str (str! "keepout"), tracks, vias, copperpour] ∧
    Named (str! "tracks") AllowedTree tracks k.tracks ∧ Named (str! "vias") AllowedTree vias k.vias ∧
    Named (str! "copperpour") AllowedTree copperpour k.copperpour

/-- `(fill [yes] [(mode word)] (arc_segments n) (thermal_gap x) (thermal_bridge_width x) [(smoothing word)] [(radius x)])` -/
def FillTree (e : Sexp) (v : Fill F) : Prop :=
  ∃ filled segment arcSegments thermalGap thermalBridgeWidth smoothing cornerRadius o_segment o_cornerRadius,
    e = .list (.str (str! "fill") :: (filled ++ (segment ++ (arcSegments :: thermalGap :: thermalBridgeWidth :: (smoothing ++ cornerRadius))))) ∧
    filled = (if v.filled then [.str (str! "yes")] else []) ∧
    Opt (Named (str! "mode") WordTree) segment o_segment ∧
    Named (str! "arc_segments") IntTree arcSegments v.arcSegments ∧
    Named (str! "thermal_gap") NumTree thermalGap v.thermalGap ∧
    Named (str! "thermal_bridge_width") NumTree thermalBridgeWidth v.thermalBridgeWidth ∧
    Opt (Named (str! "smoothing") WordTree) smoothing v.smoothing ∧
    Opt (Named (str! "radius") NumTree) cornerRadius o_cornerRadius ∧ v.segment = o_segment.isSome ∧
    v.cornerRadius = o_cornerRadius.getD zero

/-- What the last parts of a zone say. -/
inductive ZoneItem (F : Type)
  | polygon (p : List (Fp.Xy F))
  | filledPolygon (p : List (Fp.Xy F))
  | fillSegments (p : List (Fp.Xy F))
  | other (e : Sexp)

def ZoneItem.polygon? {F : Type} : ZoneItem F → Option (List (Fp.Xy F)) | .polygon p => some p | _ => none
def ZoneItem.filledPolygon? {F : Type} : ZoneItem F → Option (List (Fp.Xy F)) | .filledPolygon p => some p | _ => none
def ZoneItem.fillSegments? {F : Type} : ZoneItem F → Option (List (Fp.Xy F)) | .fillSegments p => some p | _ => none
def ZoneItem.other? {F : Type} : ZoneItem F → Option Sexp | .other e => some e | _ => none

/-- The last parts of a zone; anything that is not a well-formed polygon is kept as it is. -/
inductive ZoneItemTree : Sexp → ZoneItem F → Prop
  | polygon {e p} (h : Named (str! "polygon") PtsTree e p) : ZoneItemTree e (.polygon p)
  | filledPolygon {e p} (h : Named (str! "filled_polygon") PtsTree e p) : ZoneItemTree e (.filledPolygon p)
  | fillSegments {e p} (h : Named (str! "fill_segments") PtsTree e p) : ZoneItemTree e (.fillSegments p)
  | other {e} (h : ∀ name ∈ [str! "polygon", str! "filled_polygon", str! "fill_segments"],
      ∀ p : List (Fp.Xy F), ¬ Named name PtsTree e p) : ZoneItemTree e (.other e)

/-- `(zone (net n) (net_name word) layer (tstamp word) hatch [(priority n)] connect_pads
(min_thickness x) [keepout] fill item …)`; the priority is taken modulo 2^64. -/
def ZoneTree (e : Sexp) (z : Zone F) : Prop :=
  ∃ net netName layer tstamp hatch priority connectPads minThickness keepout fill items o is,
    e = .list (.str (str! "zone") :: net :: netName :: layer :: tstamp :: hatch ::
      (priority ++ connectPads :: minThickness :: (keepout ++ fill :: items))) ∧
    Named (str! "net") IntTree net z.net ∧ Named (str! "net_name") WordTree netName z.netName ∧
    LayerTree layer z.layer ∧ Named (str! "tstamp") WordTree tstamp z.tstamp ∧ HatchTree hatch z.hatch ∧
    Opt (Named (str! "priority") IntTree) priority o ∧ ConnectPadsTree connectPads z.connectPads ∧
    Named (str! "min_thickness") NumTree minThickness z.minThickness ∧ Opt KeepoutTree keepout z.keepout ∧
    FillTree fill z.fill ∧ Many ZoneItemTree items is ∧
    (z.priority : Int) = o.getD 0 % 18446744073709551616 ∧
    z.polygons = is.filterMap ZoneItem.polygon? ∧ z.filledPolygons = is.filterMap ZoneItem.filledPolygon? ∧
    z.fillSegments = (is.filterMap ZoneItem.fillSegments?).getLast? ∧ z.other = is.filterMap ZoneItem.other?

/-! ## Tracks -/

/-- `(segment point point (width w) layer (net n) [(tstamp word)] [(status word)])` -/
def SegmentTree (e : Sexp) (v : Segment F) : Prop :=
  ∃ start end_ width layer net tstamp status,
    e = .list (.str (str! "segment") :: start :: end_ :: width :: layer :: net :: (tstamp ++ status)) ∧
    XyTree start v.start ∧ XyTree end_ v.end_ ∧ Named (str! "width") NumTree width v.width ∧
    LayerTree layer v.layer ∧ Named (str! "net") IntTree net v.net ∧
    Opt (Named (str! "tstamp") WordTree) tstamp v.tstamp ∧ Opt (Named (str! "status") WordTree) status v.status

/-- `(via [blind] [micro] at (size x) [(drill x)] layers [(net n)])` -/
def ViaTree (e : Sexp) (v : Via F) : Prop :=
  ∃ blind micro at_ size drill layers net dd nn,
    e = .list (.str (str! "via") :: (blind ++ (micro ++ at_ :: size :: (drill ++ layers :: net)))) ∧
    blind = (if v.blind then [.str (str! "blind")] else []) ∧ micro = (if v.micro then [.str (str! "micro")] else []) ∧
    AtTree at_ v.at_ ∧ Named (str! "size") NumTree size v.size ∧ Opt (Named (str! "drill") NumTree) drill dd ∧
    LayersTree layers v.layers ∧ Opt (Named (str! "net") IntTree) net nn ∧
    v.drill = dd.getD zero ∧ v.net = nn.getD 0

/-! ## Boards -/

/-- What a part of a board says. -/
inductive BoardPart (F : Type)
  | version (i : Int)
  | host (h : Host)
  | general (g : General F)
  | page (s : Str)
  | layers (l : List Layer)
  | setup (s : Setup)
  | element (e : Elem F)

def BoardPart.version? {F : Type} : BoardPart F → Option Int | .version x => some x | _ => none
def BoardPart.host? {F : Type} : BoardPart F → Option Host | .host x => some x | _ => none
def BoardPart.general? {F : Type} : BoardPart F → Option (General F) | .general x => some x | _ => none
def BoardPart.page? {F : Type} : BoardPart F → Option Str | .page x => some x | _ => none
def BoardPart.layers? {F : Type} : BoardPart F → Option (List Layer) | .layers x => some x | _ => none
def BoardPart.setup? {F : Type} : BoardPart F → Option Setup | .setup x => some x | _ => none
def BoardPart.element? {F : Type} : BoardPart F → Option (Elem F) | .element x => some x | _ => none

/-- The names that have a meaning in a board. -/
def boardPartNames : List Str :=
  [str! "version", str! "host", str! "general", str! "page", str! "layers", str! "module", str! "net", str! "net_class",
   str! "gr_text", str! "gr_line", str! "gr_arc", str! "gr_circle", str! "dimension", str! "zone", str! "segment",
   str! "via", str! "setup"]

/-- The parts of a board; lists with other names are kept as they are. -/
inductive BoardPartTree : Sexp → BoardPart F → Prop
  | version {e i} (h : Named (str! "version") IntTree e i) : BoardPartTree e (.version i)
  | host {e x} (h : HostTree e x) : BoardPartTree e (.host x)
  | general {e x} (h : GeneralTree e x) : BoardPartTree e (.general x)
  | page {e s} (h : Named (str! "page") WordTree e s) : BoardPartTree e (.page s)
  | layers {e x} (h : BoardLayersTree e x) : BoardPartTree e (.layers x)
  | setup {e x} (h : SetupTree e x) : BoardPartTree e (.setup x)
  | module_ {e x} (h : ModuleTree e x) : BoardPartTree e (.element (.module_ x))
  | net {e x} (h : NetTree e x) : BoardPartTree e (.element (.net x))
  | netClass {e x} (h : NetClassTree e x) : BoardPartTree e (.element (.netClass x))
  | grText {e x} (h : GrTextTree e x) : BoardPartTree e (.element (.grText x))
  | grLine {e x} (h : GrLineTree e x) : BoardPartTree e (.element (.grLine x))
  | grArc {e x} (h : GrArcTree e x) : BoardPartTree e (.element (.grArc x))
  | grCircle {e x} (h : GrCircleTree e x) : BoardPartTree e (.element (.grCircle x))
  | dimension {e x} (h : DimensionTree e x) : BoardPartTree e (.element (.dimension x))
  | zone {e x} (h : ZoneTree e x) : BoardPartTree e (.element (.zone x))
  | segment {e x} (h : SegmentTree e x) : BoardPartTree e (.element (.segment x))
  | via {e x} (h : ViaTree e x) : BoardPartTree e (.element (.via x))
  | other {n r} (h : n ∉ boardPartNames) : BoardPartTree (.list (.str n :: r)) (.element (.other (.list (.str n :: r))))

/-- `(kicad_pcb part …)`, in any order: of the heading the last part of a kind counts, the
elements keep their order. -/
def BoardTree (e : Sexp) (b : Layout F) : Prop :=
  ∃ parts is, e = .list (.str (str! "kicad_pcb") :: parts) ∧ Many BoardPartTree parts is ∧
    b.version = (is.filterMap BoardPart.version?).getLast?.getD 4 ∧
    b.host = (is.filterMap BoardPart.host?).getLast?.getD ⟨str! "pcbnew", str! "custom"⟩ ∧
    b.general = (is.filterMap BoardPart.general?).getLast?.getD
      ⟨0, 0, ⟨zero, zero, zero, zero⟩, lit 16 1, 0, 0, 0, 0, 0⟩ ∧
    b.page = (is.filterMap BoardPart.page?).getLast?.getD (str! "A4") ∧
    b.layers = (is.filterMap BoardPart.layers?).getLast?.getD [] ∧
    b.setup = (is.filterMap BoardPart.setup?).getLast?.getD ⟨[], []⟩ ∧
    b.elements = is.filterMap BoardPart.element?

/-- A text that stands for a board. -/
def BoardText (t : Str) (b : Layout F) : Prop := ∃ e, TreeText t e ∧ BoardTree e b

end Verif.Spec
