import Mathlib.Data.List.Forall2
import Verif.Spec.LayoutFile
import Verif.Model.Layout.Build
/-!
# Building footprints and boards from nothing

A generator describes each part by plain values (`FpPart`, `LayPart`) and makes
it with the constructors and setters of the library (`make`).  `Fits` says which
values the file format has room for, `Shows` when an element is the part that was
asked for; neither mentions how the element is made.
-/

namespace Verif.Spec
open Verif Flt Fp

variable {F : Type} [Flt F]

/-- The parts of a footprint, described by plain values. -/
inductive FpPart (F : Type)
  | text (kind value : Str) (x y rot : F) (layer : Layer) (w h thickness : F) (italic : Bool)
      (justify : Option Justify)
  | pad (name : Str) (t : PadType) (shape : PadShape) (x y rot w h : F) (layers : List Layer)
      (net : Option Net) (drill : Option F)
  | line (x1 y1 x2 y2 : F) (layer : Layer) (width : F)
  | silkLine (x1 y1 x2 y2 width : F)
  | circle (x y ex ey : F) (layer : Layer) (width : F)
  | arc (x y ex ey angle : F) (layer : Layer) (width : F)
  | poly (points : List (F × F)) (layer : Layer) (width : F)

/-- Making the part with the library's constructors and setters, and assigning
the fields for which there is no setter. -/
def FpPart.make : FpPart F → Elem F
  | .text kind value x y rot layer w h thickness italic justify =>
    let font : Font F := Font.dflt
    let font := { font with
      size := { font.size with x := w, y := h }, thickness := thickness, italic := italic }
    let t := ((FpText.new kind value).setLayer layer).setEffects (Effects.fromFont font justify)
    .text { t with at_ := At.new x y rot }
  | .pad name t shape x y rot w h layers net drill =>
    let p : Pad F := Pad.new name t shape
    let p := { p with at_ := At.new x y rot, size := { p.size with x := w, y := h } }
    let p := layers.foldl Pad.appendLayer p
    let p := match net with | some n => p.setNet n | none => p
    let p := match drill with
      | some d => p.setDrill { (Drill.dflt : Drill F) with width := d, height := d }
      | none => p
    .pad p
  | .line x1 y1 x2 y2 layer width =>
    let l : FpLine F := FpLine.dflt
    .line { l with start := { l.start with x := x1, y := y1 },
                   end_ := { l.end_ with x := x2, y := y2 }, layer := layer, width := width }
  | .silkLine x1 y1 x2 y2 width => .line (FpLine.make x1 y1 x2 y2 .silkS width)
  | .circle x y ex ey layer width =>
    let c : FpCircle F := FpCircle.dflt
    .circle { c with center := { c.center with x := x, y := y },
                     end_ := { c.end_ with x := ex, y := ey }, layer := layer, width := width }
  | .arc x y ex ey angle layer width =>
    let a : FpArc F := FpArc.dflt
    .arc { a with start := { a.start with x := x, y := y },
                  end_ := { a.end_ with x := ex, y := ey }, angle := angle, layer := layer,
                  width := width }
  | .poly points layer width =>
    let p : FpPoly F := FpPoly.dflt
    .poly { p with pts := points.map (fun q => Xy.new q.1 q.2 .xy), layer := layer, width := width }

/-- The values fit the file format: names survive quoting (`Clean`), layer names
the library can read, letters of positive size, a hole of positive width, a net
number of 64 bits. -/
def FpPart.Fits : FpPart F → Prop
  | .text kind value _ _ _ layer w _ _ _ _ =>
    Clean kind ∧ Clean value ∧ GoodLayer layer ∧ (∀ s ∈ layerStrings layer, Clean s) ∧
    lt zero w = true
  | .pad name _ _ _ _ _ _ _ layers net drill =>
    Clean name ∧ (∀ l ∈ layers, GoodLayer l ∧ ∀ s ∈ layerStrings l, Clean s) ∧
    (∀ n, net = some n → inI64 n.num ∧ Clean n.name) ∧ ∀ d, drill = some d → lt zero d = true
  | .line _ _ _ _ layer _ => GoodLayer layer ∧ ∀ s ∈ layerStrings layer, Clean s
  | .silkLine _ _ _ _ _ => True
  | .circle _ _ _ _ layer _ => GoodLayer layer ∧ ∀ s ∈ layerStrings layer, Clean s
  | .arc _ _ _ _ _ layer _ => GoodLayer layer ∧ ∀ s ∈ layerStrings layer, Clean s
  | .poly _ layer _ => GoodLayer layer ∧ ∀ s ∈ layerStrings layer, Clean s

/-- The element is the part that was asked for. -/
def FpPart.Shows : FpPart F → Elem F → Prop
  | .text kind value x y rot layer w h thickness italic justify, .text t =>
    t.name = kind ∧ t.value = value ∧ t.at_.x = x ∧ t.at_.y = y ∧ t.at_.rot = rot ∧
    t.layer = layer ∧ t.effects.font.size.x = w ∧ t.effects.font.size.y = h ∧
    t.effects.font.thickness = thickness ∧ t.effects.font.italic = italic ∧
    t.effects.justify = justify ∧ t.hide = false
  | .pad name t shape x y rot w h layers net drill, .pad p =>
    p.name = name ∧ p.t = t ∧ p.shape = shape ∧ p.at_.x = x ∧ p.at_.y = y ∧ p.at_.rot = rot ∧
    p.size.x = w ∧ p.size.y = h ∧ p.layers = layers ∧ p.net = net ∧
    p.drill.map (·.width) = drill ∧ p.drill.map (·.height) = drill ∧ p.clearance = none ∧
    p.zoneConnect = none ∧ p.rectDelta = none
  | .line x1 y1 x2 y2 layer width, .line l =>
    l.start.x = x1 ∧ l.start.y = y1 ∧ l.end_.x = x2 ∧ l.end_.y = y2 ∧ l.layer = layer ∧
    l.width = width
  | .silkLine x1 y1 x2 y2 width, .line l =>
    l.start.x = x1 ∧ l.start.y = y1 ∧ l.end_.x = x2 ∧ l.end_.y = y2 ∧
    l.layer = ⟨.front, .silkS⟩ ∧ l.width = width
  | .circle x y ex ey layer width, .circle c =>
    c.center.x = x ∧ c.center.y = y ∧ c.end_.x = ex ∧ c.end_.y = ey ∧ c.layer = layer ∧
    c.width = width
  | .arc x y ex ey angle layer width, .arc a =>
    a.start.x = x ∧ a.start.y = y ∧ a.end_.x = ex ∧ a.end_.y = ey ∧ a.angle = angle ∧
    a.layer = layer ∧ a.width = width
  | .poly points layer width, .poly p =>
    p.pts.map (fun q => (q.x, q.y)) = points ∧ p.layer = layer ∧ p.width = width
  | _, _ => False

/-- The footprint of that name made of these parts. -/
def buildModule (name : Str) (parts : List (FpPart F)) : Module F :=
  parts.foldl (fun m p => m.append p.make) (Module.new name)

/-- The parts of a board, described by plain values. -/
inductive LayPart (F : Type)
  | footprint (name : Str) (parts : List (FpPart F))
  | text (value : Str) (x y rot : F) (layer : Layer) (w : F)
  | line (x1 y1 x2 y2 : F) (layer : Layer) (width : F)
  | arc (x y ex ey angle : F) (layer : Layer) (width : F)
  | circle (x y ex ey : F) (layer : Layer) (width : F)
  | track (x1 y1 x2 y2 width : F) (layer : Layer) (net : Int)
  | via (x y size drill : F) (layers : List Layer) (net : Int)

/-- Making the part from the element's default by assigning the fields. -/
def LayPart.make : LayPart F → Lay.Elem F
  | .footprint name parts => .module_ (buildModule name parts)
  | .text value x y rot layer w =>
    let t : Lay.GrText F := Lay.GrText.dflt
    .grText { t with value := value, at_ := At.new x y rot, layer := layer, effects :=
      { t.effects with font :=
        { t.effects.font with size := { t.effects.font.size with x := w, y := w } } } }
  | .line x1 y1 x2 y2 layer width =>
    let l : Lay.GrLine F := Lay.GrLine.dflt
    .grLine { l with start := { l.start with x := x1, y := y1 },
                     end_ := { l.end_ with x := x2, y := y2 }, layer := layer, width := width }
  | .arc x y ex ey angle layer width =>
    let a : Lay.GrArc F := Lay.GrArc.dflt
    .grArc { a with start := { a.start with x := x, y := y },
                    end_ := { a.end_ with x := ex, y := ey }, angle := angle, layer := layer,
                    width := width }
  | .circle x y ex ey layer width =>
    let c : Lay.GrCircle F := Lay.GrCircle.dflt
    .grCircle { c with center := { c.center with x := x, y := y },
                       end_ := { c.end_ with x := ex, y := ey }, layer := layer, width := width }
  | .track x1 y1 x2 y2 width layer net =>
    let s : Lay.Segment F := Lay.Segment.dflt
    .segment { s with start := { s.start with x := x1, y := y1 },
                      end_ := { s.end_ with x := x2, y := y2 }, width := width, layer := layer,
                      net := net }
  | .via x y size drill layers net =>
    let v : Lay.Via F := Lay.Via.dflt
    .via { v with at_ := At.new x y zero, size := size, drill := drill, layers := layers, net := net }

/-- The values fit the file format. -/
def LayPart.Fits : LayPart F → Prop
  | .footprint name parts => Clean name ∧ ∀ p ∈ parts, p.Fits
  | .text value _ _ _ layer w =>
    Clean value ∧ GoodLayer layer ∧ (∀ s ∈ layerStrings layer, Clean s) ∧ lt zero w = true
  | .line _ _ _ _ layer _ => GoodLayer layer ∧ ∀ s ∈ layerStrings layer, Clean s
  | .arc _ _ _ _ _ layer _ => GoodLayer layer ∧ ∀ s ∈ layerStrings layer, Clean s
  | .circle _ _ _ _ layer _ => GoodLayer layer ∧ ∀ s ∈ layerStrings layer, Clean s
  | .track _ _ _ _ _ layer net => GoodLayer layer ∧ (∀ s ∈ layerStrings layer, Clean s) ∧ inI64 net
  | .via _ _ _ _ layers net =>
    (∀ l ∈ layers, GoodLayer l ∧ ∀ s ∈ layerStrings l, Clean s) ∧ inI64 net

/-- The element is the part that was asked for. -/
def LayPart.Shows : LayPart F → Lay.Elem F → Prop
  | .footprint name parts, .module_ m => m.name = name ∧ List.Forall₂ FpPart.Shows parts m.elements
  | .text value x y rot layer w, .grText t =>
    t.value = value ∧ t.at_.x = x ∧ t.at_.y = y ∧ t.at_.rot = rot ∧ t.layer = layer ∧
    t.effects.font.size.x = w ∧ t.effects.font.size.y = w
  | .line x1 y1 x2 y2 layer width, .grLine l =>
    l.start.x = x1 ∧ l.start.y = y1 ∧ l.end_.x = x2 ∧ l.end_.y = y2 ∧ l.layer = layer ∧
    l.width = width
  | .arc x y ex ey angle layer width, .grArc a =>
    a.start.x = x ∧ a.start.y = y ∧ a.end_.x = ex ∧ a.end_.y = ey ∧ a.angle = angle ∧
    a.layer = layer ∧ a.width = width
  | .circle x y ex ey layer width, .grCircle c =>
    c.center.x = x ∧ c.center.y = y ∧ c.end_.x = ex ∧ c.end_.y = ey ∧ c.layer = layer ∧
    c.width = width
  | .track x1 y1 x2 y2 width layer net, .segment s =>
    s.start.x = x1 ∧ s.start.y = y1 ∧ s.end_.x = x2 ∧ s.end_.y = y2 ∧ s.width = width ∧
    s.layer = layer ∧ s.net = net
  | .via x y size drill layers net, .via v =>
    v.at_.x = x ∧ v.at_.y = y ∧ v.size = size ∧ v.drill = drill ∧ v.layers = layers ∧ v.net = net ∧
    v.blind = false ∧ v.micro = false
  | _, _ => False

/-- The board made of these parts, starting from `Layout::default()`. -/
def buildLayout (parts : List (LayPart F)) : Lay.Layout F :=
  { (Lay.Layout.dflt : Lay.Layout F) with elements := parts.map LayPart.make }

end Verif.Spec
