import Verif.Model.Layout.Data
import Verif.Spec.Footprint
/-!
# Specification vocabulary for layouts

Nothing here is used by the model; these definitions say what the property
theorems claim.
-/

namespace Verif.Spec
open Verif Flt

variable {F : Type}

/-- The net names an element mentions, in order: a net, the members of a net
class, the nets of the pads of a module, the net of a zone. -/
def boardNames : Lay.Elem F → List Str
  | .net n => [n.name]
  | .netClass nc => nc.nets
  | .module_ m => m.elements.flatMap netNames
  | .zone z => [z.netName]
  | _ => []

/-- An element with its net names replaced by a fixed text: everything but the
names. -/
def eraseBoardNames : Lay.Elem F → Lay.Elem F
  | .net n => .net { n with name := [] }
  | .netClass nc => .netClass { nc with nets := nc.nets.map fun _ => [] }
  | .module_ m => .module_ { m with elements := m.elements.map eraseNetName }
  | .zone z => .zone { z with netName := [] }
  | e => e

/-- All net names of a layout, in order. -/
def layoutNames (l : Lay.Layout F) : List Str := l.elements.flatMap boardNames

/-- Everything of a layout but its net names. -/
def eraseLayoutNames (l : Lay.Layout F) : Lay.Layout F :=
  { l with elements := l.elements.map eraseBoardNames }

/-- A point of a polygon as a pair. -/
def xyPair (p : Fp.Xy F) : F × F := (p.x, p.y)

/-- A location as a pair. -/
def atPair (p : Fp.At F) : F × F := (p.x, p.y)

/-- The location of a footprint element, if it is the footprint's own location. -/
def ownAt : Fp.Elem F → Option (F × F)
  | .at_ a => some (a.x, a.y)
  | _ => none

/-- The board points an element is placed with: the location of a module, the
ends of lines, arcs and tracks, centre and rim point of circles, the location of
texts and vias, the corners of zones, and all points of a dimension. -/
def boardPoints : Lay.Elem F → List (F × F)
  | .module_ m => m.elements.filterMap ownAt
  | .grText t => [atPair t.at_]
  | .grLine l => [xyPair l.start, xyPair l.end_]
  | .grArc l => [xyPair l.start, xyPair l.end_]
  | .grCircle l => [xyPair l.center, xyPair l.end_]
  | .segment l => [xyPair l.start, xyPair l.end_]
  | .via v => [atPair v.at_]
  | .zone z => (z.polygons.flatten ++ z.filledPolygons.flatten ++ z.fillSegments.getD []).map xyPair
  | .dimension d => atPair d.text.at_ ::
      (d.feature1 ++ d.feature2 ++ d.crossbar ++ d.arrow1a ++ d.arrow1b ++ d.arrow2a ++ d.arrow2b).map
        xyPair
  | _ => []

/-- A point at the origin, of the same kind. -/
def atOrigin [Flt F] (p : Fp.Xy F) : Fp.Xy F := { p with x := zero, y := zero }

/-- A location at the origin, with the same rotation. -/
def locOrigin [Flt F] (p : Fp.At F) : Fp.At F := { p with x := zero, y := zero }

/-- An element with all its board points at the origin: everything but the
points. -/
def eraseBoardPoints [Flt F] : Lay.Elem F → Lay.Elem F
  | .module_ m => .module_ { m with elements := m.elements.map fun e =>
      match e with | .at_ a => .at_ (locOrigin a) | e => e }
  | .grText t => .grText { t with at_ := locOrigin t.at_ }
  | .grLine l => .grLine { l with start := atOrigin l.start, end_ := atOrigin l.end_ }
  | .grArc l => .grArc { l with start := atOrigin l.start, end_ := atOrigin l.end_ }
  | .grCircle l => .grCircle { l with center := atOrigin l.center, end_ := atOrigin l.end_ }
  | .segment l => .segment { l with start := atOrigin l.start, end_ := atOrigin l.end_ }
  | .via v => .via { v with at_ := locOrigin v.at_ }
  | .zone z => .zone { z with
      polygons := z.polygons.map (·.map atOrigin)
      filledPolygons := z.filledPolygons.map (·.map atOrigin)
      fillSegments := z.fillSegments.map (·.map atOrigin) }
  | .dimension d => .dimension { d with
      text := { d.text with at_ := locOrigin d.text.at_ }
      feature1 := d.feature1.map atOrigin
      feature2 := d.feature2.map atOrigin
      crossbar := d.crossbar.map atOrigin
      arrow1a := d.arrow1a.map atOrigin
      arrow1b := d.arrow1b.map atOrigin
      arrow2a := d.arrow2a.map atOrigin
      arrow2b := d.arrow2b.map atOrigin }
  | e => e

/-- The corner points that describe the extent of a board element: its points,
and for circles and vias the corners of the square around them.  Modules have
their own box (property C26). -/
def boardExtent [Flt F] : Lay.Elem F → List (F × F)
  | .module_ _ => []
  | .grCircle c =>
    let r := sqrt (add (mul (sub c.center.x c.end_.x) (sub c.center.x c.end_.x))
      (mul (sub c.center.y c.end_.y) (sub c.center.y c.end_.y)))
    [(sub c.center.x r, sub c.center.y r), (c.center.x, c.center.y),
     (add c.center.x r, add c.center.y r)]
  | .via v =>
    [(sub v.at_.x v.size, sub v.at_.y v.size), (v.at_.x, v.at_.y),
     (add v.at_.x v.size, add v.at_.y v.size)]
  | e => boardPoints e

/-- A small layout with a net, a net class, a module with a pad, and a zone. -/
def sampleBoard [Flt F] : Lay.Layout F :=
  { (Lay.Layout.dflt : Lay.Layout F) with
    elements := [
      .net ⟨1, str! "/a/gnd"⟩,
      .netClass ⟨str! "Default", [], zero, zero, zero, zero, zero, zero, none, none,
        [str! "vcc", str! "/a/gnd"]⟩,
      .module_ ⟨str! "R", [.text { Fp.FpText.new (str! "reference") (str! "R1") with at_ := Fp.At.dflt },
        .at_ ⟨lit 3 0, lit 4 0, zero⟩,
        .pad { Fp.Pad.new (str! "1") .smd .rect with net := some ⟨1, str! "/a/gnd"⟩ }]⟩,
      .grLine ⟨⟨lit 1 0, zero, .start⟩, ⟨lit 5 0, lit 2 0, .end_⟩, zero, ⟨.front, .silkS⟩, lit 1 0, none⟩] }

end Verif.Spec
