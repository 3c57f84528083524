import Verif.Model.Layout.Data
import Verif.Model.Schematic
import Verif.Model.SymbolLib
/-!
# The same file with other numbers

The content of a file with every number replaced by its image under a function; everything else
stays as it is.
-/

namespace Verif

namespace Fp
variable {C F : Type} (f : C → F)

/-- A point. -/
def Xy.conv (p : Xy C) : Xy F := ⟨f p.x, f p.y, p.t⟩

/-- A position. -/
def At.conv (p : At C) : At F := ⟨f p.x, f p.y, f p.rot⟩

/-- A font. -/
def Font.conv (p : Font C) : Font F := ⟨p.size.conv f, f p.thickness, p.italic⟩

/-- Text effects. -/
def Effects.conv (p : Effects C) : Effects F := ⟨p.font.conv f, p.justify⟩

/-- A text. -/
def FpText.conv (p : FpText C) : FpText F := ⟨p.name, p.value, p.at_.conv f, p.layer, p.effects.conv f, p.hide⟩

/-- A drill. -/
def Drill.conv (p : Drill C) : Drill F := ⟨p.shape, f p.width, f p.height, f p.offsetX, f p.offsetY⟩

/-- A pad. -/
def Pad.conv (p : Pad C) : Pad F :=
  ⟨p.name, p.t, p.shape, p.size.conv f, p.rectDelta.map (Xy.conv f), p.at_.conv f, p.layers, p.net, p.zoneConnect,
    p.drill.map (Drill.conv f), p.solderPasteMargin.map f, p.solderMaskMargin.map f, p.clearance.map f,
    p.thermalGap.map f⟩

/-- A polygon. -/
def FpPoly.conv (p : FpPoly C) : FpPoly F := ⟨p.pts.map (Xy.conv f), f p.width, p.layer⟩

/-- A line. -/
def FpLine.conv (p : FpLine C) : FpLine F := ⟨p.start.conv f, p.end_.conv f, p.layer, f p.width⟩

/-- A circle. -/
def FpCircle.conv (p : FpCircle C) : FpCircle F := ⟨p.center.conv f, p.end_.conv f, p.layer, f p.width⟩

/-- An arc. -/
def FpArc.conv (p : FpArc C) : FpArc F := ⟨p.start.conv f, p.end_.conv f, f p.angle, p.layer, f p.width⟩

/-- A triple. -/
def Xyz.conv (p : Xyz C) : Xyz F := ⟨f p.x, f p.y, f p.z⟩

/-- A three-dimensional model. -/
def Model.conv (p : Model C) : Model F := ⟨p.name, p.at_.conv f, p.scale.conv f, p.rotate.conv f⟩

/-- An element of a footprint. -/
def Elem.conv : Elem C → Elem F
  | .solderMaskMargin x => .solderMaskMargin (f x)
  | .layer l => .layer l
  | .descr s => .descr s
  | .tags s => .tags s
  | .attr s => .attr s
  | .text t => .text (t.conv f)
  | .pad p => .pad (p.conv f)
  | .poly p => .poly (p.conv f)
  | .line p => .line (p.conv f)
  | .circle p => .circle (p.conv f)
  | .arc p => .arc (p.conv f)
  | .tedit i => .tedit i
  | .tstamp i => .tstamp i
  | .path s => .path s
  | .at_ a => .at_ (a.conv f)
  | .model m => .model (m.conv f)
  | .clearance x => .clearance (f x)
  | .locked => .locked

/-- A footprint. -/
def Module.conv (m : Module C) : Module F := ⟨m.name, m.elements.map (Elem.conv f)⟩

end Fp

namespace Lay
variable {C F : Type} (f : C → F)

/-- The points of a polygon. -/
def convPts (l : List (Fp.Xy C)) : List (Fp.Xy F) := l.map (Fp.Xy.conv f)

/-- The hatching of a zone. -/
def Hatch.conv (h : Hatch C) : Hatch F := ⟨h.style, f h.pitch⟩

/-- The connection of pads to a zone. -/
def ConnectPads.conv (c : ConnectPads C) : ConnectPads F := ⟨c.connection, f c.clearance⟩

/-- The filling of a zone. -/
def Fill.conv (x : Fill C) : Fill F :=
  ⟨x.filled, x.segment, x.arcSegments, f x.thermalGap, f x.thermalBridgeWidth, x.smoothing, f x.cornerRadius⟩

/-- A zone. -/
def Zone.conv (z : Zone C) : Zone F :=
  ⟨z.net, z.netName, z.layer, z.tstamp, z.hatch.conv f, z.priority, z.connectPads.conv f, f z.minThickness, z.keepout,
    z.fill.conv f, z.polygons.map (convPts f), z.filledPolygons.map (convPts f), z.fillSegments.map (convPts f), z.other⟩

/-- An area. -/
def Area.conv (a : Area C) : Area F := ⟨f a.x1, f a.y1, f a.x2, f a.y2⟩

/-- The general section. -/
def General.conv (g : General C) : General F :=
  ⟨g.links, g.noConnects, g.area.conv f, f g.thickness, g.drawings, g.tracks, g.zones, g.modules, g.nets⟩

/-- A net class. -/
def NetClass.conv (n : NetClass C) : NetClass F :=
  ⟨n.name, n.desc, f n.clearance, f n.traceWidth, f n.viaDia, f n.viaDrill, f n.uviaDia, f n.uviaDrill,
    n.diffPairGap.map f, n.diffPairWidth.map f, n.nets⟩

/-- A text. -/
def GrText.conv (t : GrText C) : GrText F := ⟨t.value, t.at_.conv f, t.layer, t.effects.conv f, t.tstamp⟩

/-- A line. -/
def GrLine.conv (l : GrLine C) : GrLine F := ⟨l.start.conv f, l.end_.conv f, f l.angle, l.layer, f l.width, l.tstamp⟩

/-- An arc. -/
def GrArc.conv (l : GrArc C) : GrArc F := ⟨l.start.conv f, l.end_.conv f, f l.angle, l.layer, f l.width, l.tstamp⟩

/-- A circle. -/
def GrCircle.conv (l : GrCircle C) : GrCircle F := ⟨l.center.conv f, l.end_.conv f, l.layer, f l.width, l.tstamp⟩

/-- A dimension. -/
def Dimension.conv (d : Dimension C) : Dimension F :=
  ⟨d.name, f d.width, d.layer, d.tstamp, d.text.conv f, convPts f d.feature1, convPts f d.feature2, convPts f d.crossbar,
    convPts f d.arrow1a, convPts f d.arrow1b, convPts f d.arrow2a, convPts f d.arrow2b⟩

/-- A track segment. -/
def Segment.conv (s : Segment C) : Segment F :=
  ⟨s.start.conv f, s.end_.conv f, f s.width, s.layer, s.net, s.tstamp, s.status⟩

/-- A via. -/
def Via.conv (v : Via C) : Via F := ⟨v.blind, v.micro, v.at_.conv f, f v.size, f v.drill, v.layers, v.net⟩

/-- An element of a layout. -/
def Elem.conv : Elem C → Elem F
  | .module_ m => .module_ (m.conv f)
  | .net n => .net n
  | .netClass n => .netClass (n.conv f)
  | .grText t => .grText (t.conv f)
  | .grLine l => .grLine (l.conv f)
  | .grArc a => .grArc (a.conv f)
  | .grCircle c => .grCircle (c.conv f)
  | .dimension d => .dimension (d.conv f)
  | .segment s => .segment (s.conv f)
  | .via v => .via (v.conv f)
  | .zone z => .zone (z.conv f)
  | .other s => .other s

/-- A layout. -/
def Layout.conv (l : Layout C) : Layout F :=
  ⟨l.version, l.host, l.general.conv f, l.page, l.setup, l.layers, l.elements.map (Elem.conv f)⟩

end Lay

namespace Sch
variable {C F : Type} (f : C → F)

/-- A field of a component. -/
def Field.conv (x : Field C) : Field F :=
  ⟨x.i, x.value, x.orientation, f x.x, f x.y, x.size, x.visible, x.hjustify, x.vjustify, x.italic, x.bold, x.name⟩

/-- A component. -/
def Component.conv (c : Component C) : Component F :=
  ⟨c.name, c.reference, c.u, c.x, c.y, c.arPath, c.fields.map (Field.conv f), c.rotation⟩

/-- An element of a schematic. -/
def Element.conv : Element C → Element F
  | .component c => .component (c.conv f)
  | .wire w => .wire w
  | .connection p => .connection p
  | .noConnect p => .noConnect p
  | .text t => .text t
  | .other s => .other s

/-- A schematic. -/
def Schematic.conv (s : Schematic C) : Schematic F :=
  ⟨s.filename, s.libraries, s.description, s.elements.map (Element.conv f), s.sheets, s.eelayer⟩

end Sch

namespace Lib
variable {C F : Type} (f : C → F)

/-- A field of a symbol. -/
def Field.conv (x : Field C) : Field F :=
  ⟨x.i, x.value, f x.x, f x.y, x.dimension, x.orientation, x.visible, x.hjustify, x.vjustify, x.italic, x.bold, x.name⟩

/-- A symbol. -/
def Symbol.conv (s : Symbol C) : Symbol F :=
  ⟨s.name, s.reference, f s.textOffset, s.drawPinnumber, s.drawPinname, s.unitCount, s.unitLocked, s.isPower,
    s.fields.map (Field.conv f), s.aliases, s.draw⟩

/-- A symbol library. -/
def SymbolLib.conv (l : SymbolLib C) : SymbolLib F := ⟨l.symbols.map (Symbol.conv f)⟩

end Lib

end Verif
