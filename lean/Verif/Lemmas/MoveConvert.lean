import Verif.Lemmas.ConvertTwice
/-!
# Moving a board whose numbers are replaced

Replacing the numbers of a board differently for the coordinates that a move changes and for the
others; a move is such a replacement.
-/

namespace Verif
open Flt

variable {A B : Type} (f fx fy : A → B)

namespace Lay

/-- A point. -/
def spreadXy (p : Fp.Xy A) : Fp.Xy B := ⟨fx p.x, fy p.y, p.t⟩

/-- A position. -/
def spreadAt (p : Fp.At A) : Fp.At B := ⟨fx p.x, fy p.y, f p.rot⟩

/-- Points. -/
def spreadPts (l : List (Fp.Xy A)) : List (Fp.Xy B) := l.map (spreadXy fx fy)

/-- An element of a footprint on a board. -/
def spreadPart : Fp.Elem A → Fp.Elem B
  | .at_ a => .at_ (spreadAt f fx fy a)
  | e => e.conv f

/-- A text. -/
def spreadText (t : GrText A) : GrText B := ⟨t.value, spreadAt f fx fy t.at_, t.layer, t.effects.conv f, t.tstamp⟩

/-- An element of a board. -/
def Elem.spread : Elem A → Elem B
  | .module_ m => .module_ ⟨m.name, m.elements.map (spreadPart f fx fy)⟩
  | .net n => .net n
  | .netClass n => .netClass (n.conv f)
  | .grText t => .grText (spreadText f fx fy t)
  | .grLine l => .grLine ⟨spreadXy fx fy l.start, spreadXy fx fy l.end_, f l.angle, l.layer, f l.width, l.tstamp⟩
  | .grArc l => .grArc ⟨spreadXy fx fy l.start, spreadXy fx fy l.end_, f l.angle, l.layer, f l.width, l.tstamp⟩
  | .grCircle l => .grCircle ⟨spreadXy fx fy l.center, spreadXy fx fy l.end_, l.layer, f l.width, l.tstamp⟩
  | .dimension d => .dimension ⟨d.name, f d.width, d.layer, d.tstamp, spreadText f fx fy d.text,
      spreadPts fx fy d.feature1, spreadPts fx fy d.feature2, spreadPts fx fy d.crossbar,
      spreadPts fx fy d.arrow1a, spreadPts fx fy d.arrow1b, spreadPts fx fy d.arrow2a, spreadPts fx fy d.arrow2b⟩
  | .segment s => .segment ⟨spreadXy fx fy s.start, spreadXy fx fy s.end_, f s.width, s.layer, s.net, s.tstamp, s.status⟩
  | .via v => .via ⟨v.blind, v.micro, spreadAt f fx fy v.at_, f v.size, f v.drill, v.layers, v.net⟩
  | .zone z => .zone ⟨z.net, z.netName, z.layer, z.tstamp, z.hatch.conv f, z.priority, z.connectPads.conv f,
      f z.minThickness, z.keepout, z.fill.conv f, z.polygons.map (spreadPts fx fy), z.filledPolygons.map (spreadPts fx fy),
      z.fillSegments.map (spreadPts fx fy), z.other⟩
  | .other s => .other s

/-- A board. -/
def Layout.spread (l : Layout A) : Layout B :=
  ⟨l.version, l.host, l.general.conv f, l.page, l.setup, l.layers, l.elements.map (Elem.spread f fx fy)⟩

variable {f fx fy}
variable {F : Type} [Flt F] {g : B → F} {h : A → F} {X Y : F}

theorem spreadPts_conv (hx : ∀ a, g (fx a) = add (h a) X) (hy : ∀ a, g (fy a) = add (h a) Y) (l : List (Fp.Xy A)) :
    convPts g (spreadPts fx fy l) = adjPts X Y (convPts h l) := by
  simp only [convPts, spreadPts, adjPts, List.map_map]
  refine List.map_congr_left fun p _ => ?_
  simp only [Function.comp, spreadXy, Fp.Xy.conv, adjXy, hx, hy]

theorem Elem.spread_conv (hf : ∀ a, g (f a) = h a) (hx : ∀ a, g (fx a) = add (h a) X)
    (hy : ∀ a, g (fy a) = add (h a) Y) (e : Elem A) : (e.spread f fx fy).conv g = (e.conv h).adjust X Y := by
  have hF : (fun a => g (f a)) = h := funext hf
  have hp := spreadPts_conv (g := g) hx hy
  cases e with
  | module_ m =>
    simp only [Elem.spread, Elem.conv, Elem.adjust, Fp.Module.conv, Fp.Module.adjust, List.map_map]
    refine congrArg Elem.module_ (congrArg _ (List.map_congr_left fun e _ => ?_))
    have back : (e.conv f).conv g = e.conv h := (Fp.Elem.conv_conv f g e).trans (by rw [hF])
    cases e with
    | at_ a => simp only [Function.comp, spreadPart, spreadAt, Fp.Elem.conv, Fp.At.conv, Fp.Module.adjustElem, hf, hx, hy]
    | _ => exact back
  | zone z =>
    simp only [Elem.spread, Elem.conv, Elem.adjust, Zone.conv, Zone.adjust, Hatch.conv, ConnectPads.conv, Fill.conv, hf,
      List.map_map, Option.map_map, Function.comp_def, hp]
  | dimension d =>
    simp only [Elem.spread, Elem.conv, Elem.adjust, Dimension.conv, Dimension.adjust, hp, hf, spreadText, GrText.conv,
      GrText.adjust, spreadAt, Fp.At.conv, adjAt, hx, hy, Fp.Effects.conv, Fp.Font.conv, Fp.Xy.conv]
  | netClass n =>
    simp only [Elem.spread, Elem.conv, Elem.adjust, NetClass.conv, hf, Option.map_map, Function.comp_def]
  | _ =>
    simp only [Elem.spread, Elem.conv, Elem.adjust, hf, spreadText, GrText.conv, GrText.adjust, spreadAt, Fp.At.conv, adjAt,
      hx, hy, Fp.Effects.conv, Fp.Font.conv, Fp.Xy.conv, GrLine.conv, GrArc.conv, GrCircle.conv, Segment.conv, Via.conv,
      spreadXy, adjXy]

/-- Replacing coordinates so that they read as moved ones moves the board. -/
theorem Layout.spread_conv (hf : ∀ a, g (f a) = h a) (hx : ∀ a, g (fx a) = add (h a) X)
    (hy : ∀ a, g (fy a) = add (h a) Y) (l : Layout A) : (l.spread f fx fy).conv g = (l.conv h).adjust X Y := by
  simp only [Layout.spread, Layout.conv, Layout.adjust, General.conv, Area.conv, hf, List.map_map]
  exact congrArg _ (List.map_congr_left fun e _ => Elem.spread_conv hf hx hy e)

end Lay

end Verif
