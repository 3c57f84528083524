import Verif.Spec.Convert
import Verif.Model.Layout.Codec
/-!
# Writers and numbers

Two ways of turning numbers into the numbers of a machine that agree on their text and on the few
questions the writers ask about numbers give the same files.
-/

namespace Verif
open Flt

/-- Two images of the same numbers are written alike. -/
structure Alike {C F G : Type} [Flt F] [Flt G] (f : C → F) (g : C → G) : Prop where
  text : ∀ c, toStr (f c) = toStr (g c)
  isZero : ∀ c, feq (f c) zero = feq (g c) zero
  pos : ∀ c, lt zero (f c) = lt zero (g c)
  apart : ∀ a b, lt eps (Flt.abs (sub (f a) (f b))) = lt eps (Flt.abs (sub (g a) (g b)))

variable {C F G : Type} [Flt F] [Flt G] {f : C → F} {g : C → G}

namespace Alike

theorem ofF (h : Alike f g) (c : C) : Sx.ofF (f c) = Sx.ofF (g c) := by
  unfold Sx.ofF; rw [h.text]

theorem optPair (h : Alike f g) (n : Str) (x : Option C) :
    Fp.optPair n Sx.ofF (x.map f) = Fp.optPair n Sx.ofF (x.map g) := by
  cases x with
  | none => rfl
  | some c => simp only [Option.map_some, Fp.optPair, h.ofF]

/-! ## Footprints -/

theorem xy (h : Alike f g) (p : Fp.Xy C) : (p.conv f).ser = (p.conv g).ser := by
  simp only [Fp.Xy.conv, Fp.Xy.ser, h.ofF]

theorem at_ (h : Alike f g) (p : Fp.At C) : (p.conv f).ser = (p.conv g).ser := by
  simp only [Fp.At.conv, Fp.At.ser, h.ofF, h.isZero]
  rfl

theorem font (h : Alike f g) (p : Fp.Font C) : (p.conv f).ser = (p.conv g).ser := by
  simp only [Fp.Font.conv, Fp.Font.ser, Fp.Xy.conv, h.ofF, h.pos]
  rfl

theorem effects (h : Alike f g) (p : Fp.Effects C) : (p.conv f).ser = (p.conv g).ser := by
  simp only [Fp.Effects.conv, Fp.Effects.ser, h.font]

theorem pts (h : Alike f g) (l : List (Fp.Xy C)) : Fp.Pts.ser (l.map (Fp.Xy.conv f)) = Fp.Pts.ser (l.map (Fp.Xy.conv g)) := by
  simp only [Fp.Pts.ser, List.map_map, Function.comp_def, h.xy]

theorem drill (h : Alike f g) (p : Fp.Drill C) : (p.conv f).ser = (p.conv g).ser := by
  simp only [Fp.Drill.conv, Fp.Drill.ser, h.ofF, h.pos, h.apart, h.isZero]
  rfl

theorem fpText (h : Alike f g) (p : Fp.FpText C) : (p.conv f).ser = (p.conv g).ser := by
  simp only [Fp.FpText.conv, Fp.FpText.ser, h.at_, h.effects]
  rfl

theorem pad (h : Alike f g) (p : Fp.Pad C) : (p.conv f).ser = (p.conv g).ser := by
  obtain ⟨name, t, shape, size, rd, at_, layers, net, zc, dr, m1, m2, m3, m4⟩ := p
  cases rd <;> cases dr <;>
    simp only [Fp.Pad.conv, Fp.Pad.ser, Option.map_some, Option.map_none, h.at_, h.xy, h.optPair, h.drill] <;> rfl

theorem poly (h : Alike f g) (p : Fp.FpPoly C) : (p.conv f).ser = (p.conv g).ser := by
  simp only [Fp.FpPoly.conv, Fp.FpPoly.ser, h.pts, h.ofF]

theorem line (h : Alike f g) (p : Fp.FpLine C) : (p.conv f).ser = (p.conv g).ser := by
  simp only [Fp.FpLine.conv, Fp.FpLine.ser, h.xy, h.ofF]

theorem circle (h : Alike f g) (p : Fp.FpCircle C) : (p.conv f).ser = (p.conv g).ser := by
  simp only [Fp.FpCircle.conv, Fp.FpCircle.ser, h.xy, h.ofF]

theorem arc (h : Alike f g) (p : Fp.FpArc C) : (p.conv f).ser = (p.conv g).ser := by
  simp only [Fp.FpArc.conv, Fp.FpArc.ser, h.xy, h.ofF]

theorem model (h : Alike f g) (p : Fp.Model C) : (p.conv f).ser = (p.conv g).ser := by
  simp only [Fp.Model.conv, Fp.Model.ser, Fp.Xyz.conv, Fp.Xyz.ser, h.ofF]

theorem fpElem (h : Alike f g) (e : Fp.Elem C) : (e.conv f).ser = (e.conv g).ser := by
  cases e <;> simp only [Fp.Elem.conv, Fp.Elem.ser, h.ofF, h.fpText, h.pad, h.poly, h.line, h.circle, h.arc, h.at_, h.model]

theorem module_ (h : Alike f g) (m : Fp.Module C) : (m.conv f).ser = (m.conv g).ser := by
  simp only [Fp.Module.conv, Fp.Module.ser, List.map_map, Function.comp_def, h.fpElem]

theorem footprint (h : Alike f g) (q : Str → Bool) (level : Int) (m : Fp.Module C) :
    Fp.toText q level (m.conv f) = Fp.toText q level (m.conv g) := by
  simp only [Fp.toText, h.module_]

/-! ## Layouts -/

theorem layPts (h : Alike f g) (l : List (Fp.Xy C)) : Fp.Pts.ser (Lay.convPts f l) = Fp.Pts.ser (Lay.convPts g l) := h.pts l

theorem general (h : Alike f g) (x : Lay.General C) : (x.conv f).ser = (x.conv g).ser := by
  simp only [Lay.General.conv, Lay.General.ser, Lay.Area.conv, Lay.Area.ser, h.ofF]

theorem zone (h : Alike f g) (z : Lay.Zone C) : (z.conv f).ser = (z.conv g).ser := by
  have h1 : ∀ x : Option (List (Fp.Xy C)), Fp.optPair (str! "fill_segments") Fp.Pts.ser (x.map (Lay.convPts f)) =
      Fp.optPair (str! "fill_segments") Fp.Pts.ser (x.map (Lay.convPts g)) := by
    intro x; cases x with
    | none => rfl
    | some c => simp only [Option.map_some, Fp.optPair, h.layPts]
  simp only [Lay.Zone.conv, Lay.Zone.ser, Lay.Hatch.conv, Lay.Hatch.ser, Lay.ConnectPads.conv, Lay.ConnectPads.ser,
    Lay.Fill.conv, Lay.Fill.ser, h.ofF, h.isZero, List.map_map, Function.comp_def, h.layPts, h1]
  rfl

theorem netClass (h : Alike f g) (x : Lay.NetClass C) : (x.conv f).ser = (x.conv g).ser := by
  simp only [Lay.NetClass.conv, Lay.NetClass.ser, h.ofF, h.optPair]

theorem grText (h : Alike f g) (x : Lay.GrText C) : (x.conv f).ser = (x.conv g).ser := by
  simp only [Lay.GrText.conv, Lay.GrText.ser, h.at_, h.effects]

theorem grLine (h : Alike f g) (x : Lay.GrLine C) : (x.conv f).ser = (x.conv g).ser := by
  simp only [Lay.GrLine.conv, Lay.GrLine.ser, h.xy, h.ofF]

theorem grArc (h : Alike f g) (x : Lay.GrArc C) : (x.conv f).ser = (x.conv g).ser := by
  simp only [Lay.GrArc.conv, Lay.GrArc.ser, h.xy, h.ofF]

theorem grCircle (h : Alike f g) (x : Lay.GrCircle C) : (x.conv f).ser = (x.conv g).ser := by
  simp only [Lay.GrCircle.conv, Lay.GrCircle.ser, h.xy, h.ofF]

theorem dimension (h : Alike f g) (x : Lay.Dimension C) : (x.conv f).ser = (x.conv g).ser := by
  simp only [Lay.Dimension.conv, Lay.Dimension.ser, h.grText, h.layPts, h.ofF]

theorem segment (h : Alike f g) (x : Lay.Segment C) : (x.conv f).ser = (x.conv g).ser := by
  simp only [Lay.Segment.conv, Lay.Segment.ser, h.xy, h.ofF]

theorem via (h : Alike f g) (x : Lay.Via C) : (x.conv f).ser = (x.conv g).ser := by
  simp only [Lay.Via.conv, Lay.Via.ser, h.at_, h.ofF, h.isZero]
  rfl

theorem layElem (h : Alike f g) (e : Lay.Elem C) : (e.conv f).ser = (e.conv g).ser := by
  cases e <;> simp only [Lay.Elem.conv, Lay.Elem.ser, h.module_, h.netClass, h.grText, h.grLine, h.grArc, h.grCircle,
    h.dimension, h.segment, h.via, h.zone]

theorem layout (h : Alike f g) (q : Str → Bool) (level : Int) (l : Lay.Layout C) :
    Lay.toText q level (l.conv f) = Lay.toText q level (l.conv g) := by
  simp only [Lay.toText, Lay.Layout.conv, Lay.Layout.ser, List.map_map, Function.comp_def, h.layElem, h.general]

/-! ## Schematics and symbol libraries -/

theorem schField (h : Alike f g) (x : Sch.Field C) : (x.conv f).show = (x.conv g).show := by
  unfold Sch.Field.show Sch.Field.conv
  dsimp only
  rw [h.text x.x, h.text x.y]

theorem component (h : Alike f g) (c : Sch.Component C) : (c.conv f).show = (c.conv g).show := by
  have : (c.fields.map (Sch.Field.conv f)).map (fun x => x.show ++ str! "\n") =
      (c.fields.map (Sch.Field.conv g)).map (fun x => x.show ++ str! "\n") := by
    simp only [List.map_map, Function.comp_def, h.schField]
  unfold Sch.Component.show Sch.Component.conv
  dsimp only
  rw [this]

theorem element (h : Alike f g) (e : Sch.Element C) : (e.conv f).show = (e.conv g).show := by
  cases e with
  | component c => exact h.component c
  | _ => rfl

theorem schematic (h : Alike f g) (s : Sch.Schematic C) : (s.conv f).show = (s.conv g).show := by
  simp only [Sch.Schematic.conv, Sch.Schematic.show, List.map_map, Function.comp_def, h.element]

theorem printed (h : Alike f g) (s : Sch.Schematic C) : (s.conv f).print = (s.conv g).print := by
  simp only [Sch.Schematic.conv, Sch.Schematic.print, List.map_map, Function.comp_def, h.element]

theorem libField (h : Alike f g) (x : Lib.Field C) : (x.conv f).show = (x.conv g).show := by
  unfold Lib.Field.show Lib.Field.conv
  dsimp only
  rw [h.text x.x, h.text x.y]

theorem symbol (h : Alike f g) (s : Lib.Symbol C) : (s.conv f).show = (s.conv g).show := by
  have : (s.fields.map (Lib.Field.conv f)).map (fun x => x.show ++ str! "\n") =
      (s.fields.map (Lib.Field.conv g)).map (fun x => x.show ++ str! "\n") := by
    simp only [List.map_map, Function.comp_def, h.libField]
  unfold Lib.Symbol.show Lib.Symbol.conv
  dsimp only
  rw [List.getElem?_map, List.getElem?_map, this, h.text]
  cases s.fields[1]? <;> rfl

theorem library (h : Alike f g) (l : Lib.SymbolLib C) : (l.conv f).show = (l.conv g).show := by
  have : ∀ ss : List (Lib.Symbol C), Lib.showSymbols (ss.map (Lib.Symbol.conv f)) = Lib.showSymbols (ss.map (Lib.Symbol.conv g)) := by
    intro ss
    induction ss with
    | nil => rfl
    | cons s ss ih => simp only [List.map_cons, Lib.showSymbols, h.symbol, ih]
  simp only [Lib.SymbolLib.conv, Lib.SymbolLib.show, this]

end Alike

end Verif
