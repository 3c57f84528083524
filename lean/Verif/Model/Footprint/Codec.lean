import Verif.Model.Footprint.Data
import Verif.Model.Formatter
/-!
# Footprints: reading and writing (src/footprint/de.rs, ser.rs, mod.rs)
-/

namespace Verif.Fp
open Verif Flt Sx

variable {F : Type} [Flt F]

/-! ## Layer names -/

/-- Side part of `Display for Layer` (src/footprint/mod.rs 27-39). -/
def LayerSide.show : LayerSide → Str
  | .front => str! "F."
  | .back => str! "B."
  | .dwgs => str! "Dwgs."
  | .cmts => str! "Cmts."
  | .eco1 => str! "Eco1."
  | .eco2 => str! "Eco2."
  | .edge => str! "Edge."
  | .in1 => str! "In1."
  | .in2 => str! "In2."
  | .both => str! "*."
  | .none => []

/-- Type part of `Display for Layer` (src/footprint/mod.rs 40-52). -/
def LayerType.show : LayerType → Str
  | .cu => str! "Cu"
  | .paste => str! "Paste"
  | .mask => str! "Mask"
  | .silkS => str! "SilkS"
  | .user => str! "User"
  | .adhes => str! "Adhes"
  | .cuts => str! "Cuts"
  | .crtYd => str! "CrtYd"
  | .fab => str! "Fab"
  | .margin => str! "Margin"
  | .other x => x

/-- `Display for Layer` (src/footprint/mod.rs 25-54). -/
def Layer.show (l : Layer) : Str := l.side.show ++ l.t.show

/-- Side of a layer name (src/footprint/data.rs 938-950). -/
def LayerSide.fromString (s : Str) : Res LayerSide :=
  if s = str! "F" then .ok .front
  else if s = str! "B" then .ok .back
  else if s = str! "Dwgs" then .ok .dwgs
  else if s = str! "Cmts" then .ok .cmts
  else if s = str! "Eco1" then .ok .eco1
  else if s = str! "Eco2" then .ok .eco2
  else if s = str! "Edge" then .ok .edge
  else if s = str! "In1" then .ok .in1
  else if s = str! "In2" then .ok .in2
  else if s = str! "*" then .ok .both
  else .err .sexp

/-- Type of a layer name (src/footprint/data.rs 956-968). -/
def LayerType.fromString (s : Str) : LayerType :=
  if s = str! "Cu" then .cu
  else if s = str! "Paste" then .paste
  else if s = str! "Mask" then .mask
  else if s = str! "SilkS" then .silkS
  else if s = str! "User" then .user
  else if s = str! "Adhes" then .adhes
  else if s = str! "Cuts" then .cuts
  else if s = str! "CrtYd" then .crtYd
  else if s = str! "Fab" then .fab
  else if s = str! "Margin" then .margin
  else .other s

/-- `Layer::from_string` (src/footprint/data.rs 934-970). -/
def Layer.fromString (s : Str) : Res Layer :=
  match splitPred (· == '.') s with
  | [a, b] => do
    let side ← LayerSide.fromString a
    .ok ⟨side, LayerType.fromString b⟩
  | a :: _ => .ok ⟨.none, LayerType.fromString a⟩
  | [] => .panic

/-! ## Readers -/

/-- Reader of the offset of a drill (src/footprint/de.rs 24-31). -/
def Offset.de (s : Sexp) : Res (F × F) := do
  let i ← iter (str! "offset") s
  let (x, i) ← eat flt i
  let (y, i) ← eat flt i
  close i (x, y)

/-- `FromSexp for At` (src/footprint/de.rs 34-42). -/
def At.de (s : Sexp) : Res (At F) := do
  let i ← iter (str! "at") s
  let (x, i) ← eat flt i
  let (y, i) ← eat flt i
  let (rot, i) ← maybe flt i
  close i ⟨x, y, rot.getD zero⟩

/-- `FromSexp for Layer` (src/footprint/de.rs 44-51). -/
def Layer.de (s : Sexp) : Res Layer := do
  let i ← iter (str! "layer") s
  let (name, i) ← eat string i
  let layer ← Layer.fromString name
  close i layer

/-- `FromSexp for Xy` (src/footprint/de.rs 131-149). -/
def Xy.de (s : Sexp) : Res (Xy F) := do
  let name ← listName s
  let t ← (if name = str! "xy" then Res.ok XyType.xy
    else if name = str! "start" then .ok .start
    else if name = str! "end" then .ok .end_
    else if name = str! "size" then .ok .size
    else if name = str! "center" then .ok .center
    else if name = str! "rect_delta" then .ok .rectDelta
    else .err .sexp)
  let i ← iter name s
  let (x, i) ← eat flt i
  let (y, i) ← eat flt i
  close i ⟨x, y, t⟩

/-- `FromSexp for Font` (src/footprint/de.rs 76-92). -/
def Font.de (s : Sexp) : Res (Font F) := do
  let i ← iter (str! "font") s
  let (xy, i) ← maybe (Xy.de (F := F)) i
  let font : Font F := Font.dflt
  let font := match xy with
    | some xy => { font with size := { font.size with x := xy.x, y := xy.y } }
    | none => font
  let (th, i) ← maybe (inList (str! "thickness") flt) i
  let font := match th with
    | some th => { font with thickness := th }
    | none => font
  let (it, i) ← maybe (literal (str! "italic")) i
  let font := if it.isSome then { font with italic := true } else font
  close i font

/-- `FromSexp for Justify` (src/footprint/de.rs 62-73). -/
def Justify.de (s : Sexp) : Res Justify := do
  let i ← iter (str! "justify") s
  let (s, _) ← eat string i
  if s = str! "mirror" then .ok .mirror
  else if s = str! "left" then .ok .left
  else if s = str! "right" then .ok .right
  else .err .sexp

/-- `FromSexp for Effects` (src/footprint/de.rs 53-60). -/
def Effects.de (s : Sexp) : Res (Effects F) := do
  let i ← iter (str! "effects") s
  let (font, i) ← eat Font.de i
  let (justify, i) ← maybe Justify.de i
  close i ⟨font, justify⟩

/-- `FromSexp for Layers` (src/footprint/de.rs 94-105). -/
def Layers.de (s : Sexp) : Res (List Layer) := do
  let i ← iter (str! "layers") s
  vec (fun v => do
    let x ← string v
    Layer.fromString x) i

/-- `FromSexp for Pts` (src/footprint/de.rs 151-157). -/
def Pts.de (s : Sexp) : Res (List (Xy F)) := do
  let i ← iter (str! "pts") s
  vec Xy.de i

/-- `FromSexp for Xyz` (src/footprint/de.rs 160-168). -/
def Xyz.de (s : Sexp) : Res (Xyz F) := do
  let i ← iter (str! "xyz") s
  let (x, i) ← eat flt i
  let (y, i) ← eat flt i
  let (z, i) ← eat flt i
  close i ⟨x, y, z⟩

/-- `FromSexp for Net` (src/footprint/de.rs 170-180, and the same for layouts, src/layout/de.rs 67-75). -/
def Net.de (s : Sexp) : Res Net := do
  let i ← iter (str! "net") s
  let (num, i) ← eat int i
  let (name, i) ← eat string i
  close i ⟨num, name⟩

/-- `FromSexp for Drill` (src/footprint/de.rs 182-194). -/
def Drill.de (s : Sexp) : Res (Drill F) := do
  let i ← iter (str! "drill") s
  let (shape, i) ← maybe (literal (str! "oval")) i
  let (width, i) ← eat flt i
  let (height, i) ← maybe flt i
  let (offset, i) ← maybe (Offset.de (F := F)) i
  let offset := offset.getD (zero, zero)
  close i ⟨shape, width, height.getD width, offset.1, offset.2⟩

/-- `Part` (src/footprint/de.rs 12-20). -/
inductive Part (F : Type)
  | thickness (x : F)
  | net (n : Net)
  | solderPasteMargin (x : F)
  | solderMaskMargin (x : F)
  | clearance (x : F)
  | thermalGap (x : F)
  | zoneConnect (i : Int)

/-- The element at index 1 of a list, as in `parse_part_float` and
`parse_part_int` (src/footprint/de.rs 107-126). -/
def second (s : Sexp) : Res Sexp := do
  let v ← list s
  match v with
  | _ :: x :: _ => .ok x
  | _ => .err .sexp

/-- `FromSexp for Part` (src/footprint/de.rs 196-210). -/
def Part.de (s : Sexp) : Res (Part F) := do
  let name ← listName s
  if name = str! "thickness" then do let x ← second s; let f ← flt x; .ok (.thickness f)
  else if name = str! "net" then do let n ← Net.de s; .ok (.net n)
  else if name = str! "solder_paste_margin" then do
    let x ← second s; let f ← flt x; .ok (.solderPasteMargin f)
  else if name = str! "solder_mask_margin" then do
    let x ← second s; let f ← flt x; .ok (.solderMaskMargin f)
  else if name = str! "clearance" then do let x ← second s; let f ← flt x; .ok (.clearance f)
  else if name = str! "thermal_gap" then do let x ← second s; let f ← flt x; .ok (.thermalGap f)
  else if name = str! "zone_connect" then do let x ← second s; let i ← int x; .ok (.zoneConnect i)
  else .err .sexp

/-- `FromSexp for FpText` (src/footprint/de.rs 213-233). -/
def FpText.de (s : Sexp) : Res (FpText F) := do
  let i ← iter (str! "fp_text") s
  let (name, i) ← eat string i
  let (value, i) ← eat string i
  let fp : FpText F := FpText.new name value
  let (at_, i) ← maybe (At.de (F := F)) i
  let fp := match at_ with | some a => { fp with at_ := a } | none => fp
  let (layer, i) ← maybe Layer.de i
  let fp := match layer with | some l => { fp with layer := l } | none => fp
  let (hide, i) ← maybe (literal (str! "hide")) i
  let fp := if hide.isSome then { fp with hide := true } else fp
  let (effects, i) ← maybe (Effects.de (F := F)) i
  let fp := match effects with | some e => { fp with effects := e } | none => fp
  close i fp

/-- `PadType::from_string` (src/footprint/data.rs 798-805). -/
def PadType.fromString (s : Str) : Res PadType :=
  if s = str! "smd" then .ok .smd
  else if s = str! "thru_hole" then .ok .pth
  else if s = str! "np_thru_hole" then .ok .npPth
  else .err .sexp

/-- `PadShape::from_string` (src/footprint/data.rs 823-831). -/
def PadShape.fromString (s : Str) : Res PadShape :=
  if s = str! "rect" then .ok .rect
  else if s = str! "circle" then .ok .circle
  else if s = str! "oval" then .ok .oval
  else if s = str! "trapezoid" then .ok .trapezoid
  else .err .sexp

/-- The loop over the parts of a pad (src/footprint/de.rs 262-272). -/
def Pad.addParts : Pad F → List (Part F) → Res (Pad F)
  | p, [] => .ok p
  | p, .net n :: r => Pad.addParts { p with net := some n } r
  | p, .solderPasteMargin n :: r => Pad.addParts { p with solderPasteMargin := some n } r
  | p, .solderMaskMargin n :: r => Pad.addParts { p with solderMaskMargin := some n } r
  | p, .clearance n :: r => Pad.addParts { p with clearance := some n } r
  | p, .thermalGap n :: r => Pad.addParts { p with thermalGap := some n } r
  | p, .zoneConnect n :: r => Pad.addParts { p with zoneConnect := some n } r
  | _, .thickness _ :: _ => .err .sexp

/-- `FromSexp for Pad` (src/footprint/de.rs 236-275). -/
def Pad.de (s : Sexp) : Res (Pad F) := do
  let i ← iter (str! "pad") s
  let (name, i) ← eat string i
  let (t, i) ← eat string i
  let t ← PadType.fromString t
  let (shape, i) ← eat string i
  let shape ← PadShape.fromString shape
  let pad : Pad F := Pad.new name t shape
  let (at_, i) ← maybe (At.de (F := F)) i
  let pad := match at_ with | some a => { pad with at_ := a } | none => pad
  let (xy, i) ← maybe (Xy.de (F := F)) i
  let pad := match xy with
    | some xy =>
      if xy.t = XyType.size then { pad with size := xy }
      else if xy.t = XyType.rectDelta then { pad with rectDelta := some xy }
      else pad
    | none => pad
  let (drill, i) ← maybe (Drill.de (F := F)) i
  let pad := { pad with drill := drill }
  let (layers, i) ← maybe Layers.de i
  let pad := match layers with | some l => { pad with layers := l } | none => pad
  let parts ← vec (Part.de (F := F)) i
  Pad.addParts pad parts

/-- `FromSexp for FpPoly` (src/footprint/de.rs 278-293). -/
def FpPoly.de (s : Sexp) : Res (FpPoly F) := do
  let i ← iter (str! "fp_poly") s
  let fp : FpPoly F := ⟨[], zero, Layer.dflt⟩
  let (pts, i) ← maybe (Pts.de (F := F)) i
  let fp := match pts with | some p => { fp with pts := p } | none => fp
  let (layer, i) ← maybe Layer.de i
  let fp := match layer with | some l => { fp with layer := l } | none => fp
  let (width, i) ← maybe (inList (str! "width") flt) i
  let fp := match width with | some w => { fp with width := w } | none => fp
  close i fp

/-- `FromSexp for FpLine` (src/footprint/de.rs 296-318). -/
def FpLine.de (s : Sexp) : Res (FpLine F) := do
  let i ← iter (str! "fp_line") s
  let fp : FpLine F := FpLine.dflt
  let (xy, i) ← maybe (Xy.de (F := F)) i
  let fp := match xy with
    | some xy => if xy.t = XyType.start then { fp with start := xy } else fp
    | none => fp
  let (xy, i) ← maybe (Xy.de (F := F)) i
  let fp := match xy with
    | some xy => if xy.t = XyType.end_ then { fp with end_ := xy } else fp
    | none => fp
  let (layer, i) ← maybe Layer.de i
  let fp := match layer with | some l => { fp with layer := l } | none => fp
  let (width, i) ← maybe (inList (str! "width") flt) i
  let fp := match width with | some w => { fp with width := w } | none => fp
  close i fp

/-- `FromSexp for FpCircle` (src/footprint/de.rs 321-343). -/
def FpCircle.de (s : Sexp) : Res (FpCircle F) := do
  let i ← iter (str! "fp_circle") s
  let fp : FpCircle F := FpCircle.dflt
  let (xy, i) ← maybe (Xy.de (F := F)) i
  let fp := match xy with
    | some xy => if xy.t = XyType.center then { fp with center := xy } else fp
    | none => fp
  let (xy, i) ← maybe (Xy.de (F := F)) i
  let fp := match xy with
    | some xy => if xy.t = XyType.end_ then { fp with end_ := xy } else fp
    | none => fp
  let (layer, i) ← maybe Layer.de i
  let fp := match layer with | some l => { fp with layer := l } | none => fp
  let (width, i) ← maybe (inList (str! "width") flt) i
  let fp := match width with | some w => { fp with width := w } | none => fp
  close i fp

/-- `FromSexp for FpArc` (src/footprint/de.rs 346-371). -/
def FpArc.de (s : Sexp) : Res (FpArc F) := do
  let i ← iter (str! "fp_arc") s
  let fp : FpArc F := FpArc.dflt
  let (xy, i) ← maybe (Xy.de (F := F)) i
  let fp := match xy with
    | some xy => if xy.t = XyType.start then { fp with start := xy } else fp
    | none => fp
  let (xy, i) ← maybe (Xy.de (F := F)) i
  let fp := match xy with
    | some xy => if xy.t = XyType.end_ then { fp with end_ := xy } else fp
    | none => fp
  let (angle, i) ← maybe (inList (str! "angle") flt) i
  let fp := match angle with | some a => { fp with angle := a } | none => fp
  let (layer, i) ← maybe Layer.de i
  let fp := match layer with | some l => { fp with layer := l } | none => fp
  let (width, i) ← maybe (inList (str! "width") flt) i
  let fp := match width with | some w => { fp with width := w } | none => fp
  close i fp

/-- `FromSexp for Model` (src/footprint/de.rs 374-385). -/
def Model.de (s : Sexp) : Res (Model F) := do
  let i ← iter (str! "model") s
  let (name, i) ← eat string i
  let (at_, i) ← eat (inList (str! "at") (Xyz.de (F := F))) i
  let (scale, i) ← eat (inList (str! "scale") (Xyz.de (F := F))) i
  let (rotate, i) ← eat (inList (str! "rotate") (Xyz.de (F := F))) i
  close i ⟨name, at_, scale, rotate⟩

/-- `parse_string_element`, `parse_float_element` (src/footprint/de.rs 387-397):
the first value of a list; further values are not looked at. -/
def firstValue {α : Type} (dec : Sexp → Res α) (s : Sexp) : Res α := do
  let name ← listName s
  let i ← iter name s
  let (a, _) ← eat dec i
  .ok a

/-- `parse_stamp_element` (src/footprint/de.rs 399-405). -/
def stamp (s : Sexp) : Res Int := do
  let t ← firstValue string s
  match readI64 16 t with
  | some i => .ok i
  | none => .err .sexp

/-- `FromSexp for Element` (src/footprint/de.rs 407-440), with `wrap` (src/lib.rs 239-245). -/
def Elem.de (s : Sexp) : Res (Elem F) :=
  match s with
  | .str a => if a = str! "locked" then .ok .locked else .err .sexp
  | .empty => .panic
  | .list _ => do
    let name ← listName s
    if name = str! "solder_mask_margin" then .solderMaskMargin <$> firstValue flt s
    else if name = str! "layer" then .layer <$> Layer.de s
    else if name = str! "descr" then .descr <$> firstValue string s
    else if name = str! "tags" then .tags <$> firstValue string s
    else if name = str! "attr" then .attr <$> firstValue string s
    else if name = str! "fp_text" then .text <$> FpText.de s
    else if name = str! "pad" then .pad <$> Pad.de s
    else if name = str! "fp_poly" then .poly <$> FpPoly.de s
    else if name = str! "fp_line" then .line <$> FpLine.de s
    else if name = str! "fp_circle" then .circle <$> FpCircle.de s
    else if name = str! "fp_arc" then .arc <$> FpArc.de s
    else if name = str! "tedit" then .tedit <$> stamp s
    else if name = str! "tstamp" then .tstamp <$> stamp s
    else if name = str! "path" then .path <$> firstValue string s
    else if name = str! "at" then .at_ <$> At.de s
    else if name = str! "model" then .model <$> Model.de s
    else if name = str! "clearance" then .clearance <$> firstValue flt s
    else .err .sexp

/-- `FromSexp for Module` (src/footprint/de.rs 442-453). -/
def Module.de (s : Sexp) : Res (Module F) := do
  let i ← iter (str! "module") s
  let (name, i) ← eat string i
  let es ← vec (Elem.de (F := F)) i
  .ok ⟨name, es⟩

/-- `footprint::parse` (src/footprint/mod.rs 57-61). -/
def parse (s : Str) : Res (Module F) := do
  let t ← parseSexp s
  Module.de t

/-! ## Writers -/

/-- `IntoSexp for At` (src/footprint/ser.rs 59-69). -/
def At.ser (a : At F) : Sexp :=
  node (str! "at") ([ofF a.x, ofF a.y] ++ if !feq a.rot zero then [ofF a.rot] else [])

/-- `IntoSexp for Font` (src/footprint/ser.rs 71-86). -/
def Font.ser (f : Font F) : Sexp :=
  node (str! "font")
    ((if lt zero f.size.x || lt zero f.size.y then
        [node (str! "size") [ofF f.size.x, ofF f.size.y]] else []) ++
     [pair (str! "thickness") (ofF f.thickness)] ++
     (if f.italic then [.str (str! "italic")] else []))

/-- `IntoSexp for Justify` (src/footprint/ser.rs 99-107). -/
def Justify.ser : Justify → Sexp
  | .mirror => pair (str! "justify") (.str (str! "mirror"))
  | .left => pair (str! "justify") (.str (str! "left"))
  | .right => pair (str! "justify") (.str (str! "right"))

/-- `IntoSexp for Effects` (src/footprint/ser.rs 88-97). -/
def Effects.ser (e : Effects F) : Sexp :=
  node (str! "effects") (e.font.ser :: match e.justify with | some j => [j.ser] | none => [])

/-- The keyword of an `XyType` (src/footprint/ser.rs 111-118). -/
def XyType.show : XyType → Str
  | .xy => str! "xy"
  | .start => str! "start"
  | .end_ => str! "end"
  | .size => str! "size"
  | .center => str! "center"
  | .rectDelta => str! "rect_delta"

/-- `IntoSexp for Xy` (src/footprint/ser.rs 109-123). -/
def Xy.ser (p : Xy F) : Sexp := node p.t.show [ofF p.x, ofF p.y]

/-- `IntoSexp for Pts` (src/footprint/ser.rs 125-133). -/
def Pts.ser (l : List (Xy F)) : Sexp := node (str! "pts") (l.map Xy.ser)

/-- `IntoSexp for Drill` (src/footprint/ser.rs 136-156). -/
def Drill.ser (d : Drill F) : Sexp :=
  node (str! "drill")
    ((match d.shape with | some s => [.str s] | none => []) ++
     (if lt zero d.width then [ofF d.width] else []) ++
     (if lt zero d.height && lt eps (Flt.abs (sub d.height d.width)) then [ofF d.height] else []) ++
     (if !feq d.offsetX zero || !feq d.offsetY zero then
        [node (str! "offset") [ofF d.offsetX, ofF d.offsetY]] else []))

/-- `IntoSexp for PadType` (src/footprint/ser.rs 158-166). -/
def PadType.show : PadType → Str
  | .smd => str! "smd"
  | .pth => str! "thru_hole"
  | .npPth => str! "np_thru_hole"

/-- `IntoSexp for PadShape` (src/footprint/ser.rs 168-177). -/
def PadShape.show : PadShape → Str
  | .rect => str! "rect"
  | .circle => str! "circle"
  | .oval => str! "oval"
  | .trapezoid => str! "trapezoid"

/-- `IntoSexp for Layers` (src/footprint/ser.rs 179-193). -/
def Layers.ser (l : List Layer) : Sexp := node (str! "layers") (l.map fun x => .str x.show)

/-- `IntoSexp for Net` (src/footprint/ser.rs 276-283, and the same for layouts,
src/layout/ser.rs 184-191). -/
def Net.ser (n : Net) : Sexp := node (str! "net") [ofI n.num, .str n.name]

/-- An optional `(name value)` pair (the `if let Some(x) = … { v.push((name, x)) }` of
src/footprint/ser.rs 213-227 and src/layout/ser.rs 204-209). -/
def optPair {α : Type} (name : Str) (f : α → Sexp) : Option α → List Sexp
  | some a => [pair name (f a)]
  | none => []

/-- `IntoSexp for FpText` (src/footprint/ser.rs 44-57). -/
def FpText.ser (t : FpText F) : Sexp :=
  node (str! "fp_text")
    ([.str t.name, .str t.value, t.at_.ser, pair (str! "layer") (.str t.layer.show)] ++
     (if t.hide then [.str (str! "hide")] else []) ++ [t.effects.ser])

/-- `IntoSexp for Pad` (src/footprint/ser.rs 195-230). -/
def Pad.ser (p : Pad F) : Sexp :=
  node (str! "pad")
    ([.str p.name, .str p.t.show, .str p.shape.show, p.at_.ser, p.size.ser] ++
     (match p.drill with | some d => [d.ser] | none => []) ++
     (match p.rectDelta with | some d => [d.ser] | none => []) ++
     [Layers.ser p.layers] ++
     (match p.net with | some n => [n.ser] | none => []) ++
     optPair (str! "zone_connect") ofI p.zoneConnect ++
     optPair (str! "solder_paste_margin") ofF p.solderPasteMargin ++
     optPair (str! "solder_mask_margin") ofF p.solderMaskMargin ++
     optPair (str! "clearance") ofF p.clearance ++
     optPair (str! "thermal_gap") ofF p.thermalGap)

/-- `IntoSexp for FpPoly` (src/footprint/ser.rs 232-240). -/
def FpPoly.ser (p : FpPoly F) : Sexp :=
  node (str! "fp_poly") [Pts.ser p.pts, pair (str! "layer") (.str p.layer.show),
    pair (str! "width") (ofF p.width)]

/-- `IntoSexp for FpLine` (src/footprint/ser.rs 242-251). -/
def FpLine.ser (l : FpLine F) : Sexp :=
  node (str! "fp_line") [l.start.ser, l.end_.ser, pair (str! "layer") (.str l.layer.show),
    pair (str! "width") (ofF l.width)]

/-- `IntoSexp for FpCircle` (src/footprint/ser.rs 253-262). -/
def FpCircle.ser (l : FpCircle F) : Sexp :=
  node (str! "fp_circle") [l.center.ser, l.end_.ser, pair (str! "layer") (.str l.layer.show),
    pair (str! "width") (ofF l.width)]

/-- `IntoSexp for FpArc` (src/footprint/ser.rs 264-274). -/
def FpArc.ser (l : FpArc F) : Sexp :=
  node (str! "fp_arc") [l.start.ser, l.end_.ser, pair (str! "angle") (ofF l.angle),
    pair (str! "layer") (.str l.layer.show), pair (str! "width") (ofF l.width)]

/-- `IntoSexp for Xyz` (src/footprint/ser.rs 297-305). -/
def Xyz.ser (p : Xyz F) : Sexp := node (str! "xyz") [ofF p.x, ofF p.y, ofF p.z]

/-- `IntoSexp for Model` (src/footprint/ser.rs 286-295). -/
def Model.ser (m : Model F) : Sexp :=
  node (str! "model") [.str m.name, pair (str! "at") m.at_.ser, pair (str! "scale") m.scale.ser,
    pair (str! "rotate") m.rotate.ser]

/-- `IntoSexp for Element` (src/footprint/ser.rs 19-42). -/
def Elem.ser : Elem F → Sexp
  | .solderMaskMargin s => pair (str! "solder_mask_margin") (ofF s)
  | .layer s => pair (str! "layer") (.str s.show)
  | .descr s => pair (str! "descr") (.str s)
  | .tags s => pair (str! "tags") (.str s)
  | .attr s => pair (str! "attr") (.str s)
  | .text p => p.ser
  | .pad p => p.ser
  | .poly p => p.ser
  | .line p => p.ser
  | .circle p => p.ser
  | .arc p => p.ser
  | .tedit p => pair (str! "tedit") (.str (showHexI64 p))
  | .tstamp p => pair (str! "tstamp") (.str (showHexI64 p))
  | .path p => pair (str! "path") (.str p)
  | .at_ p => p.ser
  | .model p => p.ser
  | .clearance s => pair (str! "clearance") (ofF s)
  | .locked => .str (str! "locked")

/-- `IntoSexp for Module` (src/footprint/ser.rs 8-17). -/
def Module.ser (m : Module F) : Sexp :=
  node (str! "module") (.str m.name :: m.elements.map Elem.ser)

/-- `module_to_string` (src/footprint/mod.rs 19-23). -/
def toText (q : Str → Bool) (level : Int) (m : Module F) : Str := Fm.toText q level m.ser

end Verif.Fp
