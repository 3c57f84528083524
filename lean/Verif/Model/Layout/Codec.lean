import Verif.Model.Layout.Data
import Verif.Model.Footprint.Codec
/-!
# Layouts: reading and writing (src/layout/de.rs, ser.rs, mod.rs)
-/

namespace Verif.Lay
open Verif Flt Sx

variable {F : Type} [Flt F]

/-! ## Readers -/

/-- A list with one value of the given kind (`Version`, `Page`, the `parse`
helper of `NetClass`, `Polygon`, `FilledPolygon`, `FillSegments`:
src/layout/de.rs 17-65, 175-179). -/
def single {α : Type} (name : Str) (dec : Sexp → Res α) (s : Sexp) : Res α := do
  let i ← iter name s
  let (a, i) ← eat dec i
  close i a

/-- `FromSexp for Host` (src/layout/de.rs 77-85). -/
def Host.de (s : Sexp) : Res Host := do
  let i ← iter (str! "host") s
  let (tool, i) ← eat string i
  let (build, i) ← eat string i
  close i ⟨tool, build⟩

/-- `FromSexp for Area` (src/layout/de.rs 104-115). -/
def Area.de (s : Sexp) : Res (Area F) := do
  let i ← iter (str! "area") s
  let (x1, i) ← eat flt i
  let (y1, i) ← eat flt i
  let (x2, i) ← eat flt i
  let (y2, i) ← eat flt i
  close i ⟨x1, y1, x2, y2⟩

/-- `FromSexp for General` (src/layout/de.rs 87-102). -/
def General.de (s : Sexp) : Res (General F) := do
  let i ← iter (str! "general") s
  let (links, i) ← eat (inList (str! "links") int) i
  let (noConnects, i) ← eat (inList (str! "no_connects") int) i
  let (area, i) ← eat (Area.de (F := F)) i
  let (thickness, i) ← eat (inList (str! "thickness") flt) i
  let (drawings, i) ← eat (inList (str! "drawings") int) i
  let (tracks, i) ← eat (inList (str! "tracks") int) i
  let (zones, i) ← eat (inList (str! "zones") int) i
  let (modules, i) ← eat (inList (str! "modules") int) i
  let (nets, i) ← eat (inList (str! "nets") int) i
  close i ⟨links, noConnects, area, thickness, drawings, tracks, zones, modules, nets⟩

/-- `FromSexp for LayerType` (src/layout/de.rs 147-159). -/
def LayerType.de (s : Sexp) : Res LayerType := do
  let x ← string s
  if x = str! "signal" then .ok .signal
  else if x = str! "power" then .ok .power
  else if x = str! "mixed" then .ok .mixed
  else if x = str! "jumper" then .ok .jumper
  else if x = str! "user" then .ok .user
  else .err .sexp

/-- `FromSexp for Layer` (src/layout/de.rs 131-145). -/
def Layer.de (s : Sexp) : Res Layer := do
  let i ← list s
  let (num, i) ← eat int i
  let (name, i) ← eat string i
  let layer ← Fp.Layer.fromString name
  let (layerType, i) ← eat LayerType.de i
  let (hide, i) ← maybe string i
  close i ⟨num, layer, layerType, hide.isSome⟩

/-- `FromSexp for LayerVec` (src/layout/de.rs 119-129). -/
def LayerVec.de (s : Sexp) : Res (List Layer) := do
  let i ← iter (str! "layers") s
  vec Layer.de i

/-- `FromSexp for SetupElement` (src/layout/de.rs 161-171). -/
def SetupElement.de (s : Sexp) : Res SetupElement := do
  let i ← list s
  let (name, i) ← eat string i
  let (value1, i) ← eat string i
  let (value2, i) ← maybe string i
  close i ⟨name, value1, value2⟩

/-- The loop of `FromSexp for Setup` (src/layout/de.rs 233-245). -/
def Setup.fill : Setup → List Sexp → Res Setup
  | st, [] => .ok st
  | st, v :: r => do
    let n ← listName v
    if n = str! "pcbplotparams" then do
      let i2 ← iter (str! "pcbplotparams") v
      let ps ← vec SetupElement.de i2
      Setup.fill { st with pcbplotparams := st.pcbplotparams ++ ps } r
    else do
      let e ← SetupElement.de v
      Setup.fill { st with elements := st.elements ++ [e] } r

/-- `FromSexp for Setup` (src/layout/de.rs 228-251). -/
def Setup.de (s : Sexp) : Res Setup := do
  let i ← iter (str! "setup") s
  Setup.fill ⟨[], []⟩ i

/-- The loop of `FromSexp for NetClass` (src/layout/de.rs 191-210). -/
def NetClass.fill : NetClass F → List Sexp → Res (NetClass F)
  | nc, [] => .ok nc
  | nc, x :: r => do
    let n ← listName x
    if n = str! "add_net" then do
      let v ← namedValue (str! "add_net") x
      let s ← string v
      NetClass.fill { nc with nets := nc.nets ++ [s] } r
    else if n = str! "clearance" then do
      let f ← single n flt x
      NetClass.fill { nc with clearance := f } r
    else if n = str! "trace_width" then do
      let f ← single n flt x
      NetClass.fill { nc with traceWidth := f } r
    else if n = str! "via_dia" then do
      let f ← single n flt x
      NetClass.fill { nc with viaDia := f } r
    else if n = str! "via_drill" then do
      let f ← single n flt x
      NetClass.fill { nc with viaDrill := f } r
    else if n = str! "uvia_dia" then do
      let f ← single n flt x
      NetClass.fill { nc with uviaDia := f } r
    else if n = str! "uvia_drill" then do
      let f ← single n flt x
      NetClass.fill { nc with uviaDrill := f } r
    else if n = str! "diff_pair_gap" then do
      let f ← single n flt x
      NetClass.fill { nc with diffPairGap := some f } r
    else if n = str! "diff_pair_width" then do
      let f ← single n flt x
      NetClass.fill { nc with diffPairWidth := some f } r
    else .err .sexp

/-- `FromSexp for NetClass` (src/layout/de.rs 173-226). -/
def NetClass.de (s : Sexp) : Res (NetClass F) := do
  let i ← iter (str! "net_class") s
  let (name, i) ← eat string i
  let (desc, i) ← eat string i
  NetClass.fill ⟨name, desc, lit 1524 4, lit 2032 4, lit 675 3, lit 25 2, lit 508 3, lit 127 3,
    none, none, []⟩ i

/-- `FromSexp for GrText` (src/layout/de.rs 259-270). -/
def GrText.de (s : Sexp) : Res (GrText F) := do
  let i ← iter (str! "gr_text") s
  let (value, i) ← eat string i
  let (at_, i) ← eat (Fp.At.de (F := F)) i
  let (layer, i) ← eat Fp.Layer.de i
  let (effects, i) ← eat (Fp.Effects.de (F := F)) i
  let (tstamp, i) ← maybe (inList (str! "tstamp") string) i
  close i ⟨value, at_, layer, effects, tstamp⟩

/-- `FromSexp for GrLine` (src/layout/de.rs 272-284). -/
def GrLine.de (s : Sexp) : Res (GrLine F) := do
  let i ← iter (str! "gr_line") s
  let (start, i) ← eat (Fp.Xy.de (F := F)) i
  let (end_, i) ← eat (Fp.Xy.de (F := F)) i
  let (angle, i) ← maybe (inList (str! "angle") (flt (F := F))) i
  let (layer, i) ← eat Fp.Layer.de i
  let (width, i) ← maybe (inList (str! "width") (flt (F := F))) i
  let (tstamp, i) ← maybe (inList (str! "tstamp") string) i
  close i ⟨start, end_, angle.getD zero, layer, width.getD zero, tstamp⟩

/-- `FromSexp for GrArc` (src/layout/de.rs 286-299). -/
def GrArc.de (s : Sexp) : Res (GrArc F) := do
  let i ← iter (str! "gr_arc") s
  let (start, i) ← eat (Fp.Xy.de (F := F)) i
  let (end_, i) ← eat (Fp.Xy.de (F := F)) i
  let (angle, i) ← eat (inList (str! "angle") (flt (F := F))) i
  let (layer, i) ← eat Fp.Layer.de i
  let (width, i) ← maybe (inList (str! "width") (flt (F := F))) i
  let (tstamp, i) ← maybe (inList (str! "tstamp") string) i
  close i ⟨start, end_, angle, layer, width.getD zero, tstamp⟩

/-- `FromSexp for GrCircle` (src/layout/de.rs 301-313). -/
def GrCircle.de (s : Sexp) : Res (GrCircle F) := do
  let i ← iter (str! "gr_circle") s
  let (center, i) ← eat (Fp.Xy.de (F := F)) i
  let (end_, i) ← eat (Fp.Xy.de (F := F)) i
  let (layer, i) ← eat Fp.Layer.de i
  let (width, i) ← maybe (inList (str! "width") (flt (F := F))) i
  let (tstamp, i) ← maybe (inList (str! "tstamp") string) i
  close i ⟨center, end_, layer, width.getD zero, tstamp⟩

/-- `FromSexp for Dimension` (src/layout/de.rs 316-334). -/
def Dimension.de (s : Sexp) : Res (Dimension F) := do
  let i ← iter (str! "dimension") s
  let (name, i) ← eat string i
  let (width, i) ← eat (inList (str! "width") (flt (F := F))) i
  let (layer, i) ← eat Fp.Layer.de i
  let (tstamp, i) ← maybe (inList (str! "tstamp") string) i
  let (text, i) ← eat (GrText.de (F := F)) i
  let (feature1, i) ← eat (inList (str! "feature1") (Fp.Pts.de (F := F))) i
  let (feature2, i) ← eat (inList (str! "feature2") (Fp.Pts.de (F := F))) i
  let (crossbar, i) ← eat (inList (str! "crossbar") (Fp.Pts.de (F := F))) i
  let (arrow1a, i) ← eat (inList (str! "arrow1a") (Fp.Pts.de (F := F))) i
  let (arrow1b, i) ← eat (inList (str! "arrow1b") (Fp.Pts.de (F := F))) i
  let (arrow2a, i) ← eat (inList (str! "arrow2a") (Fp.Pts.de (F := F))) i
  let (arrow2b, i) ← eat (inList (str! "arrow2b") (Fp.Pts.de (F := F))) i
  close i ⟨name, width, layer, tstamp, text, feature1, feature2, crossbar, arrow1a, arrow1b,
    arrow2a, arrow2b⟩

/-- `FromSexp for Hatch` (src/layout/de.rs 384-392). -/
def Hatch.de (s : Sexp) : Res (Hatch F) := do
  let i ← iter (str! "hatch") s
  let (style, i) ← eat string i
  let (pitch, i) ← eat flt i
  close i ⟨style, pitch⟩

/-- `FromSexp for ConnectPads` (src/layout/de.rs 394-401). -/
def ConnectPads.de (s : Sexp) : Res (ConnectPads F) := do
  let i ← iter (str! "connect_pads") s
  let (connection, i) ← maybe string i
  let (clearance, i) ← eat (inList (str! "clearance") flt) i
  close i ⟨connection, clearance⟩

/-- `FromSexp for Keepout` (src/layout/de.rs 403-412). -/
def Keepout.de (s : Sexp) : Res Keepout := do
  let i ← iter (str! "keepout") s
  let (tracks, i) ← eat (inList (str! "tracks") string) i
  let (vias, i) ← eat (inList (str! "vias") string) i
  let (copperpour, i) ← eat (inList (str! "copperpour") string) i
  close i ⟨!startsWith tracks (str! "not"), !startsWith vias (str! "not"),
    !startsWith copperpour (str! "not")⟩

/-- `FromSexp for Fill` (src/layout/de.rs 415-428). -/
def Fill.de (s : Sexp) : Res (Fill F) := do
  let i ← iter (str! "fill") s
  let (filled, i) ← maybe (literal (str! "yes")) i
  let (segment, i) ← maybe (inList (str! "mode") string) i
  let (arcSegments, i) ← eat (inList (str! "arc_segments") int) i
  let (thermalGap, i) ← eat (inList (str! "thermal_gap") flt) i
  let (thermalBridgeWidth, i) ← eat (inList (str! "thermal_bridge_width") flt) i
  let (smoothing, i) ← maybe (inList (str! "smoothing") string) i
  let (radius, i) ← maybe (inList (str! "radius") (flt (F := F))) i
  close i ⟨filled.isSome, segment.isSome, arcSegments, thermalGap, thermalBridgeWidth, smoothing,
    radius.getD zero⟩

/-- `i64 as u64` (src/layout/de.rs 344). -/
def asU64 (i : Int) : Nat := (i % 18446744073709551616).toNat

/-- The loop over the remaining elements of a zone (src/layout/de.rs 353-364). -/
def Zone.fillRest : Zone F → List Sexp → Zone F
  | z, [] => z
  | z, x :: r =>
    match single (str! "polygon") (Fp.Pts.de (F := F)) x with
    | .ok p => Zone.fillRest { z with polygons := z.polygons ++ [p] } r
    | _ =>
      match single (str! "filled_polygon") (Fp.Pts.de (F := F)) x with
      | .ok p => Zone.fillRest { z with filledPolygons := z.filledPolygons ++ [p] } r
      | _ =>
        match single (str! "fill_segments") (Fp.Pts.de (F := F)) x with
        | .ok p => Zone.fillRest { z with fillSegments := some p } r
        | _ => Zone.fillRest { z with other := z.other ++ [x] } r

/-- `FromSexp for Zone` (src/layout/de.rs 336-382). -/
def Zone.de (s : Sexp) : Res (Zone F) := do
  let i ← iter (str! "zone") s
  let (net, i) ← eat (inList (str! "net") int) i
  let (netName, i) ← eat (inList (str! "net_name") string) i
  let (layer, i) ← eat Fp.Layer.de i
  let (tstamp, i) ← eat (inList (str! "tstamp") string) i
  let (hatch, i) ← eat (Hatch.de (F := F)) i
  let (priority, i) ← maybe (inList (str! "priority") int) i
  let (connectPads, i) ← eat (ConnectPads.de (F := F)) i
  let (minThickness, i) ← eat (inList (str! "min_thickness") flt) i
  let (keepout, i) ← maybe Keepout.de i
  let (fill, i) ← eat (Fill.de (F := F)) i
  .ok (Zone.fillRest ⟨net, netName, layer, tstamp, hatch, asU64 (priority.getD 0), connectPads,
    minThickness, keepout, fill, [], [], none, []⟩ i)

/-- `FromSexp for Segment` (src/layout/de.rs 431-444). -/
def Segment.de (s : Sexp) : Res (Segment F) := do
  let i ← iter (str! "segment") s
  let (start, i) ← eat (Fp.Xy.de (F := F)) i
  let (end_, i) ← eat (Fp.Xy.de (F := F)) i
  let (width, i) ← eat (inList (str! "width") flt) i
  let (layer, i) ← eat Fp.Layer.de i
  let (net, i) ← eat (inList (str! "net") int) i
  let (tstamp, i) ← maybe (inList (str! "tstamp") string) i
  let (status, i) ← maybe (inList (str! "status") string) i
  close i ⟨start, end_, width, layer, net, tstamp, status⟩

/-- `FromSexp for Via` (src/layout/de.rs 447-460). -/
def Via.de (s : Sexp) : Res (Via F) := do
  let i ← iter (str! "via") s
  let (blind, i) ← maybe (literal (str! "blind")) i
  let (micro, i) ← maybe (literal (str! "micro")) i
  let (at_, i) ← eat (Fp.At.de (F := F)) i
  let (size, i) ← eat (inList (str! "size") flt) i
  let (drill, i) ← maybe (inList (str! "drill") (flt (F := F))) i
  let (layers, i) ← eat Fp.Layers.de i
  let (net, i) ← maybe (inList (str! "net") int) i
  close i ⟨blind.isSome, micro.isSome, at_, size, drill.getD zero, layers, net.getD 0⟩

/-- One iteration of `FromSexp for Layout` (src/layout/de.rs 467-524), with `parse_other` (254-257). -/
def Layout.step (l : Layout F) (e : Sexp) : Res (Layout F) := do
  let n ← listName e
  let push (x : Elem F) : Layout F := { l with elements := l.elements ++ [x] }
  if n = str! "version" then do
    let v ← single (str! "version") int e
    .ok { l with version := v }
  else if n = str! "host" then do
    let v ← Host.de e
    .ok { l with host := v }
  else if n = str! "general" then do
    let v ← General.de e
    .ok { l with general := v }
  else if n = str! "page" then do
    let v ← single (str! "page") string e
    .ok { l with page := v }
  else if n = str! "layers" then do
    let v ← LayerVec.de e
    .ok { l with layers := v }
  else if n = str! "module" then do let v ← Fp.Module.de e; .ok (push (.module_ v))
  else if n = str! "net" then do let v ← Fp.Net.de e; .ok (push (.net v))
  else if n = str! "net_class" then do let v ← NetClass.de e; .ok (push (.netClass v))
  else if n = str! "gr_text" then do let v ← GrText.de e; .ok (push (.grText v))
  else if n = str! "gr_line" then do let v ← GrLine.de e; .ok (push (.grLine v))
  else if n = str! "gr_arc" then do let v ← GrArc.de e; .ok (push (.grArc v))
  else if n = str! "gr_circle" then do let v ← GrCircle.de e; .ok (push (.grCircle v))
  else if n = str! "dimension" then do let v ← Dimension.de e; .ok (push (.dimension v))
  else if n = str! "zone" then do let v ← Zone.de e; .ok (push (.zone v))
  else if n = str! "segment" then do let v ← Segment.de e; .ok (push (.segment v))
  else if n = str! "via" then do let v ← Via.de e; .ok (push (.via v))
  else if n = str! "setup" then do
    let v ← Setup.de e
    .ok { l with setup := v }
  else .ok (push (.other e))

/-- The loop of `FromSexp for Layout` (src/layout/de.rs 467-524). -/
def Layout.fill : Layout F → List Sexp → Res (Layout F)
  | l, [] => .ok l
  | l, e :: r => do
    let l' ← l.step e
    Layout.fill l' r

/-- `FromSexp for Layout` (src/layout/de.rs 462-527). -/
def Layout.de (s : Sexp) : Res (Layout F) := do
  let i ← iter (str! "kicad_pcb") s
  Layout.fill Layout.dflt i

/-- `layout::parse` (src/layout/mod.rs 25-31). -/
def parse (s : Str) : Res (Layout F) := do
  let t ← parseSexp s
  Layout.de t

/-! ## Writers -/

/-- `IntoSexp for Area` (src/layout/ser.rs 61-70). -/
def Area.ser (a : Area F) : Sexp := node (str! "area") [ofF a.x1, ofF a.y1, ofF a.x2, ofF a.y2]

/-- `IntoSexp for General` (src/layout/ser.rs 45-59). -/
def General.ser (g : General F) : Sexp :=
  node (str! "general") [pair (str! "links") (ofI g.links), pair (str! "no_connects") (ofI g.noConnects),
    g.area.ser, pair (str! "thickness") (ofF g.thickness), pair (str! "drawings") (ofI g.drawings),
    pair (str! "tracks") (ofI g.tracks), pair (str! "zones") (ofI g.zones),
    pair (str! "modules") (ofI g.modules), pair (str! "nets") (ofI g.nets)]

/-- `IntoSexp for Hatch` (src/layout/ser.rs 124-131). -/
def Hatch.ser (h : Hatch F) : Sexp := node (str! "hatch") [.str h.style, ofF h.pitch]

/-- `IntoSexp for ConnectPads` (src/layout/ser.rs 133-142). -/
def ConnectPads.ser (c : ConnectPads F) : Sexp :=
  node (str! "connect_pads")
    ((match c.connection with | some s => [.str s] | none => []) ++
     [pair (str! "clearance") (ofF c.clearance)])

/-- `allowed` (src/layout/ser.rs 144-150). -/
def allowed (a : Bool) : Str := if a then str! "allowed" else str! "not_allowed"

/-- `IntoSexp for Keepout` (src/layout/ser.rs 152-160). -/
def Keepout.ser (k : Keepout) : Sexp :=
  node (str! "keepout") [pair (str! "tracks") (.str (allowed k.tracks)),
    pair (str! "vias") (.str (allowed k.vias)), pair (str! "copperpour") (.str (allowed k.copperpour))]

/-- `IntoSexp for Fill` (src/layout/ser.rs 161-182). -/
def Fill.ser (f : Fill F) : Sexp :=
  node (str! "fill")
    ((if f.filled then [.str (str! "yes")] else []) ++
     (if f.segment then [pair (str! "mode") (.str (str! "segment"))] else []) ++
     [pair (str! "arc_segments") (ofI f.arcSegments), pair (str! "thermal_gap") (ofF f.thermalGap),
      pair (str! "thermal_bridge_width") (ofF f.thermalBridgeWidth)] ++
     Fp.optPair (str! "smoothing") .str f.smoothing ++
     (if !feq f.cornerRadius zero then [pair (str! "radius") (ofF f.cornerRadius)] else []))

/-- `IntoSexp for Zone` (src/layout/ser.rs 91-122). -/
def Zone.ser (z : Zone F) : Sexp :=
  node (str! "zone")
    ([pair (str! "net") (ofI z.net), pair (str! "net_name") (.str z.netName),
      pair (str! "layer") (.str z.layer.show), pair (str! "tstamp") (.str z.tstamp), z.hatch.ser] ++
     (if z.priority > 0 then [pair (str! "priority") (.str (showNat z.priority))] else []) ++
     [z.connectPads.ser, pair (str! "min_thickness") (ofF z.minThickness)] ++
     (match z.keepout with | some k => [k.ser] | none => []) ++
     [z.fill.ser] ++
     z.polygons.map (fun p => pair (str! "polygon") (Fp.Pts.ser p)) ++
     z.filledPolygons.map (fun p => pair (str! "filled_polygon") (Fp.Pts.ser p)) ++
     Fp.optPair (str! "fill_segments") Fp.Pts.ser z.fillSegments ++
     z.other)

/-- `IntoSexp for NetClass` (src/layout/ser.rs 193-215). -/
def NetClass.ser (n : NetClass F) : Sexp :=
  node (str! "net_class")
    ([.str n.name, .str n.desc, pair (str! "clearance") (ofF n.clearance),
      pair (str! "trace_width") (ofF n.traceWidth), pair (str! "via_dia") (ofF n.viaDia),
      pair (str! "via_drill") (ofF n.viaDrill), pair (str! "uvia_dia") (ofF n.uviaDia),
      pair (str! "uvia_drill") (ofF n.uviaDrill)] ++
     Fp.optPair (str! "diff_pair_gap") ofF n.diffPairGap ++
     Fp.optPair (str! "diff_pair_width") ofF n.diffPairWidth ++
     n.nets.map (fun s => pair (str! "add_net") (.str s)))

/-- `Display for LayerType` (src/layout/ser.rs 230-241). -/
def LayerType.show : LayerType → Str
  | .signal => str! "signal"
  | .power => str! "power"
  | .mixed => str! "mixed"
  | .jumper => str! "jumper"
  | .user => str! "user"

/-- `IntoSexp for Layer` (src/layout/ser.rs 217-228). -/
def Layer.ser (l : Layer) : Sexp :=
  .list ([ofI l.num, .str l.layer.show, .str l.layerType.show] ++
    if l.hide then [.str (str! "hide")] else [])

/-- `IntoSexp for SetupElement` (src/layout/ser.rs 243-253). -/
def SetupElement.ser (s : SetupElement) : Sexp :=
  .list ([.str s.name, .str s.value1] ++ match s.value2 with | some x => [.str x] | none => [])

/-- `IntoSexp for Setup` (src/layout/ser.rs 255-268). -/
def Setup.ser (s : Setup) : Sexp :=
  node (str! "setup") (s.elements.map SetupElement.ser ++
    [node (str! "pcbplotparams") (s.pcbplotparams.map SetupElement.ser)])

/-- `IntoSexp for GrText` (src/layout/ser.rs 270-282). -/
def GrText.ser (t : GrText F) : Sexp :=
  node (str! "gr_text")
    ([.str t.value, t.at_.ser, pair (str! "layer") (.str t.layer.show), t.effects.ser] ++
     Fp.optPair (str! "tstamp") .str t.tstamp)

/-- `IntoSexp for GrLine` (src/layout/ser.rs 284-297). -/
def GrLine.ser (l : GrLine F) : Sexp :=
  node (str! "gr_line")
    ([l.start.ser, l.end_.ser, pair (str! "angle") (ofF l.angle),
      pair (str! "layer") (.str l.layer.show), pair (str! "width") (ofF l.width)] ++
     Fp.optPair (str! "tstamp") .str l.tstamp)

/-- `IntoSexp for GrArc` (src/layout/ser.rs 299-312). -/
def GrArc.ser (l : GrArc F) : Sexp :=
  node (str! "gr_arc")
    ([l.start.ser, l.end_.ser, pair (str! "angle") (ofF l.angle),
      pair (str! "layer") (.str l.layer.show), pair (str! "width") (ofF l.width)] ++
     Fp.optPair (str! "tstamp") .str l.tstamp)

/-- `IntoSexp for GrCircle` (src/layout/ser.rs 314-326). -/
def GrCircle.ser (l : GrCircle F) : Sexp :=
  node (str! "gr_circle")
    ([l.center.ser, l.end_.ser, pair (str! "layer") (.str l.layer.show),
      pair (str! "width") (ofF l.width)] ++
     Fp.optPair (str! "tstamp") .str l.tstamp)

/-- `IntoSexp for Dimension` (src/layout/ser.rs 329-348). -/
def Dimension.ser (d : Dimension F) : Sexp :=
  node (str! "dimension")
    ([.str d.name, pair (str! "width") (ofF d.width), pair (str! "layer") (.str d.layer.show)] ++
     Fp.optPair (str! "tstamp") .str d.tstamp ++
     [d.text.ser, pair (str! "feature1") (Fp.Pts.ser d.feature1),
      pair (str! "feature2") (Fp.Pts.ser d.feature2), pair (str! "crossbar") (Fp.Pts.ser d.crossbar),
      pair (str! "arrow1a") (Fp.Pts.ser d.arrow1a), pair (str! "arrow1b") (Fp.Pts.ser d.arrow1b),
      pair (str! "arrow2a") (Fp.Pts.ser d.arrow2a), pair (str! "arrow2b") (Fp.Pts.ser d.arrow2b)])

/-- `IntoSexp for Segment` (src/layout/ser.rs 351-367). -/
def Segment.ser (s : Segment F) : Sexp :=
  node (str! "segment")
    ([s.start.ser, s.end_.ser, pair (str! "width") (ofF s.width),
      pair (str! "layer") (.str s.layer.show), pair (str! "net") (ofI s.net)] ++
     Fp.optPair (str! "tstamp") .str s.tstamp ++ Fp.optPair (str! "status") .str s.status)

/-- `IntoSexp for Via` (src/layout/ser.rs 372-390). -/
def Via.ser (v : Via F) : Sexp :=
  node (str! "via")
    ((if v.blind then [.str (str! "blind")] else []) ++
     (if v.micro then [.str (str! "micro")] else []) ++
     [v.at_.ser, pair (str! "size") (ofF v.size)] ++
     (if !feq v.drill zero then [pair (str! "drill") (ofF v.drill)] else []) ++
     [Fp.Layers.ser v.layers, pair (str! "net") (ofI v.net)])

/-- `IntoSexp for Element` (src/layout/ser.rs 72-89). -/
def Elem.ser : Elem F → Sexp
  | .other s => s
  | .module_ s => s.ser
  | .net s => s.ser
  | .netClass s => s.ser
  | .grText s => s.ser
  | .grLine s => s.ser
  | .grArc s => s.ser
  | .grCircle s => s.ser
  | .dimension s => s.ser
  | .zone s => s.ser
  | .segment s => s.ser
  | .via s => s.ser

/-- `IntoSexp for Layout` (src/layout/ser.rs 14-43). -/
def Layout.ser (l : Layout F) : Sexp :=
  node (str! "kicad_pcb")
    ([pair (str! "version") (ofI l.version),
      node (str! "host") [.str l.host.tool, .str l.host.build],
      l.general.ser, pair (str! "page") (.str l.page),
      node (str! "layers") (l.layers.map Layer.ser),
      l.setup.ser] ++ l.elements.map Elem.ser)

/-- `layout_to_string` (src/layout/mod.rs 16-22). -/
def toText (q : Str → Bool) (level : Int) (l : Layout F) : Str :=
  Fm.toText q level l.ser ++ str! "\n"

end Verif.Lay
