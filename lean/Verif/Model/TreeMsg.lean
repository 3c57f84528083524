import Verif.Model.Layout.Codec
/-!
# The messages of the footprint and the layout reader

`Model/Footprint/Codec.lean` and `Model/Layout/Codec.lean` keep only the kind of an error; here
are the same functions with the texts of the messages that are made in /repo
(`format!(…).into()`).  Readers all of whose errors come from the external crate
symbolic_expressions, and readers whose errors are thrown away by `maybe_*`, are taken over as
they are (`Answer.lift`); the texts of the crate's errors are not modelled.  Assumption: the crate
passes the errors of the readers it calls on unchanged.

The messages use the crate's `Display for Sexp` and Rust's `Debug for f64`, which are parameters
`disp` and `dbg`.
-/

namespace Verif

/-- Outcome of a reader of trees whose errors are `SexpError` (src/footprint/de.rs 24): a message made in /repo (`own`), or
an error of the crate or of the
standard library (`lib`). -/
inductive Answer (α : Type)
  | ok (a : α)
  | own (msg : Str)
  | lib (kind : Err)
  | panic
  | diverge
  deriving DecidableEq, Repr

namespace Answer

/-- Go on after a success (`?`, e.g. src/footprint/de.rs 26). -/
def bind {α β : Type} (x : Answer α) (f : α → Answer β) : Answer β :=
  match x with
  | .ok a => f a
  | .own m => .own m
  | .lib k => .lib k
  | .panic => .panic
  | .diverge => .diverge

instance : Monad Answer where -- the `?` of src/footprint/de.rs 26
  pure := .ok
  bind := bind

/-- The outcome without the message, which becomes a `KicadError::SymbolicExpression`
(src/error.rs 39-43). -/
def forget {α : Type} : Answer α → Res α
  | .ok a => .ok a
  | .own _ => .err .sexp
  | .lib k => .err k
  | .panic => .panic
  | .diverge => .diverge

/-- The outcome of a reader without messages of its own (e.g. src/footprint/de.rs 24-30). -/
def lift {α : Type} : Res α → Answer α
  | .ok a => .ok a
  | .err k => .lib k
  | .panic => .panic
  | .diverge => .diverge

end Answer

namespace Sx.Msg
open Answer

/-- `IterAtom::t` (external crate, called at src/footprint/de.rs 56) with the errors of the reader it calls. -/
def eat {α : Type} (dec : Sexp → Answer α) : List Sexp → Answer (α × List Sexp)
  | [] => .lib .sexp
  | x :: r => do
    let a ← dec x
    .ok (a, r)

/-- `IterAtom::t_in_list` (external crate, called at src/footprint/de.rs 379-381 and src/layout/de.rs
325-331): a reader for the value of a `name value` pair. -/
def inList {α : Type} (name : Str) (dec : Sexp → Answer α) (e : Sexp) : Answer α := do
  let v ← lift (namedValue name e)
  dec v

/-- `IterAtom::vec` (external crate, called at src/footprint/de.rs 154), and the loops of the form `for x in i.iter { from_sexp(x)? }`. -/
def vec {α : Type} (dec : Sexp → Answer α) : List Sexp → Answer (List α)
  | [] => .ok []
  | x :: r => do
    let a ← dec x
    let l ← vec dec r
    .ok (a :: l)

end Sx.Msg

namespace Fp.Msg
open Answer Sx

variable {F : Type} [Flt F] (disp : Sexp → Str) (dbg : F → Str)

/-- Side of a layer name (src/footprint/data.rs 938-950). -/
def layerSide (s : Str) : Answer LayerSide :=
  if s = str! "F" then .ok .front
  else if s = str! "B" then .ok .back
  else if s = str! "Dwgs" then .ok .dwgs
  else if s = str! "Cmts" then .ok .cmts
  else if s = str! "Eco1" then .ok .eco1
  else if s = str! "Eco2" then .ok .eco2
  else if s = str! "Edge" then .ok .edge
  else if s = str! "In1" then .ok .in1
  else if s = str! "In2" then .ok .in2
  else if s = str! "*" then .ok .both
  else .own (str! "unknown layer side " ++ s)

/-- `Layer::from_string` (src/footprint/data.rs 934-970). -/
def layerOf (s : Str) : Answer Layer :=
  match splitPred (· == '.') s with
  | [a, b] => do
    let side ← layerSide a
    .ok ⟨side, LayerType.fromString b⟩
  | a :: _ => .ok ⟨.none, LayerType.fromString a⟩
  | [] => .panic

/-- `FromSexp for Layer` (src/footprint/de.rs 44-51). -/
def layer (s : Sexp) : Answer Layer := do
  let i ← lift (iter (str! "layer") s)
  let (name, i) ← lift (Sx.eat string i)
  let layer ← layerOf name
  lift (close i layer)

/-- `FromSexp for Layers` (src/footprint/de.rs 94-105). -/
def layers (s : Sexp) : Answer (List Layer) := do
  let i ← lift (iter (str! "layers") s)
  Sx.Msg.vec (fun v => do
    let x ← lift (string v)
    layerOf x) i

/-- `FromSexp for Xy` (src/footprint/de.rs 131-149). -/
def xy (s : Sexp) : Answer (Xy F) := do
  let name ← lift (listName s)
  let t ← (if name = str! "xy" then Answer.ok XyType.xy
    else if name = str! "start" then .ok .start
    else if name = str! "end" then .ok .end_
    else if name = str! "size" then .ok .size
    else if name = str! "center" then .ok .center
    else if name = str! "rect_delta" then .ok .rectDelta
    else .own (str! "unknown XyType " ++ name))
  let i ← lift (iter name s)
  let (x, i) ← lift (Sx.eat flt i)
  let (y, i) ← lift (Sx.eat flt i)
  lift (close i ⟨x, y, t⟩)

/-- `FromSexp for Pts` (src/footprint/de.rs 151-157). -/
def pts (s : Sexp) : Answer (List (Xy F)) := do
  let i ← lift (iter (str! "pts") s)
  Sx.Msg.vec xy i

/-- The element at index 1 of a list, as in `parse_part_float` and `parse_part_int`
(src/footprint/de.rs 107-126). -/
def second (s : Sexp) : Answer Sexp := do
  let v ← lift (list s)
  match v with
  | _ :: x :: _ => .ok x
  | _ => .own (str! "not enough elements in " ++ disp s)

/-- `FromSexp for Part` (src/footprint/de.rs 196-210). -/
def part (s : Sexp) : Answer (Part F) := do
  let name ← lift (listName s)
  if name = str! "thickness" then do let x ← second disp s; let f ← lift (flt x); .ok (.thickness f)
  else if name = str! "net" then do let n ← lift (Net.de s); .ok (.net n)
  else if name = str! "solder_paste_margin" then do
    let x ← second disp s; let f ← lift (flt x); .ok (.solderPasteMargin f)
  else if name = str! "solder_mask_margin" then do
    let x ← second disp s; let f ← lift (flt x); .ok (.solderMaskMargin f)
  else if name = str! "clearance" then do let x ← second disp s; let f ← lift (flt x); .ok (.clearance f)
  else if name = str! "thermal_gap" then do let x ← second disp s; let f ← lift (flt x); .ok (.thermalGap f)
  else if name = str! "zone_connect" then do let x ← second disp s; let i ← lift (int x); .ok (.zoneConnect i)
  else .own (str! "unknown part " ++ name)

/-- `PadType::from_string` (src/footprint/data.rs 798-805). -/
def padType (s : Str) : Answer PadType :=
  if s = str! "smd" then .ok .smd
  else if s = str! "thru_hole" then .ok .pth
  else if s = str! "np_thru_hole" then .ok .npPth
  else .own (str! "unknown PadType " ++ s)

/-- `PadShape::from_string` (src/footprint/data.rs 823-831). -/
def padShape (s : Str) : Answer PadShape :=
  if s = str! "rect" then .ok .rect
  else if s = str! "circle" then .ok .circle
  else if s = str! "oval" then .ok .oval
  else if s = str! "trapezoid" then .ok .trapezoid
  else .own (str! "unknown PadShape: " ++ s)

/-- The loop over the parts of a pad (src/footprint/de.rs 262-272). -/
def addParts : Pad F → List (Part F) → Answer (Pad F)
  | p, [] => .ok p
  | p, .net n :: r => addParts { p with net := some n } r
  | p, .solderPasteMargin n :: r => addParts { p with solderPasteMargin := some n } r
  | p, .solderMaskMargin n :: r => addParts { p with solderMaskMargin := some n } r
  | p, .clearance n :: r => addParts { p with clearance := some n } r
  | p, .thermalGap n :: r => addParts { p with thermalGap := some n } r
  | p, .zoneConnect n :: r => addParts { p with zoneConnect := some n } r
  | _, .thickness x :: _ => .own (str! "pad: unknown Thickness(" ++ dbg x ++ str! ")")

/-- `FromSexp for Pad` (src/footprint/de.rs 236-275). -/
def pad (s : Sexp) : Answer (Pad F) := do
  let i ← lift (iter (str! "pad") s)
  let (name, i) ← lift (Sx.eat string i)
  let (t, i) ← lift (Sx.eat string i)
  let t ← padType t
  let (shape, i) ← lift (Sx.eat string i)
  let shape ← padShape shape
  let pad : Pad F := Pad.new name t shape
  let (at_, i) ← lift (maybe (At.de (F := F)) i)
  let pad := match at_ with | some a => { pad with at_ := a } | none => pad
  let (xy, i) ← lift (maybe (Xy.de (F := F)) i)
  let pad := match xy with
    | some xy =>
      if xy.t = XyType.size then { pad with size := xy }
      else if xy.t = XyType.rectDelta then { pad with rectDelta := some xy }
      else pad
    | none => pad
  let (drill, i) ← lift (maybe (Drill.de (F := F)) i)
  let pad := { pad with drill := drill }
  let (layers, i) ← lift (maybe Layers.de i)
  let pad := match layers with | some l => { pad with layers := l } | none => pad
  let parts ← Sx.Msg.vec (part (F := F) disp) i
  addParts dbg pad parts

/-- `FromSexp for Element` (src/footprint/de.rs 407-440). -/
def elem (s : Sexp) : Answer (Elem F) :=
  match s with
  | .str a => if a = str! "locked" then .ok .locked else .own (str! "unknown element in module: " ++ a)
  | .empty => .panic
  | .list _ => do
    let name ← lift (listName s)
    if name = str! "solder_mask_margin" then .solderMaskMargin <$> lift (firstValue flt s)
    else if name = str! "layer" then .layer <$> layer s
    else if name = str! "descr" then .descr <$> lift (firstValue string s)
    else if name = str! "tags" then .tags <$> lift (firstValue string s)
    else if name = str! "attr" then .attr <$> lift (firstValue string s)
    else if name = str! "fp_text" then .text <$> lift (FpText.de s)
    else if name = str! "pad" then .pad <$> pad disp dbg s
    else if name = str! "fp_poly" then .poly <$> lift (FpPoly.de s)
    else if name = str! "fp_line" then .line <$> lift (FpLine.de s)
    else if name = str! "fp_circle" then .circle <$> lift (FpCircle.de s)
    else if name = str! "fp_arc" then .arc <$> lift (FpArc.de s)
    else if name = str! "tedit" then .tedit <$> lift (stamp s)
    else if name = str! "tstamp" then .tstamp <$> lift (stamp s)
    else if name = str! "path" then .path <$> lift (firstValue string s)
    else if name = str! "at" then .at_ <$> lift (At.de s)
    else if name = str! "model" then .model <$> lift (Model.de s)
    else if name = str! "clearance" then .clearance <$> lift (firstValue flt s)
    else .own (str! "unknown element in module: " ++ name)

/-- `FromSexp for Module` (src/footprint/de.rs 442-453). -/
def module_ (s : Sexp) : Answer (Module F) := do
  let i ← lift (iter (str! "module") s)
  let (name, i) ← lift (Sx.eat string i)
  let es ← Sx.Msg.vec (elem (F := F) disp dbg) i
  .ok ⟨name, es⟩

/-- `footprint::parse` (src/footprint/mod.rs 57-61). -/
def parse (s : Str) : Answer (Module F) := do
  let t ← lift (parseSexp s)
  module_ disp dbg t

end Fp.Msg

namespace Lay.Msg
open Answer Sx Fp.Msg

variable {F : Type} [Flt F] (disp : Sexp → Str) (dbg : F → Str)

/-- `FromSexp for LayerType` (src/layout/de.rs 147-159). -/
def layerType (s : Sexp) : Answer LayerType := do
  let x ← lift (string s)
  if x = str! "signal" then .ok .signal
  else if x = str! "power" then .ok .power
  else if x = str! "mixed" then .ok .mixed
  else if x = str! "jumper" then .ok .jumper
  else if x = str! "user" then .ok .user
  else .own (str! "unknown layertype " ++ x ++ str! " in " ++ disp s)

/-- `FromSexp for Layer` (src/layout/de.rs 131-145). -/
def boardLayer (s : Sexp) : Answer Layer := do
  let i ← lift (list s)
  let (num, i) ← lift (Sx.eat int i)
  let (name, i) ← lift (Sx.eat string i)
  let layer ← layerOf name
  let (layerType, i) ← Sx.Msg.eat (layerType disp) i
  let (hide, i) ← lift (maybe string i)
  lift (close i ⟨num, layer, layerType, hide.isSome⟩)

/-- `FromSexp for LayerVec` (src/layout/de.rs 119-129). -/
def boardLayers (s : Sexp) : Answer (List Layer) := do
  let i ← lift (iter (str! "layers") s)
  Sx.Msg.vec (boardLayer disp) i

/-- The loop of `FromSexp for NetClass` (src/layout/de.rs 191-210). -/
def netClassFill : NetClass F → List Sexp → Answer (NetClass F)
  | nc, [] => .ok nc
  | nc, x :: r => do
    let n ← lift (listName x)
    if n = str! "add_net" then do
      let v ← lift (namedValue (str! "add_net") x)
      let s ← lift (string v)
      netClassFill { nc with nets := nc.nets ++ [s] } r
    else if n = str! "clearance" then do
      let f ← lift (single n flt x)
      netClassFill { nc with clearance := f } r
    else if n = str! "trace_width" then do
      let f ← lift (single n flt x)
      netClassFill { nc with traceWidth := f } r
    else if n = str! "via_dia" then do
      let f ← lift (single n flt x)
      netClassFill { nc with viaDia := f } r
    else if n = str! "via_drill" then do
      let f ← lift (single n flt x)
      netClassFill { nc with viaDrill := f } r
    else if n = str! "uvia_dia" then do
      let f ← lift (single n flt x)
      netClassFill { nc with uviaDia := f } r
    else if n = str! "uvia_drill" then do
      let f ← lift (single n flt x)
      netClassFill { nc with uviaDrill := f } r
    else if n = str! "diff_pair_gap" then do
      let f ← lift (single n flt x)
      netClassFill { nc with diffPairGap := some f } r
    else if n = str! "diff_pair_width" then do
      let f ← lift (single n flt x)
      netClassFill { nc with diffPairWidth := some f } r
    else .own (str! "unknown net_class field " ++ n)

/-- `FromSexp for NetClass` (src/layout/de.rs 173-226). -/
def netClass (s : Sexp) : Answer (NetClass F) := do
  let i ← lift (iter (str! "net_class") s)
  let (name, i) ← lift (Sx.eat string i)
  let (desc, i) ← lift (Sx.eat string i)
  netClassFill ⟨name, desc, Flt.lit 1524 4, Flt.lit 2032 4, Flt.lit 675 3, Flt.lit 25 2, Flt.lit 508 3,
    Flt.lit 127 3, none, none, []⟩ i

/-- `FromSexp for GrText` (src/layout/de.rs 259-270). -/
def grText (s : Sexp) : Answer (GrText F) := do
  let i ← lift (iter (str! "gr_text") s)
  let (value, i) ← lift (Sx.eat string i)
  let (at_, i) ← lift (Sx.eat (Fp.At.de (F := F)) i)
  let (layer, i) ← Sx.Msg.eat layer i
  let (effects, i) ← lift (Sx.eat (Fp.Effects.de (F := F)) i)
  let (tstamp, i) ← lift (maybe (Sx.inList (str! "tstamp") string) i)
  lift (close i ⟨value, at_, layer, effects, tstamp⟩)

/-- `FromSexp for GrLine` (src/layout/de.rs 272-284). -/
def grLine (s : Sexp) : Answer (GrLine F) := do
  let i ← lift (iter (str! "gr_line") s)
  let (start, i) ← Sx.Msg.eat (xy (F := F)) i
  let (end_, i) ← Sx.Msg.eat (xy (F := F)) i
  let (angle, i) ← lift (maybe (Sx.inList (str! "angle") (flt (F := F))) i)
  let (layer, i) ← Sx.Msg.eat layer i
  let (width, i) ← lift (maybe (Sx.inList (str! "width") (flt (F := F))) i)
  let (tstamp, i) ← lift (maybe (Sx.inList (str! "tstamp") string) i)
  lift (close i ⟨start, end_, angle.getD Flt.zero, layer, width.getD Flt.zero, tstamp⟩)

/-- `FromSexp for GrArc` (src/layout/de.rs 286-299). -/
def grArc (s : Sexp) : Answer (GrArc F) := do
  let i ← lift (iter (str! "gr_arc") s)
  let (start, i) ← Sx.Msg.eat (xy (F := F)) i
  let (end_, i) ← Sx.Msg.eat (xy (F := F)) i
  let (angle, i) ← lift (Sx.eat (Sx.inList (str! "angle") (flt (F := F))) i)
  let (layer, i) ← Sx.Msg.eat layer i
  let (width, i) ← lift (maybe (Sx.inList (str! "width") (flt (F := F))) i)
  let (tstamp, i) ← lift (maybe (Sx.inList (str! "tstamp") string) i)
  lift (close i ⟨start, end_, angle, layer, width.getD Flt.zero, tstamp⟩)

/-- `FromSexp for GrCircle` (src/layout/de.rs 301-313). -/
def grCircle (s : Sexp) : Answer (GrCircle F) := do
  let i ← lift (iter (str! "gr_circle") s)
  let (center, i) ← Sx.Msg.eat (xy (F := F)) i
  let (end_, i) ← Sx.Msg.eat (xy (F := F)) i
  let (layer, i) ← Sx.Msg.eat layer i
  let (width, i) ← lift (maybe (Sx.inList (str! "width") (flt (F := F))) i)
  let (tstamp, i) ← lift (maybe (Sx.inList (str! "tstamp") string) i)
  lift (close i ⟨center, end_, layer, width.getD Flt.zero, tstamp⟩)

/-- `FromSexp for Dimension` (src/layout/de.rs 316-334). -/
def dimension (s : Sexp) : Answer (Dimension F) := do
  let i ← lift (iter (str! "dimension") s)
  let (name, i) ← lift (Sx.eat string i)
  let (width, i) ← lift (Sx.eat (Sx.inList (str! "width") (flt (F := F))) i)
  let (layer, i) ← Sx.Msg.eat layer i
  let (tstamp, i) ← lift (maybe (Sx.inList (str! "tstamp") string) i)
  let (text, i) ← Sx.Msg.eat (grText (F := F)) i
  let (feature1, i) ← Sx.Msg.eat (Sx.Msg.inList (str! "feature1") (pts (F := F))) i
  let (feature2, i) ← Sx.Msg.eat (Sx.Msg.inList (str! "feature2") (pts (F := F))) i
  let (crossbar, i) ← Sx.Msg.eat (Sx.Msg.inList (str! "crossbar") (pts (F := F))) i
  let (arrow1a, i) ← Sx.Msg.eat (Sx.Msg.inList (str! "arrow1a") (pts (F := F))) i
  let (arrow1b, i) ← Sx.Msg.eat (Sx.Msg.inList (str! "arrow1b") (pts (F := F))) i
  let (arrow2a, i) ← Sx.Msg.eat (Sx.Msg.inList (str! "arrow2a") (pts (F := F))) i
  let (arrow2b, i) ← Sx.Msg.eat (Sx.Msg.inList (str! "arrow2b") (pts (F := F))) i
  lift (close i ⟨name, width, layer, tstamp, text, feature1, feature2, crossbar, arrow1a, arrow1b,
    arrow2a, arrow2b⟩)

/-- `FromSexp for Zone` (src/layout/de.rs 336-382). -/
def zone (s : Sexp) : Answer (Zone F) := do
  let i ← lift (iter (str! "zone") s)
  let (net, i) ← lift (Sx.eat (Sx.inList (str! "net") int) i)
  let (netName, i) ← lift (Sx.eat (Sx.inList (str! "net_name") string) i)
  let (layer, i) ← Sx.Msg.eat layer i
  let (tstamp, i) ← lift (Sx.eat (Sx.inList (str! "tstamp") string) i)
  let (hatch, i) ← lift (Sx.eat (Hatch.de (F := F)) i)
  let (priority, i) ← lift (maybe (Sx.inList (str! "priority") int) i)
  let (connectPads, i) ← lift (Sx.eat (ConnectPads.de (F := F)) i)
  let (minThickness, i) ← lift (Sx.eat (Sx.inList (str! "min_thickness") flt) i)
  let (keepout, i) ← lift (maybe Keepout.de i)
  let (fill, i) ← lift (Sx.eat (Fill.de (F := F)) i)
  .ok (Zone.fillRest ⟨net, netName, layer, tstamp, hatch, asU64 (priority.getD 0), connectPads,
    minThickness, keepout, fill, [], [], none, []⟩ i)

/-- `FromSexp for Segment` (src/layout/de.rs 431-444). -/
def segment (s : Sexp) : Answer (Segment F) := do
  let i ← lift (iter (str! "segment") s)
  let (start, i) ← Sx.Msg.eat (xy (F := F)) i
  let (end_, i) ← Sx.Msg.eat (xy (F := F)) i
  let (width, i) ← lift (Sx.eat (Sx.inList (str! "width") flt) i)
  let (layer, i) ← Sx.Msg.eat layer i
  let (net, i) ← lift (Sx.eat (Sx.inList (str! "net") int) i)
  let (tstamp, i) ← lift (maybe (Sx.inList (str! "tstamp") string) i)
  let (status, i) ← lift (maybe (Sx.inList (str! "status") string) i)
  lift (close i ⟨start, end_, width, layer, net, tstamp, status⟩)

/-- `FromSexp for Via` (src/layout/de.rs 447-460). -/
def via (s : Sexp) : Answer (Via F) := do
  let i ← lift (iter (str! "via") s)
  let (blind, i) ← lift (maybe (literal (str! "blind")) i)
  let (micro, i) ← lift (maybe (literal (str! "micro")) i)
  let (at_, i) ← lift (Sx.eat (Fp.At.de (F := F)) i)
  let (size, i) ← lift (Sx.eat (Sx.inList (str! "size") flt) i)
  let (drill, i) ← lift (maybe (Sx.inList (str! "drill") (flt (F := F))) i)
  let (layers, i) ← Sx.Msg.eat layers i
  let (net, i) ← lift (maybe (Sx.inList (str! "net") int) i)
  lift (close i ⟨blind.isSome, micro.isSome, at_, size, drill.getD Flt.zero, layers, net.getD 0⟩)

/-- One iteration of `FromSexp for Layout` (src/layout/de.rs 467-524). -/
def step (l : Layout F) (e : Sexp) : Answer (Layout F) := do
  let n ← lift (listName e)
  let push (x : Elem F) : Layout F := { l with elements := l.elements ++ [x] }
  if n = str! "version" then do
    let v ← lift (single (str! "version") int e)
    .ok { l with version := v }
  else if n = str! "host" then do
    let v ← lift (Host.de e)
    .ok { l with host := v }
  else if n = str! "general" then do
    let v ← lift (General.de e)
    .ok { l with general := v }
  else if n = str! "page" then do
    let v ← lift (single (str! "page") string e)
    .ok { l with page := v }
  else if n = str! "layers" then do
    let v ← boardLayers disp e
    .ok { l with layers := v }
  else if n = str! "module" then do let v ← module_ disp dbg e; .ok (push (.module_ v))
  else if n = str! "net" then do let v ← lift (Fp.Net.de e); .ok (push (.net v))
  else if n = str! "net_class" then do let v ← netClass e; .ok (push (.netClass v))
  else if n = str! "gr_text" then do let v ← grText e; .ok (push (.grText v))
  else if n = str! "gr_line" then do let v ← grLine e; .ok (push (.grLine v))
  else if n = str! "gr_arc" then do let v ← grArc e; .ok (push (.grArc v))
  else if n = str! "gr_circle" then do let v ← grCircle e; .ok (push (.grCircle v))
  else if n = str! "dimension" then do let v ← dimension e; .ok (push (.dimension v))
  else if n = str! "zone" then do let v ← zone e; .ok (push (.zone v))
  else if n = str! "segment" then do let v ← segment e; .ok (push (.segment v))
  else if n = str! "via" then do let v ← via e; .ok (push (.via v))
  else if n = str! "setup" then do
    let v ← lift (Setup.de e)
    .ok { l with setup := v }
  else .ok (push (.other e))

/-- The loop of `FromSexp for Layout` (src/layout/de.rs 467-524). -/
def fill : Layout F → List Sexp → Answer (Layout F)
  | l, [] => .ok l
  | l, e :: r => do
    let l' ← step disp dbg l e
    fill l' r

/-- `FromSexp for Layout` (src/layout/de.rs 462-527). -/
def layout (s : Sexp) : Answer (Layout F) := do
  let i ← lift (iter (str! "kicad_pcb") s)
  fill disp dbg Layout.dflt i

/-- `layout::parse` (src/layout/mod.rs 25-31). -/
def parse (s : Str) : Answer (Layout F) := do
  let t ← lift (parseSexp s)
  layout disp dbg t

end Lay.Msg

end Verif
