import Verif.Spec.TreeGrammar
import Verif.Model.Footprint.Data
/-!
# The language of footprint files

Which trees stand for which footprints.  Optional parts that are missing have the
values given here.
-/

namespace Verif.Spec
open Verif Fp Flt

variable {F : Type} [Flt F]

/-! ## Layers -/

def layerSides : List (Str × LayerSide) :=
  [(str! "F", .front), (str! "B", .back), (str! "Dwgs", .dwgs), (str! "Cmts", .cmts), (str! "Eco1", .eco1),
   (str! "Eco2", .eco2), (str! "Edge", .edge), (str! "In1", .in1), (str! "In2", .in2), (str! "*", .both)]

def layerTypes : List (Str × LayerType) :=
  [(str! "Cu", .cu), (str! "Paste", .paste), (str! "Mask", .mask), (str! "SilkS", .silkS), (str! "User", .user),
   (str! "Adhes", .adhes), (str! "Cuts", .cuts), (str! "CrtYd", .crtYd), (str! "Fab", .fab), (str! "Margin", .margin)]

/-- The kind of a layer; other words are kept. -/
def LayerTypeWord (w : Str) (t : LayerType) : Prop :=
  (w, t) ∈ layerTypes ∨ t = .other w ∧ w ∉ layerTypes.map Prod.fst

/-- `side.kind`, or a kind alone.  If there is more than one point, only what is in
front of the first one counts, as the kind. -/
def LayerWord (s : Str) (l : Layer) : Prop :=
  (∃ a b, s = a ++ '.' :: b ∧ '.' ∉ a ∧ '.' ∉ b ∧ (a, l.side) ∈ layerSides ∧ LayerTypeWord b l.t) ∨
  (l.side = .none ∧ ∃ a, '.' ∉ a ∧ LayerTypeWord a l.t ∧ (s = a ∨ ∃ r, s = a ++ '.' :: r ∧ '.' ∈ r))

/-- `(layer name)` -/
def LayerTree (e : Sexp) (l : Layer) : Prop := ∃ s, e = .list [.str (str! "layer"), .str s] ∧ LayerWord s l

/-! ## Small parts -/

/-- `(at x y [angle])` -/
def AtTree (e : Sexp) (a : At F) : Prop :=
  ∃ x y rot o, e = .list (.str (str! "at") :: x :: y :: rot) ∧ NumTree x a.x ∧ NumTree y a.y ∧
    Opt NumTree rot o ∧ a.rot = o.getD zero

def xyNames : List (Str × XyType) :=
  [(str! "xy", .xy), (str! "start", .start), (str! "end", .end_), (str! "size", .size), (str! "center", .center),
   (str! "rect_delta", .rectDelta)]

/-- `(name x y)` -/
def XyTree (e : Sexp) (p : Xy F) : Prop :=
  ∃ n x y, e = .list [.str n, x, y] ∧ (n, p.t) ∈ xyNames ∧ NumTree x p.x ∧ NumTree y p.y

/-- `(font [(size x y)] [(thickness w)] [italic])`; the name of the first part can be any
of the names of points. -/
def FontTree (e : Sexp) (f : Font F) : Prop :=
  ∃ size thickness italic o w, e = .list (.str (str! "font") :: (size ++ (thickness ++ italic))) ∧
    Opt XyTree size o ∧ Opt (Named (str! "thickness") NumTree) thickness w ∧
    italic = (if f.italic then [.str (str! "italic")] else []) ∧
    f.size = ⟨(o.map Xy.x).getD zero, (o.map Xy.y).getD zero, .xy⟩ ∧ f.thickness = w.getD zero

def justifyWords : List (Str × Justify) := [(str! "mirror", .mirror), (str! "left", .left), (str! "right", .right)]

/-- `(justify word)`; what follows the word does not matter. -/
def JustifyTree (e : Sexp) (j : Justify) : Prop :=
  ∃ w rest, e = .list (.str (str! "justify") :: .str w :: rest) ∧ (w, j) ∈ justifyWords

/-- `(effects font [justify])` -/
def EffectsTree (e : Sexp) (f : Effects F) : Prop :=
  ∃ font justify, e = .list (.str (str! "effects") :: font :: justify) ∧ FontTree font f.font ∧
    Opt JustifyTree justify f.justify

/-- `(layers name …)` -/
def LayersTree (e : Sexp) (ls : List Layer) : Prop :=
  ∃ parts, e = .list (.str (str! "layers") :: parts) ∧ Many (fun x l => ∃ s, x = .str s ∧ LayerWord s l) parts ls

/-- `(pts point …)` -/
def PtsTree (e : Sexp) (ps : List (Xy F)) : Prop :=
  ∃ parts, e = .list (.str (str! "pts") :: parts) ∧ Many XyTree parts ps

/-- `(xyz x y z)` -/
def XyzTree (e : Sexp) (p : Xyz F) : Prop :=
  ∃ x y z, e = .list [.str (str! "xyz"), x, y, z] ∧ NumTree x p.x ∧ NumTree y p.y ∧ NumTree z p.z

/-- `(net number name)` -/
def NetTree (e : Sexp) (n : Net) : Prop :=
  ∃ i, e = .list [.str (str! "net"), i, .str n.name] ∧ IntTree i n.num

/-- `(offset x y)` -/
def OffsetTree (e : Sexp) (p : F × F) : Prop :=
  ∃ x y, e = .list [.str (str! "offset"), x, y] ∧ NumTree x p.1 ∧ NumTree y p.2

/-- `(drill [oval] width [height] [offset])`; the height is the width if it is not given. -/
def DrillTree (e : Sexp) (d : Drill F) : Prop :=
  ∃ oval w h off ho oo, e = .list (.str (str! "drill") :: (oval ++ w :: (h ++ off))) ∧
    (oval = [] ∧ d.shape = none ∧ w ≠ .str (str! "oval") ∨ oval = [.str (str! "oval")] ∧ d.shape = some (str! "oval")) ∧
    NumTree w d.width ∧ Opt NumTree h ho ∧ Opt OffsetTree off oo ∧ d.height = ho.getD d.width ∧
    (d.offsetX, d.offsetY) = oo.getD (zero, zero)

/-! ## Texts and lines -/

/-- `(fp_text name value [at] [layer] [hide] [effects])` -/
def FpTextTree (e : Sexp) (t : FpText F) : Prop :=
  ∃ at_ layer hide effects ao lo eo,
    e = .list (.str (str! "fp_text") :: .str t.name :: .str t.value :: (at_ ++ (layer ++ (hide ++ effects)))) ∧
    Opt AtTree at_ ao ∧ Opt LayerTree layer lo ∧ hide = (if t.hide then [.str (str! "hide")] else []) ∧
    Opt EffectsTree effects eo ∧
    t.at_ = ao.getD ⟨zero, zero, zero⟩ ∧ t.layer = lo.getD ⟨.front, .cu⟩ ∧
    t.effects = eo.getD ⟨⟨⟨zero, zero, .xy⟩, zero, false⟩, none⟩

/-- `(fp_poly [pts] [layer] [(width w)])` -/
def FpPolyTree (e : Sexp) (p : FpPoly F) : Prop :=
  ∃ pts layer width po lo wo, e = .list (.str (str! "fp_poly") :: (pts ++ (layer ++ width))) ∧
    Opt PtsTree pts po ∧ Opt LayerTree layer lo ∧ Opt (Named (str! "width") NumTree) width wo ∧
    p.pts = po.getD [] ∧ p.layer = lo.getD ⟨.front, .cu⟩ ∧ p.width = wo.getD zero

/-- The point at the place `o`, if it has this name; otherwise zero. -/
def PointAt (o : Option (Xy F)) (t : XyType) (p : Xy F) : Prop :=
  (∃ q, o = some q ∧ q.t = t ∧ p = q) ∨ ((∀ q, o = some q → q.t ≠ t) ∧ p = ⟨zero, zero, t⟩)

/-- At most two points, and layer and width. -/
def LineParts (parts : List Sexp) (first second : Option (Xy F)) (layer : Layer) (width : F) : Prop :=
  ∃ a b l w lo wo, parts = a ++ (b ++ (l ++ w)) ∧ Opt XyTree a first ∧ Opt XyTree b second ∧ (a = [] → b = []) ∧
    Opt LayerTree l lo ∧ Opt (Named (str! "width") NumTree) w wo ∧ layer = lo.getD ⟨.front, .cu⟩ ∧ width = wo.getD zero

/-- `(fp_line [start] [end] [layer] [(width w)])`; points in the wrong place are ignored. -/
def FpLineTree (e : Sexp) (l : FpLine F) : Prop :=
  ∃ parts a b, e = .list (.str (str! "fp_line") :: parts) ∧ LineParts parts a b l.layer l.width ∧
    PointAt a .start l.start ∧ PointAt b .end_ l.end_

/-- `(fp_circle [center] [end] [layer] [(width w)])` -/
def FpCircleTree (e : Sexp) (l : FpCircle F) : Prop :=
  ∃ parts a b, e = .list (.str (str! "fp_circle") :: parts) ∧ LineParts parts a b l.layer l.width ∧
    PointAt a .center l.center ∧ PointAt b .end_ l.end_

/-- `(fp_arc [start] [end] [(angle a)] [layer] [(width w)])` -/
def FpArcTree (e : Sexp) (r : FpArc F) : Prop :=
  ∃ a b g l w ao bo go lo wo, e = .list (.str (str! "fp_arc") :: (a ++ (b ++ (g ++ (l ++ w))))) ∧
    Opt XyTree a ao ∧ Opt XyTree b bo ∧ (a = [] → b = []) ∧ Opt (Named (str! "angle") NumTree) g go ∧
    Opt LayerTree l lo ∧ Opt (Named (str! "width") NumTree) w wo ∧
    PointAt ao .start r.start ∧ PointAt bo .end_ r.end_ ∧ r.angle = go.getD zero ∧
    r.layer = lo.getD ⟨.front, .cu⟩ ∧ r.width = wo.getD zero

/-- `(model name (at xyz) (scale xyz) (rotate xyz))` -/
def ModelTree (e : Sexp) (m : Model F) : Prop :=
  ∃ a s r, e = .list [.str (str! "model"), .str m.name, a, s, r] ∧ Named (str! "at") XyzTree a m.at_ ∧
    Named (str! "scale") XyzTree s m.scale ∧ Named (str! "rotate") XyzTree r m.rotate

/-! ## Pads -/

def padTypes : List (Str × PadType) := [(str! "smd", .smd), (str! "thru_hole", .pth), (str! "np_thru_hole", .npPth)]

def padShapes : List (Str × PadShape) :=
  [(str! "rect", .rect), (str! "circle", .circle), (str! "oval", .oval), (str! "trapezoid", .trapezoid)]

/-- What the last parts of a pad say. -/
inductive PadEntry (F : Type)
  | net (n : Net)
  | solderPasteMargin (x : F)
  | solderMaskMargin (x : F)
  | clearance (x : F)
  | thermalGap (x : F)
  | zoneConnect (i : Int)

/-- `(name value …)`; what follows the value does not matter. -/
def FirstValue {α : Type} (name : Str) (P : Sexp → α → Prop) (e : Sexp) (a : α) : Prop :=
  ∃ v rest, e = .list (.str name :: v :: rest) ∧ P v a

/-- The last parts of a pad. -/
inductive PadEntryTree : Sexp → PadEntry F → Prop
  | net {e n} (h : NetTree e n) : PadEntryTree e (.net n)
  | solderPasteMargin {e x} (h : FirstValue (str! "solder_paste_margin") NumTree e x) :
      PadEntryTree e (.solderPasteMargin x)
  | solderMaskMargin {e x} (h : FirstValue (str! "solder_mask_margin") NumTree e x) :
      PadEntryTree e (.solderMaskMargin x)
  | clearance {e x} (h : FirstValue (str! "clearance") NumTree e x) : PadEntryTree e (.clearance x)
  | thermalGap {e x} (h : FirstValue (str! "thermal_gap") NumTree e x) : PadEntryTree e (.thermalGap x)
  | zoneConnect {e i} (h : FirstValue (str! "zone_connect") IntTree e i) : PadEntryTree e (.zoneConnect i)

/-- The entries of each kind. -/
def PadEntry.net? {F : Type} : PadEntry F → Option Net | .net n => some n | _ => none
def PadEntry.solderPasteMargin? {F : Type} : PadEntry F → Option F | .solderPasteMargin x => some x | _ => none
def PadEntry.solderMaskMargin? {F : Type} : PadEntry F → Option F | .solderMaskMargin x => some x | _ => none
def PadEntry.clearance? {F : Type} : PadEntry F → Option F | .clearance x => some x | _ => none
def PadEntry.thermalGap? {F : Type} : PadEntry F → Option F | .thermalGap x => some x | _ => none
def PadEntry.zoneConnect? {F : Type} : PadEntry F → Option Int | .zoneConnect i => some i | _ => none

/-- `(pad name type shape [at] [size] [drill] [layers] entry …)`: the point can have any
name, but only `size` and `rect_delta` mean anything; of entries of the same kind the
last one counts. -/
def PadTree (e : Sexp) (p : Pad F) : Prop :=
  ∃ t shape at_ xy drill layers entries ao xo lo es,
    e = .list (.str (str! "pad") :: .str p.name :: .str t :: .str shape ::
      (at_ ++ (xy ++ (drill ++ (layers ++ entries))))) ∧
    (t, p.t) ∈ padTypes ∧ (shape, p.shape) ∈ padShapes ∧ Opt AtTree at_ ao ∧ Opt XyTree xy xo ∧
    Opt DrillTree drill p.drill ∧ Opt LayersTree layers lo ∧ Many PadEntryTree entries es ∧
    p.at_ = ao.getD ⟨zero, zero, zero⟩ ∧ PointAt xo .size p.size ∧
    ((∀ q, xo = some q → q.t ≠ .rectDelta) ∧ p.rectDelta = none ∨ ∃ q, xo = some q ∧ q.t = .rectDelta ∧ p.rectDelta = some q) ∧
    p.layers = lo.getD [] ∧ p.net = (es.filterMap PadEntry.net?).getLast? ∧
    p.solderPasteMargin = (es.filterMap PadEntry.solderPasteMargin?).getLast? ∧
    p.solderMaskMargin = (es.filterMap PadEntry.solderMaskMargin?).getLast? ∧
    p.clearance = (es.filterMap PadEntry.clearance?).getLast? ∧
    p.thermalGap = (es.filterMap PadEntry.thermalGap?).getLast? ∧
    p.zoneConnect = (es.filterMap PadEntry.zoneConnect?).getLast?

/-! ## Footprints -/

/-- The elements of a footprint. -/
inductive ElemTree : Sexp → Elem F → Prop
  | locked : ElemTree (.str (str! "locked")) .locked
  | solderMaskMargin {e x} (h : FirstValue (str! "solder_mask_margin") NumTree e x) : ElemTree e (.solderMaskMargin x)
  | clearance {e x} (h : FirstValue (str! "clearance") NumTree e x) : ElemTree e (.clearance x)
  | layer {e l} (h : LayerTree e l) : ElemTree e (.layer l)
  | descr {e s} (h : FirstValue (str! "descr") WordTree e s) : ElemTree e (.descr s)
  | tags {e s} (h : FirstValue (str! "tags") WordTree e s) : ElemTree e (.tags s)
  | attr {e s} (h : FirstValue (str! "attr") WordTree e s) : ElemTree e (.attr s)
  | path {e s} (h : FirstValue (str! "path") WordTree e s) : ElemTree e (.path s)
  | tedit {e i} (h : FirstValue (str! "tedit") (fun v i => ∃ w, v = .str w ∧ HexWord w i) e i) : ElemTree e (.tedit i)
  | tstamp {e i} (h : FirstValue (str! "tstamp") (fun v i => ∃ w, v = .str w ∧ HexWord w i) e i) : ElemTree e (.tstamp i)
  | text {e t} (h : FpTextTree e t) : ElemTree e (.text t)
  | pad {e p} (h : PadTree e p) : ElemTree e (.pad p)
  | poly {e p} (h : FpPolyTree e p) : ElemTree e (.poly p)
  | line {e l} (h : FpLineTree e l) : ElemTree e (.line l)
  | circle {e c} (h : FpCircleTree e c) : ElemTree e (.circle c)
  | arc {e a} (h : FpArcTree e a) : ElemTree e (.arc a)
  | at_ {e a} (h : AtTree e a) : ElemTree e (.at_ a)
  | model {e m} (h : ModelTree e m) : ElemTree e (.model m)

/-- `(module name element …)` -/
def ModuleTree (e : Sexp) (m : Module F) : Prop :=
  ∃ parts, e = .list (.str (str! "module") :: .str m.name :: parts) ∧ Many ElemTree parts m.elements

/-- A text that stands for a footprint. -/
def FootprintText (t : Str) (m : Module F) : Prop := ∃ e, TreeText t e ∧ ModuleTree e m

end Verif.Spec
