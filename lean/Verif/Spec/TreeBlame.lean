import Verif.Spec.LayoutGrammar
/-!
# What the messages about footprints and boards are about

Which trees get which message.  The trees are read part by part from the left; a message is
about the first part that cannot be read, and it exists only for some faults: a word or a name
that is not known, and a value that is missing in a part of a pad.  For other faults there is a
message of the reader of trees, which is not described here.

`disp` is how trees are shown in messages, and `dbg` how numbers are.
-/

namespace Verif.Spec
open Verif Fp Flt

/-! ## Parts in order -/

/-- There is something that the tree stands for. -/
def Reads {α : Type} (P : Sexp → α → Prop) (e : Sexp) : Prop := ∃ a, P e a

/-- A part without messages. -/
def Silent (_ : Sexp) (_ : Str) : Prop := False

/-- A place in a list of parts. -/
inductive Spot
  /-- one part, with the messages for it -/
  | need (reads : Sexp → Prop) (tells : Sexp → Str → Prop)
  /-- a part that can be left out -/
  | may (reads : Sexp → Prop)
  /-- all the other parts together -/
  | rest (tells : List Sexp → Str → Prop)

/-- `Blame spots parts m`: reading the parts in order ends with the message `m`. -/
inductive Blame : List Spot → List Sexp → Str → Prop
  | here {P Q ss x l m} (h : Q x m) : Blame (.need P Q :: ss) (x :: l) m
  | next {P Q ss x l m} (hx : P x) (h : Blame ss l m) : Blame (.need P Q :: ss) (x :: l) m
  | taken {P ss x l m} (hx : P x) (h : Blame ss l m) : Blame (.may P :: ss) (x :: l) m
  | absent {P ss l m} (hx : ∀ x r, l = x :: r → ¬ P x) (h : Blame ss l m) : Blame (.may P :: ss) l m
  | rest {R ss l m} (h : R l m) : Blame (.rest R :: ss) l m

/-- The first part that cannot be read is the one with the message. -/
def FirstFault (P : Sexp → Prop) (Q : Sexp → Str → Prop) (l : List Sexp) (m : Str) : Prop :=
  ∃ pre x post, l = pre ++ x :: post ∧ (∀ y ∈ pre, P y) ∧ Q x m

/-- `(name part …)` with a message about the parts. -/
def PartOf (name : Str) (ss : List Spot) (e : Sexp) (m : Str) : Prop :=
  ∃ parts, e = .list (.str name :: parts) ∧ Blame ss parts m

/-- A word that is not in the table. -/
def UnknownWord {α : Type} (table : List (Str × α)) (about : Str) (e : Sexp) (m : Str) : Prop :=
  ∃ w, e = .str w ∧ w ∉ table.map Prod.fst ∧ m = about ++ w

/-- A word in the table. -/
def KnownWord {α : Type} (table : List (Str × α)) (e : Sexp) : Prop := ∃ w, e = .str w ∧ w ∈ table.map Prod.fst

/-- A list whose name is not among these. -/
def UnknownName (names : List Str) (about : Str) (e : Sexp) (m : Str) : Prop :=
  ∃ n r, e = .list (.str n :: r) ∧ n ∉ names ∧ m = about ++ n

/-! ## Layers and points -/

/-- `side.kind` with an unknown side. -/
def LayerWordTells (e : Sexp) (m : Str) : Prop :=
  ∃ a b, e = .str (a ++ '.' :: b) ∧ '.' ∉ a ∧ '.' ∉ b ∧ a ∉ layerSides.map Prod.fst ∧
    m = str! "unknown layer side " ++ a

/-- A word that names a layer. -/
def LayerWordReads (e : Sexp) : Prop := ∃ s l, e = .str s ∧ LayerWord s l

def LayerTells : Sexp → Str → Prop := PartOf (str! "layer") [.need LayerWordReads LayerWordTells]

def LayersTells : Sexp → Str → Prop := PartOf (str! "layers") [.rest (FirstFault LayerWordReads LayerWordTells)]

def XyTells : Sexp → Str → Prop := UnknownName (xyNames.map Prod.fst) (str! "unknown XyType ")

/-! ## Footprints -/

section
variable (F : Type) [Flt F] (disp : Sexp → Str) (dbg : F → Str)

def PtsTells : Sexp → Str → Prop := PartOf (str! "pts") [.rest (FirstFault (Reads (XyTree (F := F))) XyTells)]

/-- The names of the last parts of a pad that have a value. -/
def padValueNames : List Str :=
  [str! "thickness", str! "solder_paste_margin", str! "solder_mask_margin", str! "clearance", str! "thermal_gap",
   str! "zone_connect"]

/-- A part with an unknown name, or without a value. -/
def PartTells (e : Sexp) (m : Str) : Prop :=
  UnknownName (str! "net" :: padValueNames) (str! "unknown part ") e m ∨
  ∃ n ∈ padValueNames, e = .list [.str n] ∧ m = str! "not enough elements in " ++ disp e

/-- A thickness can be read, but a pad has none. -/
def Thickness (e : Sexp) (x : F) : Prop := FirstValue (str! "thickness") NumTree e x

/-- The last parts of a pad; a thickness is at fault only if all parts can be read. -/
def EntriesTell (dbg : F → Str) (l : List Sexp) (m : Str) : Prop :=
  FirstFault (fun e => Reads (PadEntryTree (F := F)) e ∨ Reads (Thickness F) e) (PartTells disp) l m ∨
  ∃ pre x post v, l = pre ++ x :: post ∧ (∀ y ∈ pre, Reads (PadEntryTree (F := F)) y) ∧ Thickness F x v ∧
    (∀ y ∈ post, Reads (PadEntryTree (F := F)) y ∨ Reads (Thickness F) y) ∧
    m = str! "pad: unknown Thickness(" ++ dbg v ++ str! ")"

/-- `(pad name type shape [at] [size] [drill] [layers] entry …)` -/
def PadTells : Sexp → Str → Prop :=
  PartOf (str! "pad")
    [.need (Reads WordTree) Silent,
     .need (KnownWord padTypes) (UnknownWord padTypes (str! "unknown PadType ")),
     .need (KnownWord padShapes) (UnknownWord padShapes (str! "unknown PadShape: ")),
     .may (Reads (AtTree (F := F))), .may (Reads (XyTree (F := F))), .may (Reads (DrillTree (F := F))),
     .may (Reads LayersTree), .rest (EntriesTell F disp dbg)]

/-- The names of the elements of a footprint. -/
def elementNames : List Str :=
  [str! "solder_mask_margin", str! "layer", str! "descr", str! "tags", str! "attr", str! "fp_text", str! "pad",
   str! "fp_poly", str! "fp_line", str! "fp_circle", str! "fp_arc", str! "tedit", str! "tstamp", str! "path", str! "at",
   str! "model", str! "clearance"]

/-- Elements of a footprint: an unknown word or name, or something about a layer or a pad. -/
inductive ElemTells : Sexp → Str → Prop
  | word {w} (h : w ≠ str! "locked") : ElemTells (.str w) (str! "unknown element in module: " ++ w)
  | name {e m} (h : UnknownName elementNames (str! "unknown element in module: ") e m) : ElemTells e m
  | layer {e m} (h : LayerTells e m) : ElemTells e m
  | pad {e m} (h : PadTells F disp dbg e m) : ElemTells e m

/-- `(module name element …)` -/
def ModuleTells : Sexp → Str → Prop :=
  PartOf (str! "module")
    [.need (Reads WordTree) Silent, .rest (FirstFault (Reads (ElemTree (F := F))) (ElemTells F disp dbg))]

/-! ## Boards -/

/-- `(number name type [word])` -/
def BoardLayerTells (e : Sexp) (m : Str) : Prop :=
  ∃ parts, e = .list parts ∧
    Blame [.need (Reads IntTree) Silent, .need LayerWordReads LayerWordTells,
      .need (KnownWord boardLayerTypes) (fun e m => ∃ w, e = .str w ∧ w ∉ boardLayerTypes.map Prod.fst ∧
        m = str! "unknown layertype " ++ w ++ str! " in " ++ disp e)] parts m

def BoardLayersTells : Sexp → Str → Prop :=
  PartOf (str! "layers") [.rest (FirstFault (Reads BoardLayerTree) (BoardLayerTells disp))]

/-- The names of the parts of a net class. -/
def netClassNames : List Str :=
  [str! "add_net", str! "clearance", str! "trace_width", str! "via_dia", str! "via_drill", str! "uvia_dia",
   str! "uvia_drill", str! "diff_pair_gap", str! "diff_pair_width"]

/-- `(net_class name description item …)` -/
def NetClassTells : Sexp → Str → Prop :=
  PartOf (str! "net_class")
    [.need (Reads WordTree) Silent, .need (Reads WordTree) Silent,
     .rest (FirstFault (Reads (NetClassItemTree (F := F)))
       (UnknownName netClassNames (str! "unknown net_class field ")))]

/-- A point, and a layer. -/
def pointSpot : Spot := .need (Reads (XyTree (F := F))) XyTells
def layerSpot : Spot := .need (Reads LayerTree) LayerTells

/-- `(gr_text value at layer …)` -/
def GrTextTells : Sexp → Str → Prop :=
  PartOf (str! "gr_text") [.need (Reads WordTree) Silent, .need (Reads (AtTree (F := F))) Silent, layerSpot]

/-- `(gr_line point point [(angle a)] layer …)` -/
def GrLineTells : Sexp → Str → Prop :=
  PartOf (str! "gr_line")
    [pointSpot F, pointSpot F, .may (Reads (Named (str! "angle") (NumTree (F := F)))), layerSpot]

/-- `(gr_arc point point (angle a) layer …)` -/
def GrArcTells : Sexp → Str → Prop :=
  PartOf (str! "gr_arc")
    [pointSpot F, pointSpot F, .need (Reads (Named (str! "angle") (NumTree (F := F)))) Silent, layerSpot]

/-- `(gr_circle point point layer …)` -/
def GrCircleTells : Sexp → Str → Prop := PartOf (str! "gr_circle") [pointSpot F, pointSpot F, layerSpot]

/-- `(name pts)` -/
def ptsSpot (name : Str) : Spot :=
  .need (Reads (Named name (PtsTree (F := F)))) (fun e m => ∃ v, e = .list [.str name, v] ∧ PtsTells F v m)

/-- `(dimension name (width w) layer [(tstamp word)] gr_text (feature1 pts) … (arrow2b pts))` -/
def DimensionTells : Sexp → Str → Prop :=
  PartOf (str! "dimension")
    [.need (Reads WordTree) Silent, .need (Reads (Named (str! "width") (NumTree (F := F)))) Silent, layerSpot,
     .may (Reads (Named (str! "tstamp") WordTree)), .need (Reads (GrTextTree (F := F))) (GrTextTells F),
     ptsSpot F (str! "feature1"), ptsSpot F (str! "feature2"), ptsSpot F (str! "crossbar"), ptsSpot F (str! "arrow1a"),
     ptsSpot F (str! "arrow1b"), ptsSpot F (str! "arrow2a"), ptsSpot F (str! "arrow2b")]

/-- `(zone (net n) (net_name word) layer …)` -/
def ZoneTells : Sexp → Str → Prop :=
  PartOf (str! "zone")
    [.need (Reads (Named (str! "net") IntTree)) Silent, .need (Reads (Named (str! "net_name") WordTree)) Silent, layerSpot]

/-- `(segment point point (width w) layer …)` -/
def SegmentTells : Sexp → Str → Prop :=
  PartOf (str! "segment")
    [pointSpot F, pointSpot F, .need (Reads (Named (str! "width") (NumTree (F := F)))) Silent, layerSpot]

/-- `(via [blind] [micro] at (size x) [(drill x)] layers …)` -/
def ViaTells : Sexp → Str → Prop :=
  PartOf (str! "via")
    [.may (· = .str (str! "blind")), .may (· = .str (str! "micro")), .need (Reads (AtTree (F := F))) Silent,
     .need (Reads (Named (str! "size") (NumTree (F := F)))) Silent,
     .may (Reads (Named (str! "drill") (NumTree (F := F)))), .need (Reads LayersTree) LayersTells]

/-- The parts of a board for which there are messages. -/
inductive BoardPartTells : Sexp → Str → Prop
  | layers {e m} (h : BoardLayersTells disp e m) : BoardPartTells e m
  | module_ {e m} (h : ModuleTells F disp dbg e m) : BoardPartTells e m
  | netClass {e m} (h : NetClassTells F e m) : BoardPartTells e m
  | grText {e m} (h : GrTextTells F e m) : BoardPartTells e m
  | grLine {e m} (h : GrLineTells F e m) : BoardPartTells e m
  | grArc {e m} (h : GrArcTells F e m) : BoardPartTells e m
  | grCircle {e m} (h : GrCircleTells F e m) : BoardPartTells e m
  | dimension {e m} (h : DimensionTells F e m) : BoardPartTells e m
  | zone {e m} (h : ZoneTells e m) : BoardPartTells e m
  | segment {e m} (h : SegmentTells F e m) : BoardPartTells e m
  | via {e m} (h : ViaTells F e m) : BoardPartTells e m

/-- `(kicad_pcb part …)` -/
def BoardTells : Sexp → Str → Prop :=
  PartOf (str! "kicad_pcb") [.rest (FirstFault (Reads (BoardPartTree (F := F))) (BoardPartTells F disp dbg))]

end

end Verif.Spec
