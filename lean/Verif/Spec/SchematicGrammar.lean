import Verif.Spec.Numerals
import Verif.Spec.Cut
import Verif.Spec.SymbolGrammar
import Verif.Model.Schematic
/-!
# The language of schematic files

Which lines make up a schematic, and what they stand for.
-/

namespace Verif.Spec
open Verif Sch

variable {F : Type} [Flt F]

/-! ## Words between white space -/

/-- `SpacedWords s ws`: the words of the line `s` between white space are `ws`. -/
inductive SpacedWords : Str → List Str → Prop
  /-- nothing left -/
  | nil : SpacedWords [] []
  /-- white space is skipped -/
  | skip {c s ws} (hc : isWs c = true) (h : SpacedWords s ws) : SpacedWords (c :: s) ws
  /-- the last word -/
  | last {w} (h0 : w ≠ []) (hw : ∀ c ∈ w, isWs c = false) : SpacedWords w [w]
  /-- a word, white space and what follows -/
  | word {w c s ws} (h0 : w ≠ []) (hw : ∀ c ∈ w, isWs c = false) (hc : isWs c = true) (h : SpacedWords s ws) :
      SpacedWords (w ++ c :: s) (w :: ws)

/-- The line begins with this word. -/
def BeginsWith (w line : Str) : Prop := ∃ ws, SpacedWords line (w :: ws)

/-- The first words of a line: at least `n`, what follows after them is not cut. -/
def FirstWords (n : Nat) (line : Str) (ws : List Str) : Prop := Cut (some n) line ws ∧ n ≤ ws.length

/-! ## The title block -/

/-- `name "value"` -/
def EntryLine (name line value : Str) : Prop := ∃ rest, FirstWords 2 line (name :: value :: rest)

/-- The twelve lines of a title block.  The second one (the encoding) can be anything. -/
def DescrLines (ls : List Str) (d : Description) : Prop :=
  ∃ descr encoding sheet title date rev comp c1 c2 c3 c4,
    ls = [descr, encoding, sheet, title, date, rev, comp, c1, c2, c3, c4, str! "$EndDescr"] ∧
    (∃ first dimx dimy rest, FirstWords 4 descr (first :: d.size :: dimx :: dimy :: rest) ∧
      IntWord dimx d.dimx ∧ IntWord dimy d.dimy) ∧
    (∃ number count rest, FirstWords 3 sheet (str! "Sheet" :: number :: count :: rest) ∧
      IntWord number d.sheet ∧ IntWord count d.sheetCount) ∧
    EntryLine (str! "Title") title d.title ∧ EntryLine (str! "Date") date d.date ∧
    EntryLine (str! "Rev") rev d.rev ∧ EntryLine (str! "Comp") comp d.comp ∧
    EntryLine (str! "Comment1") c1 d.comment1 ∧ EntryLine (str! "Comment2") c2 d.comment2 ∧
    EntryLine (str! "Comment3") c3 d.comment3 ∧ EntryLine (str! "Comment4") c4 d.comment4

/-! ## Components -/

/-- `F n "value" direction x y size visible align align+italic+bold ["name"]` -/
def CompFieldLine (line : Str) (f : Sch.Field F) : Prop :=
  ∃ first number value dir r1 x y size shown hor r2 ver it bo r3 name,
    HasWords line ([first, number, value, dir :: r1, x, y, size, shown, hor :: r2, ver :: it :: bo :: r3] ++ name) ∧
    IntWord number f.i ∧ f.value = value ∧ (dir, f.orientation) ∈ directions ∧ FloatWord x f.x ∧ FloatWord y f.y ∧
    IntWord size f.size ∧ Choice (str! "0000") (str! "0001") shown f.visible ∧
    (hor, f.hjustify) ∈ alignments ∧ (ver, f.vjustify) ∈ alignments ∧ Choice 'I' 'N' it f.italic ∧
    Choice 'B' 'N' bo f.bold ∧ (name = [] ∧ (f.i, f.name) ∈ fixedNames ∨ name = [f.name])

/-- What a line of a component says. -/
inductive CompEntry (F : Type)
  | names (name reference : Str)
  | unit (line : Str)
  | position (x y : Int)
  | field (f : Sch.Field F)
  | rotation (r : Rotation)
  | path (line : Str)

/-- The words that begin the lines of a component. -/
def compWords : List Str := [str! "L", str! "U", str! "P", str! "F", str! "1", str! "0", str! "AR"]

/-- The lines of a component between its first and its last one. -/
inductive CompLines : List Str → List (CompEntry F) → Prop
  | nil : CompLines [] []
  | names {l n r rest ls es} (hb : BeginsWith (str! "L") l) (hw : ∃ a, FirstWords 3 l (a :: n :: r :: rest))
      (h : CompLines ls es) : CompLines (l :: ls) (.names n r :: es)
  | unit {l ls es} (hb : BeginsWith (str! "U") l) (h : CompLines ls es) : CompLines (l :: ls) (.unit l :: es)
  | position {l x y ls es} (hb : BeginsWith (str! "P") l)
      (hw : ∃ a u v rest, FirstWords 3 l (a :: u :: v :: rest) ∧ IntWord u x ∧ IntWord v y)
      (h : CompLines ls es) : CompLines (l :: ls) (.position x y :: es)
  | field {l f ls es} (hb : BeginsWith (str! "F") l) (hf : CompFieldLine l f) (h : CompLines ls es) :
      CompLines (l :: ls) (.field f :: es)
  | rotation {l m r ls es} (hb : BeginsWith (str! "1") l ∨ BeginsWith (str! "0") l)
      (hw : ∃ a b c d, SpacedWords m [a, b, c, d] ∧ IntWord a r.a ∧ IntWord b r.b ∧ IntWord c r.c ∧ IntWord d r.d)
      (h : CompLines ls es) : CompLines (l :: m :: ls) (.rotation r :: es)
  | path {l ls es} (hb : BeginsWith (str! "AR") l) (h : CompLines ls es) : CompLines (l :: ls) (.path l :: es)
  /-- other lines mean nothing -/
  | other {l ls es} (hb : ∀ w ∈ compWords, ¬ BeginsWith w l) (he : l ≠ str! "$EndComp") (h : CompLines ls es) :
      CompLines (l :: ls) es

/-- The entries of each kind. -/
def CompEntry.names? {F : Type} : CompEntry F → Option (Str × Str) | .names n r => some (n, r) | _ => none
def CompEntry.unit? {F : Type} : CompEntry F → Option Str | .unit l => some l | _ => none
def CompEntry.position? {F : Type} : CompEntry F → Option (Int × Int) | .position x y => some (x, y) | _ => none
def CompEntry.rotation? {F : Type} : CompEntry F → Option Rotation | .rotation r => some r | _ => none
def CompEntry.field? {F : Type} : CompEntry F → Option (Sch.Field F) | .field f => some f | _ => none
def CompEntry.path? {F : Type} : CompEntry F → Option Str | .path l => some l | _ => none

/-- The component its entries describe: the last entry of a kind counts, fields and
paths are collected. -/
def Describes {F : Type} (es : List (CompEntry F)) (c : Component F) : Prop :=
  (c.name, c.reference) = (es.filterMap CompEntry.names?).getLastD (str! "DUMMY", str! "U1") ∧
  c.u = (es.filterMap CompEntry.unit?).getLastD [] ∧
  (c.x, c.y) = (es.filterMap CompEntry.position?).getLastD (0, 0) ∧
  c.rotation = (es.filterMap CompEntry.rotation?).getLastD ⟨0, 0, 0, 0⟩ ∧
  c.fields = es.filterMap CompEntry.field? ∧
  c.arPath = es.filterMap CompEntry.path?

/-! ## Sheets -/

def labelForms : List (Str × LabelForm) :=
  [(str! "I", .input), (str! "O", .output), (str! "B", .biDi), (str! "T", .triState), (str! "U", .unspecified)]

def labelSides : List (Str × LabelSide) :=
  [(str! "L", .left), (str! "R", .right), (str! "T", .top), (str! "B", .bottom)]

/-- What a line of a sheet says. -/
inductive SheetEntry
  | box (x y dimx dimy : Int)
  | unique (u : Str)
  | name (n : Str) (size : Int)
  | file (n : Str) (size : Int)
  | label (l : SheetLabel)

/-- The line begins with the letter `F` and this number. -/
def Numbered (l : Str) (i : Int) : Prop := ∃ n, BeginsWith ('F' :: n) l ∧ IntWord n i

/-- `Fn "text" size` -/
def NameLine (l n : Str) (size : Int) : Prop := ∃ a s rest, FirstWords 3 l (a :: n :: s :: rest) ∧ IntWord s size

/-- `Fn "text" form side x y size` -/
def LabelLine (l : Str) (s : SheetLabel) : Prop :=
  ∃ a form side x y size rest, FirstWords 7 l (a :: s.name :: form :: side :: x :: y :: size :: rest) ∧
    (form, s.form) ∈ labelForms ∧ (side, s.side) ∈ labelSides ∧ IntWord x s.x ∧ IntWord y s.y ∧ IntWord size s.size

/-- The lines of a sheet between its first and its last one. -/
inductive SheetLines : List Str → List SheetEntry → Prop
  | nil : SheetLines [] []
  | box {l x y dx dy ls es} (hb : BeginsWith (str! "S") l)
      (hw : ∃ a b c d e rest, FirstWords 5 l (a :: b :: c :: d :: e :: rest) ∧
        IntWord b x ∧ IntWord c y ∧ IntWord d dx ∧ IntWord e dy)
      (h : SheetLines ls es) : SheetLines (l :: ls) (.box x y dx dy :: es)
  | unique {l u ls es} (hb : BeginsWith (str! "U") l) (hw : ∃ a rest, FirstWords 2 l (a :: u :: rest))
      (h : SheetLines ls es) : SheetLines (l :: ls) (.unique u :: es)
  | name {l n s ls es} (hb : Numbered l 0) (hw : NameLine l n s) (h : SheetLines ls es) :
      SheetLines (l :: ls) (.name n s :: es)
  | file {l n s ls es} (hb : Numbered l 1) (hw : NameLine l n s) (h : SheetLines ls es) :
      SheetLines (l :: ls) (.file n s :: es)
  | label {l i s ls es} (hb : Numbered l i) (h0 : i ≠ 0) (h1 : i ≠ 1) (hw : LabelLine l s) (h : SheetLines ls es) :
      SheetLines (l :: ls) (.label s :: es)
  /-- other lines mean nothing -/
  | other {l ls es} (hs : ¬ BeginsWith (str! "S") l) (hu : ¬ BeginsWith (str! "U") l)
      (hf : ∀ n, ¬ BeginsWith ('F' :: n) l) (he : l ≠ str! "$EndSheet") (h : SheetLines ls es) : SheetLines (l :: ls) es

/-- The entries of each kind. -/
def SheetEntry.box? : SheetEntry → Option (Int × Int × Int × Int) | .box x y dx dy => some (x, y, dx, dy) | _ => none
def SheetEntry.unique? : SheetEntry → Option Str | .unique u => some u | _ => none
def SheetEntry.name? : SheetEntry → Option (Str × Int) | .name n z => some (n, z) | _ => none
def SheetEntry.file? : SheetEntry → Option (Str × Int) | .file n z => some (n, z) | _ => none
def SheetEntry.label? : SheetEntry → Option SheetLabel | .label l => some l | _ => none

/-- The sheet its entries describe. -/
def DescribesSheet (es : List SheetEntry) (s : Sheet) : Prop :=
  (s.x, s.y, s.dimx, s.dimy) =
    (es.filterMap SheetEntry.box?).getLastD (0, 0, 0, 0) ∧
  s.unique = (es.filterMap SheetEntry.unique?).getLastD [] ∧
  (s.name, s.nameSize) = (es.filterMap SheetEntry.name?).getLastD (str! "DUMMY", 60) ∧
  (s.filename, s.filenameSize) = (es.filterMap SheetEntry.file?).getLastD ([], 60) ∧
  s.labels = es.filterMap SheetEntry.label?

/-! ## The other elements -/

/-- `Wire kind word` and the coordinates; unknown kinds count as wires. -/
def WireLines (ls : List Str) (w : Wire) : Prop :=
  ∃ l m kind third a b c d, ls = [l, m] ∧ SpacedWords l [str! "Wire", kind, third] ∧ SpacedWords m [a, b, c, d] ∧
    (w.type_ = .notes ↔ kind = str! "Notes") ∧ (w.type_ = .bus ↔ kind = str! "Bus") ∧
    IntWord a w.x1 ∧ IntWord b w.y1 ∧ IntWord c w.x2 ∧ IntWord d w.y2

/-- `word ~ x y` -/
def PosLine (word line : Str) (p : Pos) : Prop :=
  ∃ second x y, SpacedWords line [word, second, x, y] ∧ IntWord x p.x ∧ IntWord y p.y

def textKinds : List (Str × TextType) :=
  [(str! "Label", .label), (str! "Notes", .note), (str! "GLabel", .global), (str! "HLabel", .hierarchical)]

/-- `Text kind x y orientation size [shape] italic thickness` and the text; only global
and hierarchical labels have a shape. -/
def TextLines (ls : List Str) (t : Text) : Prop :=
  ∃ l kind x y orientation size shape italic thickness rest, ls = [l, t.text] ∧
    SpacedWords l ([str! "Text", kind, x, y, orientation, size] ++ shape ++ italic :: thickness :: rest) ∧
    (kind, t.t) ∈ textKinds ∧ IntWord x t.x ∧ IntWord y t.y ∧ IntWord orientation t.orientation ∧
    IntWord size t.size ∧ shape = t.shape.toList ∧
    (t.shape.isSome ↔ t.t = .global ∨ t.t = .hierarchical) ∧
    (t.italic = true ↔ italic = str! "Italic") ∧ IntWord thickness t.thickness

/-! ## Files -/

/-- What some lines of a schematic contribute to it. -/
inductive Part (F : Type)
  | descr (d : Description)
  | element (e : Element F)
  | sheet (s : Sheet)
  | nothing

/-- The parts of each kind. -/
def Part.descr? {F : Type} : Part F → Option Description | .descr d => some d | _ => none
def Part.element? {F : Type} : Part F → Option (Element F) | .element e => some e | _ => none
def Part.sheet? {F : Type} : Part F → Option Sheet | .sheet s => some s | _ => none

/-- The words that begin known items. -/
def partWords : List Str :=
  [str! "$Descr", str! "$Comp", str! "$Sheet", str! "$EndSCHEMATC", str! "Wire", str! "Connection", str! "NoConn",
   str! "Text"]

/-- The lines of one item. -/
inductive PartLines : List Str → Part F → Prop
  | descr {l ls d} (hb : BeginsWith (str! "$Descr") l) (h : DescrLines (l :: ls) d) : PartLines (l :: ls) (.descr d)
  | component {l ls es c} (hb : BeginsWith (str! "$Comp") l) (h : CompLines ls es) (hd : Describes es c) :
      PartLines (l :: ls ++ [str! "$EndComp"]) (.element (.component c))
  | sheet {l ls es s} (hb : BeginsWith (str! "$Sheet") l) (h : SheetLines ls es) (hd : DescribesSheet es s) :
      PartLines (l :: ls ++ [str! "$EndSheet"]) (.sheet s)
  /-- the end mark means nothing -/
  | mark {l} (hb : BeginsWith (str! "$EndSCHEMATC") l) : PartLines [l] .nothing
  | wire {ls w} (h : WireLines ls w) : PartLines ls (.element (.wire w))
  | connection {l p} (h : PosLine (str! "Connection") l p) : PartLines [l] (.element (.connection p))
  | noConnect {l p} (h : PosLine (str! "NoConn") l p) : PartLines [l] (.element (.noConnect p))
  | text {ls t} (h : TextLines ls t) : PartLines ls (.element (.text t))
  /-- other lines are kept, but there must be a word in them -/
  | other {l w} (hb : BeginsWith w l) (hw : w ∉ partWords) : PartLines [l] (.element (.other l))

/-- The lines after the header. -/
inductive ContentLines : List Str → List (Part F) → Prop
  | nil : ContentLines [] []
  | cons {a b p ps} (h : PartLines a p) (ht : ContentLines b ps) : ContentLines (a ++ b) (p :: ps)

/-- The lines of a schematic. -/
def SchematicLines (ls : List Str) (s : Schematic F) : Prop :=
  ∃ layer body ps,
    ls = str! "EESchema Schematic File Version 2" :: (s.libraries.map fun n => str! "LIBS:" ++ n) ++
      (str! "EELAYER " ++ layer) :: str! "EELAYER END" :: body ∧
    s.eelayer = str! "EELAYER " ++ layer ∧ s.filename = none ∧ ContentLines body ps ∧
    s.description = (ps.filterMap Part.descr?).getLastD
      ⟨[], 0, 0, str! "Normal", str! "Tue 19 May 2015", [], [], [], [], [], [], 1, 1⟩ ∧
    s.elements = ps.filterMap Part.element? ∧
    s.sheets = ps.filterMap Part.sheet?

end Verif.Spec
