import Verif.Model.Split
import Verif.Model.Bound
/-!
# Schematics (src/schematic.rs)

The parser state (`ParseState`, src/schematic.rs 237-262) is modelled by the
list of lines from the current position to the end of the file: `here` is its
head (panic when empty), `next` drops one line, `eof` is emptiness.
-/

namespace Verif.Sch
open Verif Flt

/-- `Orientation` (src/schematic.rs 626-631). -/
inductive Orientation | horizontal | vertical
  deriving DecidableEq, Repr

/-- `Justify` (src/schematic.rs 656-667). -/
inductive Justify | left | right | center | bottom | top
  deriving DecidableEq, Repr

/-- `ComponentField` (src/schematic.rs 698-723). -/
structure Field (F : Type) where
  i : Int
  value : Str
  orientation : Orientation
  x : F
  y : F
  size : Int
  visible : Bool
  hjustify : Justify
  vjustify : Justify
  italic : Bool
  bold : Bool
  name : Str
  deriving DecidableEq, Repr

/-- `ComponentRotation` (src/schematic.rs 617-622). -/
structure Rotation where
  a : Int
  b : Int
  c : Int
  d : Int
  deriving DecidableEq, Repr

/-- `Component` (src/schematic.rs 394-411). -/
structure Component (F : Type) where
  name : Str
  reference : Str
  u : Str
  x : Int
  y : Int
  arPath : List Str
  fields : List (Field F)
  rotation : Rotation
  deriving DecidableEq, Repr

/-- `Description` (src/schematic.rs 278-305). -/
structure Description where
  size : Str
  dimx : Int
  dimy : Int
  title : Str
  date : Str
  rev : Str
  comp : Str
  comment1 : Str
  comment2 : Str
  comment3 : Str
  comment4 : Str
  sheet : Int
  sheetCount : Int
  deriving DecidableEq, Repr

/-- `LabelForm` (src/schematic.rs 922-933). -/
inductive LabelForm | input | output | biDi | triState | unspecified
  deriving DecidableEq, Repr

/-- `LabelSide` (src/schematic.rs 950-959). -/
inductive LabelSide | left | right | top | bottom
  deriving DecidableEq, Repr

/-- `SheetLabel` (src/schematic.rs 877-890). -/
structure SheetLabel where
  name : Str
  form : LabelForm
  side : LabelSide
  x : Int
  y : Int
  size : Int
  deriving DecidableEq, Repr

/-- `Sheet` (src/schematic.rs 805-826). -/
structure Sheet where
  x : Int
  y : Int
  dimx : Int
  dimy : Int
  unique : Str
  name : Str
  nameSize : Int
  filename : Str
  filenameSize : Int
  labels : List SheetLabel
  deriving DecidableEq, Repr

/-- `WireType` (src/schematic.rs 975-982). -/
inductive WireType | wire | notes | bus
  deriving DecidableEq, Repr

/-- `Wire` (src/schematic.rs 997-1008). -/
structure Wire where
  type_ : WireType
  x1 : Int
  y1 : Int
  x2 : Int
  y2 : Int
  deriving DecidableEq, Repr

/-- `Connection` and `NoConnect` (src/schematic.rs 1019-1024, 1034-1039). -/
structure Pos where
  x : Int
  y : Int
  deriving DecidableEq, Repr

/-- `TextType` (src/schematic.rs 1049-1058). -/
inductive TextType | note | global | hierarchical | label
  deriving DecidableEq, Repr

/-- `Text` (src/schematic.rs 1088-1107). -/
structure Text where
  t : TextType
  x : Int
  y : Int
  orientation : Int
  size : Int
  shape : Option Str
  italic : Bool
  thickness : Int
  text : Str
  deriving DecidableEq, Repr

/-- `Element` (src/schematic.rs 346-359). -/
inductive Element (F : Type)
  | component (c : Component F)
  | wire (w : Wire)
  | connection (p : Pos)
  | noConnect (p : Pos)
  | text (t : Text)
  | other (s : Str)
  deriving DecidableEq, Repr

/-- `Schematic` (src/schematic.rs 20-33).  A path is a string here. -/
structure Schematic (F : Type) where
  filename : Option Str
  libraries : List Str
  description : Description
  elements : List (Element F)
  sheets : List Sheet
  eelayer : Str
  deriving DecidableEq, Repr

/-- `Description::default` (src/schematic.rs 307-325). -/
def Description.dflt : Description :=
  { size := [], dimx := 0, dimy := 0, title := str! "Normal", date := str! "Tue 19 May 2015",
    rev := [], comp := [], comment1 := [], comment2 := [], comment3 := [], comment4 := [],
    sheet := 1, sheetCount := 1 }

/-- `Component::default` (src/schematic.rs 413-431). -/
def Component.dflt {F : Type} : Component F :=
  { name := str! "DUMMY", reference := str! "U1", u := [], x := 0, y := 0, arPath := [],
    fields := [], rotation := ⟨0, 0, 0, 0⟩ }

/-- `SheetLabel::default` (src/schematic.rs 892-903). -/
def SheetLabel.dflt : SheetLabel :=
  { name := [], form := .input, side := .left, x := 0, y := 0, size := 60 }

/-- `Sheet::default` (src/schematic.rs 839-854). -/
def Sheet.dflt : Sheet :=
  { x := 0, y := 0, dimx := 0, dimy := 0, unique := [], name := str! "DUMMY", nameSize := 60,
    filename := [], filenameSize := 60, labels := [] }

/-- `Schematic::default` (derived, src/schematic.rs 19). -/
def Schematic.dflt {F : Type} : Schematic F :=
  { filename := none, libraries := [], description := .dflt, elements := [], sheets := [],
    eelayer := [] }

/-! ## Writing (`impl Display`) -/

/-- `impl Display for Orientation` (src/schematic.rs 644-651). -/
def Orientation.show : Orientation → Str
  | .horizontal => str! "H"
  | .vertical => str! "V"

/-- `impl Display for Justify` (src/schematic.rs 683-693). -/
def Justify.show : Justify → Str
  | .left => str! "L"
  | .right => str! "R"
  | .center => str! "C"
  | .bottom => str! "B"
  | .top => str! "T"

/-- `impl Display for Description` (src/schematic.rs 327-342). -/
def Description.show (d : Description) : Str :=
  str! "$Descr " ++ d.size ++ str! " " ++ showInt d.dimx ++ str! " " ++ showInt d.dimy ++ str! "\n" ++
  str! "encoding utf-8\n" ++
  str! "Sheet " ++ showInt d.sheet ++ str! " " ++ showInt d.sheetCount ++ str! "\n" ++
  str! "Title \"" ++ d.title ++ str! "\"\n" ++
  str! "Date \"" ++ d.date ++ str! "\"\n" ++
  str! "Rev \"" ++ d.rev ++ str! "\"\n" ++
  str! "Comp \"" ++ d.comp ++ str! "\"\n" ++
  str! "Comment1 \"" ++ d.comment1 ++ str! "\"\n" ++
  str! "Comment2 \"" ++ d.comment2 ++ str! "\"\n" ++
  str! "Comment3 \"" ++ d.comment3 ++ str! "\"\n" ++
  str! "Comment4 \"" ++ d.comment4 ++ str! "\"\n" ++
  str! "$EndDescr\n"

/-- `impl Display for ComponentField` (src/schematic.rs 782-801). -/
def Field.show {F : Type} [Flt F] (f : Field F) : Str :=
  str! "F " ++ showInt f.i ++ str! " \"" ++ f.value ++ str! "\" " ++ f.orientation.show ++ str! " " ++
  padRight 3 (toStr f.x) ++ str! " " ++ padRight 3 (toStr f.y) ++ str! " " ++
    padRight 3 (showInt f.size) ++ str! " " ++
  (if f.visible then str! "0000" else str! "0001") ++ str! " " ++
  f.hjustify.show ++ str! " " ++ f.vjustify.show ++
  (if f.italic then str! "I" else str! "N") ++
  (if f.bold then str! "B" else str! "N") ++
  (if f.i > 3 then str! " \"" ++ f.name ++ str! "\"" else [])

/-- `impl Display for Component` (src/schematic.rs 584-613). -/
def Component.show {F : Type} [Flt F] (c : Component F) : Str :=
  str! "$Comp\n" ++
  str! "L " ++ c.name ++ str! " " ++ c.reference ++ str! "\n" ++
  c.u ++ str! "\n" ++
  str! "P " ++ showInt c.x ++ str! " " ++ showInt c.y ++ str! "\n" ++
  (c.arPath.map fun a => a ++ str! "\n").flatten ++
  (c.fields.map fun f => f.show ++ str! "\n").flatten ++
  str! "\t" ++ padRight 4 (str! "1") ++ str! " " ++ padRight 4 (showInt c.x) ++ str! " " ++
    padRight 4 (showInt c.y) ++ str! "\n" ++
  str! "\t" ++ padRight 4 (showInt c.rotation.a) ++ str! " " ++ padRight 4 (showInt c.rotation.b) ++
    str! " " ++ padRight 4 (showInt c.rotation.c) ++ str! " " ++
    padRight 4 (showInt c.rotation.d) ++ str! "\n" ++
  str! "$EndComp\n"

/-- `impl Display for WireType` (src/schematic.rs 984-993). -/
def WireType.show : WireType → Str
  | .wire => str! "Wire"
  | .notes => str! "Notes"
  | .bus => str! "Bus"

/-- `impl Display for Wire` (src/schematic.rs 1010-1015). -/
def Wire.show (w : Wire) : Str :=
  str! "Wire " ++ w.type_.show ++ str! " Line\n" ++
  str! "\t" ++ showInt w.x1 ++ str! " " ++ showInt w.y1 ++ str! " " ++ showInt w.x2 ++ str! " " ++
    showInt w.y2 ++ str! "\n"

/-- `impl Display for Connection` (src/schematic.rs 1026-1030). -/
def showConnection (p : Pos) : Str :=
  str! "Connection ~ " ++ showInt p.x ++ str! " " ++ showInt p.y ++ str! "\n"

/-- `impl Display for NoConnect` (src/schematic.rs 1041-1045). -/
def showNoConnect (p : Pos) : Str :=
  str! "NoConn ~ " ++ showInt p.x ++ str! " " ++ showInt p.y ++ str! "\n"

/-- `impl Display for TextType` (src/schematic.rs 1060-1070). -/
def TextType.show : TextType → Str
  | .note => str! "Notes"
  | .global => str! "GLabel"
  | .hierarchical => str! "HLabel"
  | .label => str! "Label"

/-- `impl Display for Text` (src/schematic.rs 1109-1127). -/
def Text.show (t : Text) : Str :=
  str! "Text " ++ t.t.show ++ str! " " ++
  padRight 4 (showInt t.x) ++ str! " " ++ padRight 4 (showInt t.y) ++ str! " " ++
  padRight 4 (showInt t.orientation) ++ str! " " ++ padRight 4 (showInt t.size) ++ str! " " ++
  (match t.shape with | some s => s ++ str! " " | none => []) ++
  (if t.italic then str! "Italic" else str! "~") ++ str! " " ++ showInt t.thickness ++ str! "\n" ++
  t.text ++ str! "\n"

/-- `impl Display for Element` (src/schematic.rs 377-388). -/
def Element.show {F : Type} [Flt F] : Element F → Str
  | .component c => c.show
  | .wire w => w.show
  | .connection p => showConnection p
  | .noConnect p => showNoConnect p
  | .text t => t.show
  | .other s => s ++ str! "\n"

/-- `impl Display for LabelForm` (src/schematic.rs 935-946). -/
def LabelForm.show : LabelForm → Str
  | .input => str! "I"
  | .output => str! "O"
  | .biDi => str! "B"
  | .triState => str! "T"
  | .unspecified => str! "U"

/-- `impl Display for LabelSide` (src/schematic.rs 961-971). -/
def LabelSide.show : LabelSide → Str
  | .left => str! "L"
  | .right => str! "R"
  | .top => str! "T"
  | .bottom => str! "B"

/-- `impl Display for SheetLabel` (src/schematic.rs 905-918). -/
def SheetLabel.show (l : SheetLabel) : Str :=
  str! "\"" ++ l.name ++ str! "\" " ++ l.form.show ++ str! " " ++ l.side.show ++ str! " " ++
  showInt l.x ++ str! " " ++ showInt l.y ++ str! " " ++ showInt l.size

/-- The label lines of a sheet, numbered from `i` (src/schematic.rs 863-867).
Simplification: the counter is unbounded (an `i32` in the code; `printLabels` below
has the `i32`). -/
def showLabels : Nat → List SheetLabel → Str
  | _, [] => []
  | i, l :: ls => str! "F" ++ showNat i ++ str! " " ++ l.show ++ str! "\n" ++ showLabels (i + 1) ls

/-- `impl Display for Sheet` (src/schematic.rs 856-870). -/
def Sheet.show (s : Sheet) : Str :=
  str! "$Sheet\n" ++
  str! "S " ++ showInt s.x ++ str! " " ++ showInt s.y ++ str! " " ++ showInt s.dimx ++ str! " " ++
    showInt s.dimy ++ str! "\n" ++
  str! "U " ++ s.unique ++ str! "\n" ++
  str! "F0 \"" ++ s.name ++ str! "\" " ++ showInt s.nameSize ++ str! "\n" ++
  str! "F1 \"" ++ s.filename ++ str! "\" " ++ showInt s.filenameSize ++ str! "\n" ++
  showLabels 2 s.labels ++
  str! "$EndSheet\n"

/-- `impl Display for Schematic` (src/schematic.rs 205-223). -/
def Schematic.show {F : Type} [Flt F] (s : Schematic F) : Str :=
  str! "EESchema Schematic File Version 2\n" ++
  (s.libraries.map fun l => str! "LIBS:" ++ l ++ str! "\n").flatten ++
  s.eelayer ++ str! "\n" ++
  str! "EELAYER END\n" ++
  s.description.show ++
  (s.elements.map Element.show).flatten ++
  (s.sheets.map Sheet.show).flatten ++
  str! "$EndSCHEMATC\n"

/-- The label lines of a sheet with the counter of the code, an `i32` that is
incremented after each label (src/schematic.rs 863-867); the increment panics on
overflow (builds with overflow checks). -/
def printLabels : Nat → List SheetLabel → Res Str
  | _, [] => .ok []
  | i, l :: ls =>
    if i = 2147483647 then .panic
    else do
      let r ← printLabels (i + 1) ls
      .ok (str! "F" ++ showNat i ++ str! " " ++ l.show ++ str! "\n" ++ r)

/-- `impl Display for Sheet` (src/schematic.rs 856-870), with the `i32` counter. -/
def Sheet.print (s : Sheet) : Res Str := do
  let ls ← printLabels 2 s.labels
  .ok (str! "$Sheet\n" ++
    str! "S " ++ showInt s.x ++ str! " " ++ showInt s.y ++ str! " " ++ showInt s.dimx ++ str! " " ++
      showInt s.dimy ++ str! "\n" ++
    str! "U " ++ s.unique ++ str! "\n" ++
    str! "F0 \"" ++ s.name ++ str! "\" " ++ showInt s.nameSize ++ str! "\n" ++
    str! "F1 \"" ++ s.filename ++ str! "\" " ++ showInt s.filenameSize ++ str! "\n" ++
    ls ++ str! "$EndSheet\n")

/-- The sheets of a schematic one after the other (src/schematic.rs 219-221). -/
def printSheets : List Sheet → Res Str
  | [] => .ok []
  | x :: xs => do
    let t ← x.print
    let r ← printSheets xs
    .ok (t ++ r)

/-- `impl Display for Schematic` (src/schematic.rs 205-223) as used by `to_string`,
with the `i32` counter of the sheet labels. -/
def Schematic.print {F : Type} [Flt F] (s : Schematic F) : Res Str := do
  let sheets ← printSheets s.sheets
  .ok (str! "EESchema Schematic File Version 2\n" ++
    (s.libraries.map fun l => str! "LIBS:" ++ l ++ str! "\n").flatten ++
    s.eelayer ++ str! "\n" ++
    str! "EELAYER END\n" ++
    s.description.show ++
    (s.elements.map Element.show).flatten ++
    sheets ++
    str! "$EndSCHEMATC\n")

/-! ## Reading -/

/-- `ParseState::here` (src/schematic.rs 251-253): panics past the end. -/
def here (p : List Str) : Res Str :=
  match p with
  | [] => .panic
  | s :: _ => .ok s

/-- `ParseState::next` (src/schematic.rs 255-257). -/
def next (p : List Str) : List Str := p.drop 1

/-- `assume_line!` (src/schematic.rs 225-235): returns the advanced state. -/
def assumeLine (exp : Str) (p : List Str) : Res (List Str) :=
  match p with
  | [] => .err .other
  | s :: rest => if s ≠ exp then .err .other else .ok rest

/-- `char_at` (src/schematic.rs 1129-1132): panics out of bounds. -/
def charAt (s : Str) (n : Nat) : Res Char :=
  match s[n]? with
  | some c => .ok c
  | none => .panic

/-- `i64_from_string` (src/schematic.rs 1142-1147). -/
def i64R (s : Str) : Res Int :=
  match i64FromStr s with
  | some i => .ok i
  | none => .err .other

/-- `f64_from_string` (src/schematic.rs 1149-1154). -/
def f64R {F : Type} [Flt F] (s : Str) : Res F :=
  match (ofStr s : Option F) with
  | some x => .ok x
  | none => .err .other

/-- `bool_from_string` and `bool_from` (src/schematic.rs 1156-1174). -/
def boolFrom {α : Type} [DecidableEq α] (x t f : α) : Res Bool :=
  if x = t then .ok true else if x = f then .ok false else .err .other

/-- `assume_string` (src/schematic.rs 1135-1140). -/
def assumeString (e s : Str) : Res Unit := if e ≠ s then .err .other else .ok ()

/-- Indexing a vector, panicking out of bounds (e.g. src/schematic.rs 734). -/
def idx (v : List Str) (n : Nat) : Res Str :=
  match v[n]? with
  | some s => .ok s
  | none => .panic

/-- `Orientation::new` (src/schematic.rs 635-641). -/
def Orientation.new (c : Char) : Res Orientation :=
  if c = 'H' then .ok .horizontal else if c = 'V' then .ok .vertical else .err .other

/-- `Justify::new` (src/schematic.rs 671-680). -/
def Justify.new (c : Char) : Res Justify :=
  if c = 'C' then .ok .center else if c = 'R' then .ok .right else if c = 'L' then .ok .left
  else if c = 'B' then .ok .bottom else if c = 'T' then .ok .top else .err .other

/-- `ComponentField::new` (src/schematic.rs 726-761). -/
def Field.new {F : Type} [Flt F] (v : List Str) : Res (Field F) :=
  if v.length ≠ 10 ∧ v.length ≠ 11 then .err .other
  else do
    let i ← i64R (← idx v 1)
    let name ←
      if v.length = 11 then idx v 10
      else if i = 0 then .ok (str! "Reference")
      else if i = 1 then .ok (str! "Value")
      else if i = 2 then .ok (str! "Footprint")
      else if i = 3 then .ok (str! "UserDocLink")
      else .err .other
    let value ← idx v 2
    let orientation ← Orientation.new (← charAt (← idx v 3) 0)
    let x ← f64R (← idx v 4)
    let y ← f64R (← idx v 5)
    let size ← i64R (← idx v 6)
    let visible ← boolFrom (← idx v 7) (str! "0000") (str! "0001")
    let hjustify ← Justify.new (← charAt (← idx v 8) 0)
    let vjustify ← Justify.new (← charAt (← idx v 9) 0)
    let italic ← boolFrom (← charAt (← idx v 9) 1) 'I' 'N'
    let bold ← boolFrom (← charAt (← idx v 9) 2) 'B' 'N'
    .ok { i, value, orientation, x, y, size, visible, hjustify, vjustify, italic, bold, name }

/-- `word_and_qstring` (src/schematic.rs 1176-1184): the string found after the
word `name`. -/
def wordAndQstring (name s : Str) : Res Str := do
  let v ← splitN 2 s
  assumeString name (← idx v 0)
  idx v 1

/-- `parse_description` (src/schematic.rs 1187-1220); the returned state is at
the `$EndDescr` line. -/
def parseDescription (p : List Str) : Res (Description × List Str) := do
  let v ← splitN 4 (← here p)
  let size ← idx v 1
  let dimx ← i64R (← idx v 2)
  let dimy ← i64R (← idx v 3)
  let p := next (next p)
  let v ← splitN 3 (← here p)
  if (← idx v 0) ≠ str! "Sheet" then .err .other
  else do
    let sheet ← i64R (← idx v 1)
    let sheetCount ← i64R (← idx v 2)
    let p := next p
    let title ← wordAndQstring (str! "Title") (← here p)
    let p := next p
    let date ← wordAndQstring (str! "Date") (← here p)
    let p := next p
    let rev ← wordAndQstring (str! "Rev") (← here p)
    let p := next p
    let comp ← wordAndQstring (str! "Comp") (← here p)
    let p := next p
    let comment1 ← wordAndQstring (str! "Comment1") (← here p)
    let p := next p
    let comment2 ← wordAndQstring (str! "Comment2") (← here p)
    let p := next p
    let comment3 ← wordAndQstring (str! "Comment3") (← here p)
    let p := next p
    let comment4 ← wordAndQstring (str! "Comment4") (← here p)
    let p := next p
    assumeString (str! "$EndDescr") (← here p)
    .ok ({ size, dimx, dimy, title, date, rev, comp, comment1, comment2, comment3, comment4,
           sheet, sheetCount }, p)

/-- `parse_component_l` (src/schematic.rs 1222-1227). -/
def parseComponentL {F : Type} (s : Str) (d : Component F) : Res (Component F) := do
  let v ← splitN 3 s
  let n ← idx v 1
  let r ← idx v 2
  .ok { d with name := n, reference := r }

/-- `parse_component_p` (src/schematic.rs 1239-1244). -/
def parseComponentP {F : Type} (s : Str) (d : Component F) : Res (Component F) := do
  let v ← splitN 3 s
  let x ← i64R (← idx v 1)
  let y ← i64R (← idx v 2)
  .ok { d with x := x, y := y }

/-- `parse_component_f` (src/schematic.rs 1246-1255). -/
def parseComponentF {F : Type} [Flt F] (s : Str) (d : Component F) : Res (Component F) := do
  let v ← splitQ s
  let f ← Field.new v
  .ok { d with fields := d.fields ++ [f] }

/-- The second half of `parse_component_rotation` (src/schematic.rs 1259-1276),
on the line after the position line. -/
def parseRotation (s : Str) : Res Rotation := do
  let v := splitWs s
  if v.length ≠ 4 then .err .other
  else do
    let a ← i64R (← idx v 0)
    let b ← i64R (← idx v 1)
    let c ← i64R (← idx v 2)
    let d ← i64R (← idx v 3)
    .ok ⟨a, b, c, d⟩

/-- The loop of `parse_component` (src/schematic.rs 1281-1296); the returned
state is at the `$EndComp` line.  `println!` output is not modelled. -/
def parseComponentLoop {F : Type} [Flt F] (d : Component F) :
    List Str → Res (Component F × List Str)
  | [] => .panic
  | s :: rest =>
    if s = str! "$EndComp" then .ok (d, s :: rest)
    else
      let w := firstWord s
      if w = some (str! "L") then do
        let d ← parseComponentL s d
        parseComponentLoop d rest
      else if w = some (str! "U") then parseComponentLoop { d with u := s } rest
      else if w = some (str! "P") then do
        let d ← parseComponentP s d
        parseComponentLoop d rest
      else if w = some (str! "F") then do
        let d ← parseComponentF s d
        parseComponentLoop d rest
      else if w = some (str! "1") ∨ w = some (str! "0") then
        match rest with
        | [] => .panic
        | s2 :: rest2 => do
          let r ← parseRotation s2
          parseComponentLoop { d with rotation := r } rest2
      else if w = some (str! "AR") then parseComponentLoop { d with arPath := d.arPath ++ [s] } rest
      else parseComponentLoop d rest

/-- `parse_component` (src/schematic.rs 1278-1298). -/
def parseComponent {F : Type} [Flt F] (p : List Str) : Res (Component F × List Str) :=
  parseComponentLoop .dflt (next p)

/-- `parse_sheet_s` (src/schematic.rs 1301-1308). -/
def parseSheetS (l : Str) (s : Sheet) : Res Sheet := do
  let v ← splitN 5 l
  let x ← i64R (← idx v 1)
  let y ← i64R (← idx v 2)
  let dimx ← i64R (← idx v 3)
  let dimy ← i64R (← idx v 4)
  .ok { s with x := x, y := y, dimx := dimx, dimy := dimy }

/-- `parse_sheet_u` (src/schematic.rs 1311-1315). -/
def parseSheetU (l : Str) (s : Sheet) : Res Sheet := do
  let v ← splitN 2 l
  let u ← idx v 1
  .ok { s with unique := u }

/-- `parse_label_form` (src/schematic.rs 1317-1326). -/
def parseLabelForm (s : Str) : Res LabelForm :=
  if s = str! "I" then .ok .input else if s = str! "O" then .ok .output
  else if s = str! "B" then .ok .biDi else if s = str! "T" then .ok .triState
  else if s = str! "U" then .ok .unspecified else .err .other

/-- `parse_label_side` (src/schematic.rs 1328-1336). -/
def parseLabelSide (s : Str) : Res LabelSide :=
  if s = str! "L" then .ok .left else if s = str! "R" then .ok .right
  else if s = str! "T" then .ok .top else if s = str! "B" then .ok .bottom else .err .other

/-- `parse_sheet_label` (src/schematic.rs 1340-1350). -/
def parseSheetLabel (s : Str) : Res SheetLabel := do
  let v ← splitN 7 s
  let name ← idx v 1
  let form ← parseLabelForm (← idx v 2)
  let side ← parseLabelSide (← idx v 3)
  let x ← i64R (← idx v 4)
  let y ← i64R (← idx v 5)
  let size ← i64R (← idx v 6)
  .ok { name, form, side, x, y, size }

/-- `parse_sheet_f` (src/schematic.rs 1352-1370); `f` starts with `F`. -/
def parseSheetF (l : Str) (s : Sheet) (f : Str) : Res Sheet := do
  let i ← i64R (f.drop 1)
  if i = 0 then do
    let v ← splitN 3 l
    let name ← idx v 1
    let sz ← i64R (← idx v 2)
    .ok { s with name := name, nameSize := sz }
  else if i = 1 then do
    let v ← splitN 3 l
    let name ← idx v 1
    let sz ← i64R (← idx v 2)
    .ok { s with filename := name, filenameSize := sz }
  else do
    let lab ← parseSheetLabel l
    .ok { s with labels := s.labels ++ [lab] }

/-- The loop of `parse_sheet` (src/schematic.rs 1376-1392). -/
def parseSheetLoop (s : Sheet) : List Str → Res (Sheet × List Str)
  | [] => .panic
  | st :: rest =>
    if st = str! "$EndSheet" then .ok (s, st :: rest)
    else
      match firstWord st with
      | some w =>
        if w = str! "S" then do
          let s ← parseSheetS st s
          parseSheetLoop s rest
        else if w = str! "U" then do
          let s ← parseSheetU st s
          parseSheetLoop s rest
        else if startsWith w (str! "F") then do
          let s ← parseSheetF st s w
          parseSheetLoop s rest
        else parseSheetLoop s rest
      | none => parseSheetLoop s rest

/-- `parse_sheet` (src/schematic.rs 1373-1394). -/
def parseSheet (p : List Str) : Res (Sheet × List Str) := parseSheetLoop .dflt (next p)

/-- `parse_wire` (src/schematic.rs 1398-1426); the returned state is at the
coordinate line. -/
def parseWire (p : List Str) : Res (Wire × List Str) := do
  let v := splitWs (← here p)
  if v.length ≠ 3 then .err .other
  else do
    let w ← idx v 1
    let t := if w = str! "Notes" then WireType.notes else if w = str! "Bus" then .bus else .wire
    let p := next p
    let v := splitWs (← here p)
    if v.length ≠ 4 then .err .other
    else do
      let x1 ← i64R (← idx v 0)
      let y1 ← i64R (← idx v 1)
      let x2 ← i64R (← idx v 2)
      let y2 ← i64R (← idx v 3)
      .ok (⟨t, x1, y1, x2, y2⟩, p)

/-- `parse_connection` and `parse_no_connect` (src/schematic.rs 1429-1450). -/
def parsePos (s : Str) : Res Pos := do
  let v := splitWs s
  if v.length ≠ 4 then .err .other
  else do
    let x ← i64R (← idx v 2)
    let y ← i64R (← idx v 3)
    .ok ⟨x, y⟩

/-- The type word of `parse_text` (src/schematic.rs 1462-1468). -/
def parseTextType (s : Str) : Res TextType :=
  if s = str! "Label" then .ok .label else if s = str! "Notes" then .ok .note
  else if s = str! "GLabel" then .ok .global else if s = str! "HLabel" then .ok .hierarchical
  else .err .other

/-- `TextType::is_local` (src/schematic.rs 1072-1079). -/
def TextType.isLocal : TextType → Bool
  | .note => true
  | .label => true
  | .global => false
  | .hierarchical => false

/-- `parse_text` (src/schematic.rs 1456-1498); the returned state is at the text
line. -/
def parseText (p : List Str) : Res (Text × List Str) := do
  let v := splitWs (← here p)
  if v.length < 8 then .err .other
  else do
    let t ← parseTextType (← idx v 1)
    let x ← i64R (← idx v 2)
    let y ← i64R (← idx v 3)
    let orientation ← i64R (← idx v 4)
    let size ← i64R (← idx v 5)
    let index := if t.isLocal then 6 else 7
    let shape ← if t.isLocal then .ok none else do
      let s ← idx v 6
      .ok (some s)
    let italicWord ← idx v index
    let thickness ← i64R (← idx v (index + 1))
    let p := next p
    let text ← here p
    .ok ({ t, x, y, orientation, size, shape, italic := decide (italicWord = str! "Italic"),
           thickness, text }, p)

/-- The `LIBS:` loop of `parse` (src/schematic.rs 1507-1516), with `add_library` (50-52). -/
def parseLibs {F : Type} (sch : Schematic F) : List Str → Schematic F × List Str
  | [] => (sch, [])
  | s :: rest =>
    if startsWith s (str! "LIBS:") then
      parseLibs { sch with libraries := sch.libraries ++ [s.drop 5] } rest
    else (sch, s :: rest)

/-- One iteration of the main loop of `parse` (src/schematic.rs 1524-1558),
without the final `p.next()`; with `set_description` and the `append_*` functions (54-84). -/
def parseItem {F : Type} [Flt F] (sch : Schematic F) (p : List Str) :
    Res (Schematic F × List Str) := do
  let s ← here p
  match firstWord s with
  | none => .panic
  | some w =>
    if w = str! "$Descr" then do
      let (d, p) ← parseDescription p
      .ok ({ sch with description := d }, p)
    else if w = str! "$Comp" then do
      let (d, p) ← parseComponent p
      .ok ({ sch with elements := sch.elements ++ [.component d] }, p)
    else if w = str! "$Sheet" then do
      let (d, p) ← parseSheet p
      .ok ({ sch with sheets := sch.sheets ++ [d] }, p)
    else if w = str! "$EndSCHEMATC" then .ok (sch, p)
    else if w = str! "Wire" then do
      let (d, p) ← parseWire p
      .ok ({ sch with elements := sch.elements ++ [.wire d] }, p)
    else if w = str! "Connection" then do
      let d ← parsePos s
      .ok ({ sch with elements := sch.elements ++ [.connection d] }, p)
    else if w = str! "NoConn" then do
      let d ← parsePos s
      .ok ({ sch with elements := sch.elements ++ [.noConnect d] }, p)
    else if w = str! "Text" then do
      let (d, p) ← parseText p
      .ok ({ sch with elements := sch.elements ++ [.text d] }, p)
    else .ok ({ sch with elements := sch.elements ++ [.other s] }, p)

/-- The main loop of `parse` (src/schematic.rs 1523-1560).  `fuel` bounds the
number of iterations; `parse` starts it with the number of lines. -/
def parseItems {F : Type} [Flt F] : Nat → Schematic F → List Str → Res (Schematic F)
  | _, sch, [] => .ok sch
  | 0, _, _ :: _ => .diverge
  | fuel + 1, sch, p => do
    let (sch, p) ← parseItem sch p
    parseItems fuel sch (next p)

/-- `parse` after splitting into lines (src/schematic.rs 1505-1562). -/
def parseLines {F : Type} [Flt F] (filename : Option Str) (v : List Str) : Res (Schematic F) := do
  let sch : Schematic F := { Schematic.dflt with filename := filename }
  let p ← assumeLine (str! "EESchema Schematic File Version 2") v
  let (sch, p) := parseLibs sch p
  let s ← here p
  if !startsWith s (str! "EELAYER ") then .err .other
  else do
    let sch := { sch with eelayer := s }
    let p ← assumeLine (str! "EELAYER END") (next p)
    parseItems p.length sch p

/-- `parse` (src/schematic.rs 1501-1562). -/
def parse {F : Type} [Flt F] (filename : Option Str) (s : Str) : Res (Schematic F) :=
  parseLines filename (lines s)

/-- `parse_str` (src/schematic.rs 1566-1568). -/
def parseStr {F : Type} [Flt F] (s : Str) : Res (Schematic F) := parse none s

end Verif.Sch
