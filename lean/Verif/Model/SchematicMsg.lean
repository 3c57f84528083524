import Verif.Model.Schematic
/-!
# The messages of the schematic reader (src/schematic.rs 225-1562)

`Model/Schematic.lean` keeps only the kind of an error; here are the same functions with
the texts of the messages.  All errors of these functions are `KicadError::Other`.
-/

namespace Verif

/-- Outcome of a function whose errors are `KicadError::Other` with a message
(`str_error`, src/error.rs 70-73, and `From<String>`, 45-49). -/
inductive Said (α : Type)
  | ok (a : α)
  | err (msg : Str)
  | panic
  | diverge
  deriving DecidableEq, Repr

namespace Said

/-- Go on after a success (`?`, e.g. src/schematic.rs 734). -/
def bind {α β : Type} (x : Said α) (f : α → Said β) : Said β :=
  match x with
  | .ok a => f a
  | .err m => .err m
  | .panic => .panic
  | .diverge => .diverge

instance : Monad Said where -- the `?` of src/schematic.rs 734
  pure := .ok
  bind := bind

/-- The outcome without the message (src/error.rs 70-73). -/
def forget {α : Type} : Said α → Res α
  | .ok a => .ok a
  | .err _ => .err .other
  | .panic => .panic
  | .diverge => .diverge

end Said

namespace Sch.Msg

/-- `parse_split_quote_aware_n` (src/lib.rs 67-77) with its message. -/
def splitN (n : Nat) (s : Str) : Said (List Str) :=
  let v := splitFinish (s.foldl (splitStep (some n)) ⟨0, [], false, false, []⟩)
  if v.length < n then .err (str! "expecting " ++ showNat n ++ str! " elements in " ++ s) else .ok v

/-- `parse_split_quote_aware` (src/lib.rs 78-80); it has no message. -/
def splitQ (s : Str) : Said (List Str) :=
  .ok (splitFinish (s.foldl (splitStep none) ⟨0, [], false, false, []⟩))

/-- `ParseState::here` (src/schematic.rs 251-253): panics past the end. -/
def here (p : List Str) : Said Str :=
  match p with
  | [] => .panic
  | s :: _ => .ok s

/-- `assume_line!` (src/schematic.rs 225-235). -/
def assumeLine (exp : Str) (p : List Str) : Said (List Str) :=
  match p with
  | [] => .err (str! "end of file reached")
  | s :: rest =>
    if s ≠ exp then .err (str! "expected '" ++ exp ++ str! "', got '" ++ s ++ str! "'") else .ok rest

/-- `char_at` (src/schematic.rs 1129-1132): panics out of bounds. -/
def charAt (s : Str) (n : Nat) : Said Char :=
  match s[n]? with
  | some c => .ok c
  | none => .panic

/-- `i64_from_string` (src/schematic.rs 1142-1147); `line` is `p.here()`. -/
def i64R (line s : Str) : Said Int :=
  match i64FromStr s with
  | some i => .ok i
  | none => .err (str! "int parse error in " ++ s ++ str! "; line: " ++ line)

/-- `f64_from_string` (src/schematic.rs 1149-1154); `line` is `p.here()`. -/
def f64R {F : Type} [Flt F] (line s : Str) : Said F :=
  match (Flt.ofStr s : Option F) with
  | some x => .ok x
  | none => .err (str! "float parse error in " ++ s ++ str! "; line: " ++ line)

/-- `bool_from_string` (src/schematic.rs 1156-1164). -/
def boolFromString (s t f : Str) : Said Bool :=
  if s = t then .ok true else if s = f then .ok false
  else .err (str! "unknown boolean " ++ s ++ str! ", expected " ++ t ++ str! " or " ++ f)

/-- `bool_from` (src/schematic.rs 1166-1174) on characters. -/
def boolFrom (i t f : Char) : Said Bool :=
  if i = t then .ok true else if i = f then .ok false
  else .err (str! "unknown boolean " ++ [i] ++ str! ", expected " ++ [t] ++ str! " or " ++ [f])

/-- `assume_string` (src/schematic.rs 1135-1140). -/
def assumeString (e s : Str) : Said Unit :=
  if e ≠ s then .err (str! "expecting: " ++ e ++ str! ", actually: " ++ s) else .ok ()

/-- Indexing a vector, panicking out of bounds (e.g. src/schematic.rs 734). -/
def idx (v : List Str) (n : Nat) : Said Str :=
  match v[n]? with
  | some s => .ok s
  | none => .panic

/-- `Orientation::new` (src/schematic.rs 635-641). -/
def orientation (c : Char) : Said Orientation :=
  if c = 'H' then .ok .horizontal else if c = 'V' then .ok .vertical
  else .err (str! "unknown orientation " ++ [c])

/-- `Justify::new` (src/schematic.rs 671-680). -/
def justify (c : Char) : Said Justify :=
  if c = 'C' then .ok .center else if c = 'R' then .ok .right else if c = 'L' then .ok .left
  else if c = 'B' then .ok .bottom else if c = 'T' then .ok .top
  else .err (str! "unexpected justify: " ++ [c])

/-- `ComponentField::new` (src/schematic.rs 726-761); `line` is `p.here()`. -/
def field {F : Type} [Flt F] (line : Str) (v : List Str) : Said (Field F) :=
  if v.length ≠ 10 ∧ v.length ≠ 11 then
    .err (str! "expecting 10 or 11 parts got " ++ showNat v.length ++ str! " in " ++ line)
  else do
    let i ← i64R line (← idx v 1)
    let name ←
      if v.length = 11 then idx v 10
      else if i = 0 then .ok (str! "Reference")
      else if i = 1 then .ok (str! "Value")
      else if i = 2 then .ok (str! "Footprint")
      else if i = 3 then .ok (str! "UserDocLink")
      else .err (str! "expecting name for componentfield > 3")
    let value ← idx v 2
    let orientation ← orientation (← charAt (← idx v 3) 0)
    let x ← f64R line (← idx v 4)
    let y ← f64R line (← idx v 5)
    let size ← i64R line (← idx v 6)
    let visible ← boolFromString (← idx v 7) (str! "0000") (str! "0001")
    let hjustify ← justify (← charAt (← idx v 8) 0)
    let vjustify ← justify (← charAt (← idx v 9) 0)
    let italic ← boolFrom (← charAt (← idx v 9) 1) 'I' 'N'
    let bold ← boolFrom (← charAt (← idx v 9) 2) 'B' 'N'
    .ok { i, value, orientation, x, y, size, visible, hjustify, vjustify, italic, bold, name }

/-- `word_and_qstring` (src/schematic.rs 1176-1184). -/
def wordAndQstring (name s : Str) : Said Str := do
  let v ← splitN 2 s
  assumeString name (← idx v 0)
  idx v 1

/-- `parse_description` (src/schematic.rs 1187-1220). -/
def parseDescription (p : List Str) : Said (Description × List Str) := do
  let line ← here p
  let v ← splitN 4 line
  let size ← idx v 1
  let dimx ← i64R line (← idx v 2)
  let dimy ← i64R line (← idx v 3)
  let p := next (next p)
  let line ← here p
  let v ← splitN 3 line
  if (← idx v 0) ≠ str! "Sheet" then .err (str! "Expecting 'Sheet'")
  else do
    let sheet ← i64R line (← idx v 1)
    let sheetCount ← i64R line (← idx v 2)
    let p := next p
    let title ← wordAndQstring (str! "Title") (← here p)
    let p := next p
    let date ← wordAndQstring (str! "Date") (← here p)
    let p := next p
    let rev ← wordAndQstring (str! "Rev") (← here p)
    let p := next p
    let comp ← wordAndQstring (str! "Comp") (← here p)
    let p := next p
    let comment1 ← wordAndQstring (str! "Comment1") (← here p)
    let p := next p
    let comment2 ← wordAndQstring (str! "Comment2") (← here p)
    let p := next p
    let comment3 ← wordAndQstring (str! "Comment3") (← here p)
    let p := next p
    let comment4 ← wordAndQstring (str! "Comment4") (← here p)
    let p := next p
    assumeString (str! "$EndDescr") (← here p)
    .ok ({ size, dimx, dimy, title, date, rev, comp, comment1, comment2, comment3, comment4,
           sheet, sheetCount }, p)

/-- `parse_component_l` (src/schematic.rs 1222-1227). -/
def parseComponentL {F : Type} (s : Str) (d : Component F) : Said (Component F) := do
  let v ← splitN 3 s
  let n ← idx v 1
  let r ← idx v 2
  .ok { d with name := n, reference := r }

/-- `parse_component_p` (src/schematic.rs 1239-1244). -/
def parseComponentP {F : Type} (s : Str) (d : Component F) : Said (Component F) := do
  let v ← splitN 3 s
  let x ← i64R s (← idx v 1)
  let y ← i64R s (← idx v 2)
  .ok { d with x := x, y := y }

/-- `parse_component_f` (src/schematic.rs 1246-1255). -/
def parseComponentF {F : Type} [Flt F] (s : Str) (d : Component F) : Said (Component F) := do
  let v ← splitQ s
  let f ← field s v
  .ok { d with fields := d.fields ++ [f] }

/-- The message of a line with a wrong number of words (e.g. src/schematic.rs 1261-1263). -/
def wrongCount (n : Str) (s : Str) : Str := str! "expecting " ++ n ++ str! " elements in " ++ s

/-- The second half of `parse_component_rotation` (src/schematic.rs 1259-1276). -/
def parseRotation (s : Str) : Said Rotation := do
  let v := splitWs s
  if v.length ≠ 4 then .err (wrongCount (str! "4") s)
  else do
    let a ← i64R s (← idx v 0)
    let b ← i64R s (← idx v 1)
    let c ← i64R s (← idx v 2)
    let d ← i64R s (← idx v 3)
    .ok ⟨a, b, c, d⟩

/-- The loop of `parse_component` (src/schematic.rs 1281-1296). -/
def parseComponentLoop {F : Type} [Flt F] (d : Component F) :
    List Str → Said (Component F × List Str)
  | [] => .panic
  | s :: rest =>
    if s = str! "$EndComp" then .ok (d, s :: rest)
    else
      let w := firstWord s
      if w = some (str! "L") then do
        let d ← parseComponentL s d
        parseComponentLoop d rest
      else if w = some (str! "U") then parseComponentLoop { d with u := s } rest
      else if w = some (str! "P") then do
        let d ← parseComponentP s d
        parseComponentLoop d rest
      else if w = some (str! "F") then do
        let d ← parseComponentF s d
        parseComponentLoop d rest
      else if w = some (str! "1") ∨ w = some (str! "0") then
        match rest with
        | [] => .panic
        | s2 :: rest2 => do
          let r ← parseRotation s2
          parseComponentLoop { d with rotation := r } rest2
      else if w = some (str! "AR") then parseComponentLoop { d with arPath := d.arPath ++ [s] } rest
      else parseComponentLoop d rest

/-- `parse_component` (src/schematic.rs 1278-1298). -/
def parseComponent {F : Type} [Flt F] (p : List Str) : Said (Component F × List Str) :=
  parseComponentLoop .dflt (next p)

/-- `parse_sheet_s` (src/schematic.rs 1301-1308). -/
def parseSheetS (l : Str) (s : Sheet) : Said Sheet := do
  let v ← splitN 5 l
  let x ← i64R l (← idx v 1)
  let y ← i64R l (← idx v 2)
  let dimx ← i64R l (← idx v 3)
  let dimy ← i64R l (← idx v 4)
  .ok { s with x := x, y := y, dimx := dimx, dimy := dimy }

/-- `parse_sheet_u` (src/schematic.rs 1311-1315). -/
def parseSheetU (l : Str) (s : Sheet) : Said Sheet := do
  let v ← splitN 2 l
  let u ← idx v 1
  .ok { s with unique := u }

/-- `parse_label_form` (src/schematic.rs 1317-1326). -/
def parseLabelForm (s : Str) : Said LabelForm :=
  if s = str! "I" then .ok .input else if s = str! "O" then .ok .output
  else if s = str! "B" then .ok .biDi else if s = str! "T" then .ok .triState
  else if s = str! "U" then .ok .unspecified else .err (str! "unknown labelform " ++ s)

/-- `parse_label_side` (src/schematic.rs 1328-1336). -/
def parseLabelSide (s : Str) : Said LabelSide :=
  if s = str! "L" then .ok .left else if s = str! "R" then .ok .right
  else if s = str! "T" then .ok .top else if s = str! "B" then .ok .bottom
  else .err (str! "unknown labelside " ++ s)

/-- `parse_sheet_label` (src/schematic.rs 1340-1350). -/
def parseSheetLabel (s : Str) : Said SheetLabel := do
  let v ← splitN 7 s
  let name ← idx v 1
  let form ← parseLabelForm (← idx v 2)
  let side ← parseLabelSide (← idx v 3)
  let x ← i64R s (← idx v 4)
  let y ← i64R s (← idx v 5)
  let size ← i64R s (← idx v 6)
  .ok { name, form, side, x, y, size }

/-- `parse_sheet_f` (src/schematic.rs 1352-1370). -/
def parseSheetF (l : Str) (s : Sheet) (f : Str) : Said Sheet := do
  let i ← i64R l (f.drop 1)
  if i = 0 then do
    let v ← splitN 3 l
    let name ← idx v 1
    let sz ← i64R l (← idx v 2)
    .ok { s with name := name, nameSize := sz }
  else if i = 1 then do
    let v ← splitN 3 l
    let name ← idx v 1
    let sz ← i64R l (← idx v 2)
    .ok { s with filename := name, filenameSize := sz }
  else do
    let lab ← parseSheetLabel l
    .ok { s with labels := s.labels ++ [lab] }

/-- The loop of `parse_sheet` (src/schematic.rs 1376-1392). -/
def parseSheetLoop (s : Sheet) : List Str → Said (Sheet × List Str)
  | [] => .panic
  | st :: rest =>
    if st = str! "$EndSheet" then .ok (s, st :: rest)
    else
      match firstWord st with
      | some w =>
        if w = str! "S" then do
          let s ← parseSheetS st s
          parseSheetLoop s rest
        else if w = str! "U" then do
          let s ← parseSheetU st s
          parseSheetLoop s rest
        else if startsWith w (str! "F") then do
          let s ← parseSheetF st s w
          parseSheetLoop s rest
        else parseSheetLoop s rest
      | none => parseSheetLoop s rest

/-- `parse_sheet` (src/schematic.rs 1373-1394). -/
def parseSheet (p : List Str) : Said (Sheet × List Str) := parseSheetLoop .dflt (next p)

/-- `parse_wire` (src/schematic.rs 1398-1426). -/
def parseWire (p : List Str) : Said (Wire × List Str) := do
  let line ← here p
  let v := splitWs line
  if v.length ≠ 3 then .err (wrongCount (str! "3") line)
  else do
    let w ← idx v 1
    let t := if w = str! "Notes" then WireType.notes else if w = str! "Bus" then .bus else .wire
    let p := next p
    let line ← here p
    let v := splitWs line
    if v.length ≠ 4 then .err (wrongCount (str! "4") line)
    else do
      let x1 ← i64R line (← idx v 0)
      let y1 ← i64R line (← idx v 1)
      let x2 ← i64R line (← idx v 2)
      let y2 ← i64R line (← idx v 3)
      .ok (⟨t, x1, y1, x2, y2⟩, p)

/-- `parse_connection` and `parse_no_connect` (src/schematic.rs 1429-1450). -/
def parsePos (s : Str) : Said Pos := do
  let v := splitWs s
  if v.length ≠ 4 then .err (wrongCount (str! "4") s)
  else do
    let x ← i64R s (← idx v 2)
    let y ← i64R s (← idx v 3)
    .ok ⟨x, y⟩

/-- The type word of `parse_text` (src/schematic.rs 1462-1468); `line` is the line. -/
def parseTextType (line s : Str) : Said TextType :=
  if s = str! "Label" then .ok .label else if s = str! "Notes" then .ok .note
  else if s = str! "GLabel" then .ok .global else if s = str! "HLabel" then .ok .hierarchical
  else .err (str! "Unknown text type " ++ s ++ str! " at " ++ line)

/-- `parse_text` (src/schematic.rs 1456-1498). -/
def parseText (p : List Str) : Said (Text × List Str) := do
  let line ← here p
  let v := splitWs line
  if v.length < 8 then .err (wrongCount (str! "8 or 9") line)
  else do
    let t ← parseTextType line (← idx v 1)
    let x ← i64R line (← idx v 2)
    let y ← i64R line (← idx v 3)
    let orientation ← i64R line (← idx v 4)
    let size ← i64R line (← idx v 5)
    let index := if t.isLocal then 6 else 7
    let shape ← if t.isLocal then .ok none else do
      let s ← idx v 6
      .ok (some s)
    let italicWord ← idx v index
    let thickness ← i64R line (← idx v (index + 1))
    let p := next p
    let text ← here p
    .ok ({ t, x, y, orientation, size, shape, italic := decide (italicWord = str! "Italic"),
           thickness, text }, p)

/-- One iteration of the main loop of `parse` (src/schematic.rs 1524-1558). -/
def parseItem {F : Type} [Flt F] (sch : Schematic F) (p : List Str) :
    Said (Schematic F × List Str) := do
  let s ← here p
  match firstWord s with
  | none => .panic
  | some w =>
    if w = str! "$Descr" then do
      let (d, p) ← parseDescription p
      .ok ({ sch with description := d }, p)
    else if w = str! "$Comp" then do
      let (d, p) ← parseComponent p
      .ok ({ sch with elements := sch.elements ++ [.component d] }, p)
    else if w = str! "$Sheet" then do
      let (d, p) ← parseSheet p
      .ok ({ sch with sheets := sch.sheets ++ [d] }, p)
    else if w = str! "$EndSCHEMATC" then .ok (sch, p)
    else if w = str! "Wire" then do
      let (d, p) ← parseWire p
      .ok ({ sch with elements := sch.elements ++ [.wire d] }, p)
    else if w = str! "Connection" then do
      let d ← parsePos s
      .ok ({ sch with elements := sch.elements ++ [.connection d] }, p)
    else if w = str! "NoConn" then do
      let d ← parsePos s
      .ok ({ sch with elements := sch.elements ++ [.noConnect d] }, p)
    else if w = str! "Text" then do
      let (d, p) ← parseText p
      .ok ({ sch with elements := sch.elements ++ [.text d] }, p)
    else .ok ({ sch with elements := sch.elements ++ [.other s] }, p)

/-- The main loop of `parse` (src/schematic.rs 1523-1560). -/
def parseItems {F : Type} [Flt F] : Nat → Schematic F → List Str → Said (Schematic F)
  | _, sch, [] => .ok sch
  | 0, _, _ :: _ => .diverge
  | fuel + 1, sch, p => do
    let (sch, p) ← parseItem sch p
    parseItems fuel sch (next p)

/-- `parse` after splitting into lines (src/schematic.rs 1505-1562). -/
def parseLines {F : Type} [Flt F] (filename : Option Str) (v : List Str) : Said (Schematic F) := do
  let sch : Schematic F := { Schematic.dflt with filename := filename }
  let p ← assumeLine (str! "EESchema Schematic File Version 2") v
  let (sch, p) := parseLibs sch p
  let s ← here p
  if !startsWith s (str! "EELAYER ") then .err (str! "expecting EELAYER, got " ++ s)
  else do
    let sch := { sch with eelayer := s }
    let p ← assumeLine (str! "EELAYER END") (next p)
    parseItems p.length sch p

/-- `parse` (src/schematic.rs 1501-1562). -/
def parse {F : Type} [Flt F] (filename : Option Str) (s : Str) : Said (Schematic F) :=
  parseLines filename (lines s)

end Sch.Msg
end Verif
