import Verif.Model.Schematic
import Verif.Model.CheckFix
/-!
# Symbol libraries (src/symbol_lib.rs)

The parser state and the helpers `here`, `next`, `assume_line!`,
`assume_string`, `i64_from_string`, `f64_from_string`, `bool_from_string`,
`bool_from`, `char_at` of src/symbol_lib.rs 585-658 and 731-739 are textual
copies of those of src/schematic.rs; the model reuses the definitions of
`Verif.Model.Schematic`.
-/

namespace Verif.Lib
open Verif Flt
open Verif.Sch (here next assumeLine charAt i64R f64R boolFrom assumeString idx Orientation Justify)

/-- `Field` (src/symbol_lib.rs 58-83). -/
structure Field (F : Type) where
  i : Int
  value : Str
  x : F
  y : F
  dimension : Int
  orientation : Orientation
  visible : Bool
  hjustify : Justify
  vjustify : Justify
  italic : Bool
  bold : Bool
  name : Str
  deriving DecidableEq, Repr

/-- `PinOrientation` (src/symbol_lib.rs 99-108). -/
inductive PinOrientation | up | down | left | right
  deriving DecidableEq, Repr

/-- `PinType` (src/symbol_lib.rs 112-135). -/
inductive PinType
  | input | output | bidi | tristate | passive | unspecified | powerInput | powerOutput
  | openCollector | openEmitter | notConnected
  deriving DecidableEq, Repr

/-- `PinShape` (src/symbol_lib.rs 139-158). -/
inductive PinShape
  | line | inverted | clock | invertedClock | inputLow | clockLow | outputLow
  | fallingEdgeClock | nonLogic
  deriving DecidableEq, Repr

/-- `Pin` (src/symbol_lib.rs 165-192). -/
structure Pin where
  name : Str
  number : Str
  x : Int
  y : Int
  len : Int
  orientation : PinOrientation
  numSize : Int
  nameSize : Int
  unit : Int
  convert : Int
  pinType : PinType
  pinVisible : Bool
  pinShape : PinShape
  deriving DecidableEq, Repr

/-- `Fill` (src/symbol_lib.rs 220-227). -/
inductive Fill | filledForeground | filledBackground | transparent
  deriving DecidableEq, Repr

/-- `Rectangle` (src/symbol_lib.rs 199-216). -/
structure Rectangle where
  x1 : Int
  y1 : Int
  x2 : Int
  y2 : Int
  unit : Int
  convert : Int
  thickness : Int
  fill : Fill
  deriving DecidableEq, Repr

/-- `Draw` (src/symbol_lib.rs 87-94). -/
inductive Draw
  | pin (p : Pin)
  | rectangle (r : Rectangle)
  | other (s : Str)
  deriving DecidableEq, Repr

/-- `Symbol` (src/symbol_lib.rs 29-52). -/
structure Symbol (F : Type) where
  name : Str
  reference : Str
  textOffset : F
  drawPinnumber : Bool
  drawPinname : Bool
  unitCount : Int
  unitLocked : Bool
  isPower : Bool
  fields : List (Field F)
  aliases : List Str
  draw : List Draw
  deriving DecidableEq, Repr

/-- `SymbolLib` (src/symbol_lib.rs 21-24). -/
structure SymbolLib (F : Type) where
  symbols : List (Symbol F)
  deriving DecidableEq, Repr

/-! ## Defaults -/

/-- `Fill::default` (src/symbol_lib.rs 229-233). -/
def Fill.dflt : Fill := .transparent

/-- `PinOrientation::default` (src/symbol_lib.rs 472-476). -/
def PinOrientation.dflt : PinOrientation := .up

/-- `PinType::default` (src/symbol_lib.rs 508-512). -/
def PinType.dflt : PinType := .input

/-- `PinShape::default` (src/symbol_lib.rs 549-553). -/
def PinShape.dflt : PinShape := .line

/-- The derived `Pin::default` (src/symbol_lib.rs 164): empty texts, zeros, `false` and
the defaults of the parts. -/
def Pin.dflt : Pin :=
  { name := [], number := [], x := 0, y := 0, len := 0, orientation := .dflt, numSize := 0, nameSize := 0,
    unit := 0, convert := 0, pinType := .dflt, pinVisible := false, pinShape := .dflt }

/-- The derived `Rectangle::default` (src/symbol_lib.rs 198). -/
def Rectangle.dflt : Rectangle :=
  { x1 := 0, y1 := 0, x2 := 0, y2 := 0, unit := 0, convert := 0, thickness := 0, fill := .dflt }

/-- `Field::default` (src/symbol_lib.rs 369-386). -/
def Field.dflt {F : Type} [Flt F] : Field F :=
  { i := 0, value := [], x := zero, y := zero, dimension := 0, orientation := .horizontal, visible := false,
    hjustify := .center, vjustify := .center, italic := false, bold := false, name := [] }

/-- The derived `SymbolLib::default` (src/symbol_lib.rs 20). -/
def SymbolLib.dflt {F : Type} : SymbolLib F := ⟨[]⟩

/-! ## API -/

/-- `SymbolLib::find` (src/symbol_lib.rs 248-258). -/
def SymbolLib.find {F : Type} (filter : Symbol F → Bool) (l : SymbolLib F) : Option (Symbol F) :=
  go l.symbols
where
  /-- the loop (src/symbol_lib.rs 252-256) -/
  go : List (Symbol F) → Option (Symbol F)
    | [] => none
    | s :: ss => if filter s then some s else go ss

/-- `Symbol::new` (src/symbol_lib.rs 275-289). -/
def Symbol.new {F : Type} [Flt F] (name reference : Str) : Symbol F :=
  { name, reference, textOffset := zero, drawPinnumber := false, drawPinname := false,
    unitCount := 1, unitLocked := false, isPower := false, fields := [], aliases := [], draw := [] }

/-- `Symbol::set_name` (src/symbol_lib.rs 292-300): panics on an empty old name
and when there are fewer than two fields. -/
def Symbol.setName {F : Type} (s : Symbol F) (name : Str) : Res (Symbol F) := do
  let c ← charAt s.name 0
  let newName := if c = '~' then '~' :: name else name
  match s.fields with
  | f0 :: f1 :: fs =>
    .ok { s with name := newName, fields := f0 :: { f1 with value := name } :: fs }
  | _ => .panic

/-- `Symbol::pins` (src/symbol_lib.rs 303-311). -/
def Symbol.pins {F : Type} (s : Symbol F) : List Pin :=
  s.draw.filterMap fun d => match d with | .pin p => some p | _ => none

/-- `Symbol::is_power` (src/symbol_lib.rs 314-316). -/
def Symbol.isPowerSym {F : Type} (s : Symbol F) : Bool :=
  decide (s.reference = str! "#PWR") && s.pins.length == 1

/-- `Symbol::is_graphics` (src/symbol_lib.rs 319-321). -/
def Symbol.isGraphics {F : Type} (s : Symbol F) : Bool :=
  startsWith s.reference (str! "#") && s.pins.isEmpty

/-- `Symbol::is_basic` (src/symbol_lib.rs 324-329). -/
def Symbol.isBasic {F : Type} (s : Symbol F) : Bool :=
  decide (s.name = str! "L" ∨ s.name = str! "R" ∨ s.name = str! "C" ∨ s.name = str! "D")

/-! ## Writing -/

/-- `impl Display for Field` (src/symbol_lib.rs 388-410).  Bold is written `I`. -/
def Field.show {F : Type} [Flt F] (f : Field F) : Str :=
  str! "F" ++ showInt f.i ++ str! " \"" ++ f.value ++ str! "\" " ++ toStr f.x ++ str! " " ++
  toStr f.y ++ str! " " ++ showInt f.dimension ++ str! " " ++ f.orientation.show ++ str! " " ++
  (if f.visible then str! "V" else str! "I") ++ str! " " ++ f.hjustify.show ++ str! " " ++
  f.vjustify.show ++ (if f.italic then str! "I" else str! "N") ++
  (if f.bold then str! "I" else str! "N") ++
  (if f.i > 3 then str! " \"" ++ f.name ++ str! "\"" else [])

/-- `impl Display for Fill` (src/symbol_lib.rs 430-438). -/
def Fill.show : Fill → Str
  | .filledForeground => str! "F"
  | .filledBackground => str! "f"
  | .transparent => str! "N"

/-- `impl Display for Rectangle` (src/symbol_lib.rs 421-428). -/
def Rectangle.show (r : Rectangle) : Str :=
  str! "S " ++ showInt r.x1 ++ str! " " ++ showInt r.y1 ++ str! " " ++ showInt r.x2 ++ str! " " ++
  showInt r.y2 ++ str! " " ++ showInt r.unit ++ str! " " ++ showInt r.convert ++ str! " " ++
  showInt r.thickness ++ str! " " ++ r.fill.show

/-- `impl Display for PinOrientation` (src/symbol_lib.rs 461-470). -/
def PinOrientation.show : PinOrientation → Str
  | .up => str! "U"
  | .down => str! "D"
  | .left => str! "L"
  | .right => str! "R"

/-- `impl Display for PinType` (src/symbol_lib.rs 490-506). -/
def PinType.show : PinType → Str
  | .input => str! "I"
  | .output => str! "O"
  | .bidi => str! "B"
  | .tristate => str! "T"
  | .passive => str! "P"
  | .unspecified => str! "U"
  | .powerInput => str! "W"
  | .powerOutput => str! "w"
  | .openCollector => str! "C"
  | .openEmitter => str! "E"
  | .notConnected => str! "N"

/-- `impl Display for PinShape` (src/symbol_lib.rs 533-547). -/
def PinShape.show : PinShape → Str
  | .line => []
  | .inverted => str! "I"
  | .clock => str! "C"
  | .invertedClock => str! "CI"
  | .inputLow => str! "L"
  | .clockLow => str! "CL"
  | .outputLow => str! "V"
  | .fallingEdgeClock => str! "F"
  | .nonLogic => str! "X"

/-- `impl Display for Pin` (src/symbol_lib.rs 441-459). -/
def Pin.show (p : Pin) : Str :=
  str! "X " ++ p.name ++ str! " " ++ p.number ++ str! " " ++ showInt p.x ++ str! " " ++
  showInt p.y ++ str! " " ++ showInt p.len ++ str! " " ++ p.orientation.show ++ str! " " ++
  showInt p.numSize ++ str! " " ++ showInt p.nameSize ++ str! " " ++ showInt p.unit ++ str! " " ++
  showInt p.convert ++ str! " " ++ p.pinType.show ++
  (if p.pinVisible then
    if p.pinShape ≠ .line then str! " " ++ p.pinShape.show else []
   else str! " N" ++ p.pinShape.show)

/-- `impl Display for Draw` (src/symbol_lib.rs 411-419). -/
def Draw.show : Draw → Str
  | .other s => s
  | .pin p => p.show
  | .rectangle r => r.show

/-- The `ALIAS` line (src/symbol_lib.rs 351-358). -/
def showAliases (as : List Str) : Str :=
  if as.isEmpty then []
  else str! "ALIAS" ++ (as.map fun a => ' ' :: a).flatten ++ str! "\n"

/-- `impl Display for Symbol` (src/symbol_lib.rs 332-367): panics when there are
fewer than two fields. -/
def Symbol.show {F : Type} [Flt F] (s : Symbol F) : Res Str :=
  match s.fields[1]? with
  | none => .panic
  | some f1 => .ok (
    str! "# " ++ f1.value ++ str! "\n" ++
    str! "#\n" ++
    str! "DEF " ++ s.name ++ str! " " ++ s.reference ++ str! " 0 " ++ toStr s.textOffset ++ str! " " ++
      (if s.drawPinnumber then str! "Y" else str! "N") ++ str! " " ++
      (if s.drawPinname then str! "Y" else str! "N") ++ str! " " ++
      showInt s.unitCount ++ str! " " ++
      (if s.unitLocked then str! "L" else str! "F") ++ str! " " ++
      (if s.isPower then str! "P" else str! "N") ++ str! "\n" ++
    (s.fields.map fun f => f.show ++ str! "\n").flatten ++
    showAliases s.aliases ++
    str! "DRAW\n" ++
    (s.draw.map fun d => d.show ++ str! "\n").flatten ++
    str! "ENDDRAW\n" ++
    str! "ENDDEF\n" ++
    str! "#\n")

/-- The symbols of a library in sequence (src/symbol_lib.rs 266-268). -/
def showSymbols {F : Type} [Flt F] : List (Symbol F) → Res Str
  | [] => .ok []
  | s :: ss => do
    let a ← s.show
    let b ← showSymbols ss
    .ok (a ++ b)

/-- `impl Display for SymbolLib` (src/symbol_lib.rs 261-271). -/
def SymbolLib.show {F : Type} [Flt F] (l : SymbolLib F) : Res Str := do
  let body ← showSymbols l.symbols
  .ok (str! "EESchema-LIBRARY Version 2.3\n" ++ str! "#encoding utf-8\n" ++ str! "#\n" ++ body ++
    str! "#End Library\n")

/-! ## Reading -/

/-- `Fill::make` (src/symbol_lib.rs 236-243). -/
def Fill.make (s : Str) : Res Fill :=
  if s = str! "F" then .ok .filledForeground
  else if s = str! "f" then .ok .filledBackground
  else if s = str! "N" then .ok .transparent
  else .err .other

/-- `PinOrientation::make` (src/symbol_lib.rs 479-487). -/
def PinOrientation.make (s : Str) : Res PinOrientation :=
  if s = str! "U" then .ok .up else if s = str! "D" then .ok .down
  else if s = str! "L" then .ok .left else if s = str! "R" then .ok .right else .err .other

/-- `PinType::make` (src/symbol_lib.rs 515-530). -/
def PinType.make (s : Str) : Res PinType :=
  if s = str! "I" then .ok .input else if s = str! "O" then .ok .output
  else if s = str! "B" then .ok .bidi else if s = str! "T" then .ok .tristate
  else if s = str! "P" then .ok .passive else if s = str! "U" then .ok .unspecified
  else if s = str! "W" then .ok .powerInput else if s = str! "w" then .ok .powerOutput
  else if s = str! "C" then .ok .openCollector else if s = str! "E" then .ok .openEmitter
  else if s = str! "N" then .ok .notConnected else .err .other

/-- `PinShape::make` (src/symbol_lib.rs 556-574). -/
def PinShape.make (s : Str) : Res PinShape :=
  if s.isEmpty then .ok .line
  else
    let s := if startsWith s (str! "N") then s.drop 1 else s
    if s = str! "I" then .ok .inverted else if s = str! "C" then .ok .clock
    else if s = str! "CI" then .ok .invertedClock else if s = str! "L" then .ok .inputLow
    else if s = str! "CL" then .ok .clockLow else if s = str! "V" then .ok .outputLow
    else if s = str! "F" then .ok .fallingEdgeClock else if s = str! "X" then .ok .nonLogic
    else if s = [] then .ok .line else .err .other

/-- `PinShape::visible_from_str` (src/symbol_lib.rs 576-582). -/
def visibleFromStr (s : Str) : Bool :=
  if s.isEmpty then false else !startsWith s (str! "N")

/-- `parse_field` (src/symbol_lib.rs 742-772). -/
def parseField {F : Type} [Flt F] (line : Str) : Res (Field F) := do
  let v ← splitQ line
  if v.length ≠ 9 ∧ v.length ≠ 10 then .err .other
  else do
    let v0 ← idx v 0
    let i ← i64R (v0.drop 1)
    let name ←
      if v.length = 10 then idx v 9
      else if i = 0 then .ok (str! "Reference")
      else if i = 1 then .ok (str! "Value")
      else if i = 2 then .ok (str! "Footprint")
      else if i = 3 then .ok (str! "UserDocLink")
      else .err .other
    let value ← idx v 1
    let x ← f64R (← idx v 2)
    let y ← f64R (← idx v 3)
    let dimension ← i64R (← idx v 4)
    let orientation ← Orientation.new (← charAt (← idx v 5) 0)
    let visible ← boolFrom (← idx v 6) (str! "V") (str! "I")
    let hjustify ← Justify.new (← charAt (← idx v 7) 0)
    let vjustify ← Justify.new (← charAt (← idx v 8) 0)
    let italic ← boolFrom (← charAt (← idx v 8) 1) 'I' 'N'
    let bold ← boolFrom (← charAt (← idx v 8) 2) 'B' 'N'
    .ok { i, value, x, y, dimension, orientation, visible, hjustify, vjustify, italic, bold, name }

/-- `parse_pin` (src/symbol_lib.rs 776-799). -/
def parsePin (line : Str) : Res Pin := do
  let v ← splitQ line
  if v.length ≠ 12 ∧ v.length ≠ 13 then .err .other
  else do
    let name ← idx v 1
    let number ← idx v 2
    let x ← i64R (← idx v 3)
    let y ← i64R (← idx v 4)
    let len ← i64R (← idx v 5)
    let orientation ← PinOrientation.make (← idx v 6)
    let numSize ← i64R (← idx v 7)
    let nameSize ← i64R (← idx v 8)
    let unit ← i64R (← idx v 9)
    let convert ← i64R (← idx v 10)
    let pinType ← PinType.make (← idx v 11)
    if v.length = 13 then do
      let s ← idx v 12
      let pinShape ← PinShape.make s
      .ok { name, number, x, y, len, orientation, numSize, nameSize, unit, convert, pinType,
            pinVisible := visibleFromStr s, pinShape }
    else
      .ok { name, number, x, y, len, orientation, numSize, nameSize, unit, convert, pinType,
            pinVisible := true, pinShape := .line }

/-- `parse_rect` (src/symbol_lib.rs 802-817). -/
def parseRect (line : Str) : Res Rectangle := do
  let v ← splitQ line
  if v.length ≠ 9 then .err .other
  else do
    let x1 ← i64R (← idx v 1)
    let y1 ← i64R (← idx v 2)
    let x2 ← i64R (← idx v 3)
    let y2 ← i64R (← idx v 4)
    let unit ← i64R (← idx v 5)
    let convert ← i64R (← idx v 6)
    let thickness ← i64R (← idx v 7)
    let fill ← Fill.make (← idx v 8)
    .ok { x1, y1, x2, y2, unit, convert, thickness, fill }

/-- The field loop of `parse_symbol` (src/symbol_lib.rs 677-686): panics at the
end of the file and on an empty line. -/
def parseFields {F : Type} [Flt F] (acc : List (Field F)) : List Str → Res (List (Field F) × List Str)
  | [] => .panic
  | s :: rest => do
    let c ← charAt s 0
    if c = 'F' then do
      let f ← parseField s
      parseFields (acc ++ [f]) rest
    else .ok (acc, s :: rest)

/-- The loop skipping `$FPLIST` (src/symbol_lib.rs 690-696). -/
def skipFplist : List Str → List Str
  | [] => []
  | s :: rest => if s = str! "$ENDFPLIST" then rest else skipFplist rest

/-- One drawing line (src/symbol_lib.rs 714-722). -/
def parseDrawLine (s : Str) : Res Draw :=
  if startsWith s (str! "X ") then do
    let p ← parsePin s
    .ok (.pin p)
  else if startsWith s (str! "S ") then do
    let r ← parseRect s
    .ok (.rectangle r)
  else .ok (.other s)

/-- The drawing loop of `parse_symbol` (src/symbol_lib.rs 707-724). -/
def parseDraws (acc : List Draw) : List Str → Res (List Draw × List Str)
  | [] => .ok (acc, [])
  | s :: rest =>
    if s = str! "ENDDRAW" then .ok (acc, rest)
    else do
      let d ← parseDrawLine s
      parseDraws (acc ++ [d]) rest

/-- The `ALIAS` line of `parse_symbol` (src/symbol_lib.rs 698-704). -/
def parseAliases (p : List Str) : Res (List Str × List Str) := do
  let s ← here p
  if startsWith s (str! "ALIAS") then do
    let v ← splitQ s
    .ok (v.drop 1, next p)
  else .ok ([], p)

/-- The `DEF` line of `parse_symbol` (src/symbol_lib.rs 663-675). -/
def parseDef {F : Type} [Flt F] (l : Str) : Res (Symbol F) := do
  let v ← splitQ l
  if v.length ≠ 10 then .err .other
  else do
    assumeString (str! "DEF") (← idx v 0)
    let s : Symbol F := Symbol.new (← idx v 1) (← idx v 2)
    let textOffset ← f64R (← idx v 4)
    let drawPinnumber ← boolFrom (← idx v 5) (str! "Y") (str! "N")
    let drawPinname ← boolFrom (← idx v 6) (str! "Y") (str! "N")
    let unitCount ← i64R (← idx v 7)
    let unitLocked ← boolFrom (← idx v 8) (str! "L") (str! "F")
    let isPower ← boolFrom (← idx v 9) (str! "P") (str! "N")
    .ok { s with textOffset, drawPinnumber, drawPinname, unitCount, unitLocked, isPower }

/-- `parse_symbol` (src/symbol_lib.rs 660-728). -/
def parseSymbol {F : Type} [Flt F] (p : List Str) : Res (Symbol F × List Str) := do
  let p ← assumeLine (str! "#") (next p)
  let l ← here p
  let s : Symbol F ← parseDef l
  let (fields, p) ← parseFields [] (next p)
  let h ← here p
  let p := if h = str! "$FPLIST" then skipFplist (next p) else p
  let (aliases, p) ← parseAliases p
  let p ← assumeLine (str! "DRAW") p
  let (draw, p) ← parseDraws [] p
  let p ← assumeLine (str! "ENDDEF") p
  let p ← assumeLine (str! "#") p
  .ok ({ s with fields, aliases, draw }, p)

/-- The main loop of `parse` (src/symbol_lib.rs 826-834).  `fuel` bounds the
number of iterations; `parse` starts it with the number of lines. -/
def parseSymbols {F : Type} [Flt F] : Nat → List (Symbol F) → List Str → Res (List (Symbol F))
  | _, acc, [] => .ok acc
  | 0, _, _ :: _ => .diverge
  | fuel + 1, acc, l :: rest =>
    if l = str! "#End Library" then .ok acc
    else do
      let (s, p) ← parseSymbol (l :: rest)
      parseSymbols fuel (acc ++ [s]) p

/-- `parse` after splitting into lines (src/symbol_lib.rs 819-836). -/
def parseLines {F : Type} [Flt F] (v : List Str) : Res (SymbolLib F) := do
  let p ← assumeLine (str! "EESchema-LIBRARY Version 2.3") v
  let p ← assumeLine (str! "#encoding utf-8") p
  let p ← assumeLine (str! "#") p
  let symbols ← parseSymbols p.length [] p
  .ok ⟨symbols⟩

/-- `parse_str` (src/symbol_lib.rs 839-841). -/
def parseStr {F : Type} [Flt F] (s : Str) : Res (SymbolLib F) := parseLines (lines s)

/-! ## Style check -/

/-- `impl CheckFix for SymbolField` (src/symbol_lib.rs 855-938). -/
def checkField {F : Type} [Flt F] (symbol : Symbol F) (field : Field F) : List CheckFixData :=
  (if field.dimension ≠ 50 then [.new 4 8 field.show (str! "field text is not 50mil")] else []) ++
  (if field.i = 0 then
    if symbol.isGraphics then
      if field.visible then
        [.new 4 9 symbol.name (str! "reference field should be invisible for graphics")]
      else []
    else if !field.visible && !symbol.isPowerSym then
      [.new 4 9 symbol.name (str! "reference field should be visible for normal symbols")]
    else []
  else if field.i = 1 then
    if symbol.isGraphics then
      if field.visible then
        [.new 4 9 symbol.name (str! "value field should be invisible for graphics")]
      else []
    else if symbol.isPowerSym then
      if field.visible then
        [.new 4 9 symbol.name (str! "value field should be invisible for power")]
      else []
    else if !field.visible then
      [.new 4 9 symbol.name (str! "value field should be visible for normal symbols")]
    else []
  else if field.i = 2 then
    if field.visible then [.new 4 9 symbol.name (str! "Footprint field should be invisible")] else []
  else if field.i = 3 then
    if field.visible then [.new 4 9 symbol.name (str! "Datasheet field should be invisible")] else []
  else [])

/-- ASCII part of `str::to_lowercase` (called at src/symbol_lib.rs 989).  Simplification: other characters are
kept; no other character lower-cases to text containing `n` or `c`, so the only
use, `contains("nc")`, is not affected. -/
def lowerAscii (s : Str) : Str :=
  s.map fun c => if 'A' ≤ c ∧ c ≤ 'Z' then Char.ofNat (c.toNat + 32) else c

/-- `impl CheckFix for Pin` (src/symbol_lib.rs 940-1039). -/
def checkPin (p : Pin) : List CheckFixData :=
  let name := p.name ++ str! ":" ++ p.number
  (if p.x.tmod 10 ≠ 0 then [.new 4 1 name (str! "pin x not on 100mil grid")] else []) ++
  (if p.y.tmod 10 ≠ 0 then [.new 4 1 name (str! "pin y not on 100mil grid")] else []) ++
  (if p.len.tmod 5 ≠ 0 then [.new 4 1 name (str! "pin length not on 50mil grid")] else []) ++
  (if p.len < 100 then [.newInfo 4 1 name (str! "pin length < 100mil")] else []) ++
  (if p.len > 300 then [.newInfo 4 1 name (str! "pin length > 300mil")] else []) ++
  (if containsStr (lowerAscii p.name) (str! "nc") then
    if p.pinType ≠ .notConnected then [.new 4 7 name (str! "Pin should be of type Not Connected")]
    else []
   else []) ++
  (if p.pinType = .notConnected then
    if p.pinVisible then [.new 4 7 name (str! "Pin should be invisible")] else []
   else if !p.pinVisible then [.new 4 7 name (str! "Pin should be visible")] else []) ++
  (if p.numSize ≠ 50 then [.new 4 8 name (str! "Pin Number should be 50mil")] else []) ++
  (if p.nameSize ≠ 50 then [.new 4 8 name (str! "Pin Name should be 50mil")] else [])

/-- `impl CheckFix for Rectangle` (src/symbol_lib.rs 1040-1060). -/
def checkRectangle (r : Rectangle) : List CheckFixData :=
  (if r.fill ≠ .filledBackground then [.new 4 2 r.show (str! "Rectangle is not filled")] else []) ++
  (if r.thickness ≠ 10 then [.new 4 2 r.show (str! "Rectangle is not using a 10mil line")] else [])

/-- `impl CheckFix for Draw` (src/symbol_lib.rs 1062-1082). -/
def checkDraw : Draw → List CheckFixData
  | .pin p => checkPin p
  | .rectangle r => checkRectangle r
  | .other _ => []

/-- `if !f.is_empty() { v.push(CheckFixData::More(f).flatter()) }`
(src/symbol_lib.rs 1094-1096, 1103-1105, 1110-1112). -/
def pushMore (f : List CheckFixData) : List CheckFixData :=
  if f.isEmpty then [] else [(CheckFixData.more f).flatter]

/-- `impl CheckFix for Symbol` (src/symbol_lib.rs 1084-1117). -/
def Symbol.check {F : Type} [Flt F] (s : Symbol F) : List CheckFixData :=
  let name := if startsWith s.name (str! "~") then s.name.drop 1 else s.name
  pushMore (allowed17Items name) ++
  (s.fields.map fun f => pushMore (checkField s f)).flatten ++
  (if !(s.isPowerSym || s.isGraphics) then (s.draw.map fun d => pushMore (checkDraw d)).flatten
   else [])

end Verif.Lib
