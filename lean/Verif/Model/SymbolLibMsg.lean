import Verif.Model.SchematicMsg
import Verif.Model.SymbolLib
/-!
# The messages of the symbol library reader (src/symbol_lib.rs 236-243, 479-574, 585-841)

The same functions as in `Model/SymbolLib.lean` with the texts of the messages.  The
helper functions of src/symbol_lib.rs that are letter for letter those of
src/schematic.rs (`assume_line!` 585-595, `ParseState` 597-622, `assume_string` 624-629,
`i64_from_string` 631-636, `f64_from_string` 638-643, `bool_from_string` 645-653,
`char_at` 655-658, `bool_from` 731-739) are shared with `Model/SchematicMsg.lean`.
-/

namespace Verif.Lib.Msg
open Verif Lib Sch.Msg

/-- `Fill::make` (src/symbol_lib.rs 236-243). -/
def fill (s : Str) : Said Fill :=
  if s = str! "F" then .ok .filledForeground
  else if s = str! "f" then .ok .filledBackground
  else if s = str! "N" then .ok .transparent
  else .err (str! "unknown fill type " ++ s)

/-- `PinOrientation::make` (src/symbol_lib.rs 479-487). -/
def pinOrientation (s : Str) : Said PinOrientation :=
  if s = str! "U" then .ok .up else if s = str! "D" then .ok .down
  else if s = str! "L" then .ok .left else if s = str! "R" then .ok .right
  else .err (str! "unknown pin orientation " ++ s)

/-- `PinType::make` (src/symbol_lib.rs 515-530). -/
def pinType (s : Str) : Said PinType :=
  if s = str! "I" then .ok .input else if s = str! "O" then .ok .output
  else if s = str! "B" then .ok .bidi else if s = str! "T" then .ok .tristate
  else if s = str! "P" then .ok .passive else if s = str! "U" then .ok .unspecified
  else if s = str! "W" then .ok .powerInput else if s = str! "w" then .ok .powerOutput
  else if s = str! "C" then .ok .openCollector else if s = str! "E" then .ok .openEmitter
  else if s = str! "N" then .ok .notConnected else .err (str! "unknown pin type " ++ s)

/-- `PinShape::make` (src/symbol_lib.rs 556-574). -/
def pinShape (s : Str) : Said PinShape :=
  if s.isEmpty then .ok .line
  else
    let s := if startsWith s (str! "N") then s.drop 1 else s
    if s = str! "I" then .ok .inverted else if s = str! "C" then .ok .clock
    else if s = str! "CI" then .ok .invertedClock else if s = str! "L" then .ok .inputLow
    else if s = str! "CL" then .ok .clockLow else if s = str! "V" then .ok .outputLow
    else if s = str! "F" then .ok .fallingEdgeClock else if s = str! "X" then .ok .nonLogic
    else if s = [] then .ok .line else .err (str! "unknown pinshape " ++ s)

/-- The message of a line with a wrong number of words (src/symbol_lib.rs 666, 746, 780, 806). -/
def unexpected (line : Str) : Str := str! "unexpected elements in " ++ line

/-- The name of a field (src/symbol_lib.rs 749-759). -/
def fieldName (v : List Str) (i : Int) : Said Str :=
  if v.length = 10 then idx v 9
  else if i = 0 then .ok (str! "Reference")
  else if i = 1 then .ok (str! "Value")
  else if i = 2 then .ok (str! "Footprint")
  else if i = 3 then .ok (str! "UserDocLink")
  else .err (str! "expecting name for componentfield > 3")

/-- `parse_field` (src/symbol_lib.rs 742-772). -/
def parseField {F : Type} [Flt F] (line : Str) : Said (Field F) := do
  let v ← Sch.Msg.splitQ line
  if v.length ≠ 9 ∧ v.length ≠ 10 then .err (unexpected line)
  else do
    let v0 ← idx v 0
    let i ← i64R line (v0.drop 1)
    let name ← fieldName v i
    let value ← idx v 1
    let x ← f64R line (← idx v 2)
    let y ← f64R line (← idx v 3)
    let dimension ← i64R line (← idx v 4)
    let orientation ← orientation (← charAt (← idx v 5) 0)
    let visible ← boolFromString (← idx v 6) (str! "V") (str! "I")
    let hjustify ← justify (← charAt (← idx v 7) 0)
    let vjustify ← justify (← charAt (← idx v 8) 0)
    let italic ← boolFrom (← charAt (← idx v 8) 1) 'I' 'N'
    let bold ← boolFrom (← charAt (← idx v 8) 2) 'B' 'N'
    .ok { i, value, x, y, dimension, orientation, visible, hjustify, vjustify, italic, bold, name }

/-- `parse_pin` (src/symbol_lib.rs 776-799). -/
def parsePin (line : Str) : Said Pin := do
  let v ← Sch.Msg.splitQ line
  if v.length ≠ 12 ∧ v.length ≠ 13 then .err (unexpected line)
  else do
    let name ← idx v 1
    let number ← idx v 2
    let x ← i64R line (← idx v 3)
    let y ← i64R line (← idx v 4)
    let len ← i64R line (← idx v 5)
    let orientation ← pinOrientation (← idx v 6)
    let numSize ← i64R line (← idx v 7)
    let nameSize ← i64R line (← idx v 8)
    let unit ← i64R line (← idx v 9)
    let convert ← i64R line (← idx v 10)
    let pinType ← pinType (← idx v 11)
    if v.length = 13 then do
      let s ← idx v 12
      let pinShape ← pinShape s
      .ok { name, number, x, y, len, orientation, numSize, nameSize, unit, convert, pinType,
            pinVisible := visibleFromStr s, pinShape }
    else
      .ok { name, number, x, y, len, orientation, numSize, nameSize, unit, convert, pinType,
            pinVisible := true, pinShape := .line }

/-- `parse_rect` (src/symbol_lib.rs 802-817). -/
def parseRect (line : Str) : Said Rectangle := do
  let v ← Sch.Msg.splitQ line
  if v.length ≠ 9 then .err (unexpected line)
  else do
    let x1 ← i64R line (← idx v 1)
    let y1 ← i64R line (← idx v 2)
    let x2 ← i64R line (← idx v 3)
    let y2 ← i64R line (← idx v 4)
    let unit ← i64R line (← idx v 5)
    let convert ← i64R line (← idx v 6)
    let thickness ← i64R line (← idx v 7)
    let fill ← fill (← idx v 8)
    .ok { x1, y1, x2, y2, unit, convert, thickness, fill }

/-- The field loop of `parse_symbol` (src/symbol_lib.rs 677-686). -/
def parseFields {F : Type} [Flt F] (acc : List (Field F)) : List Str → Said (List (Field F) × List Str)
  | [] => .panic
  | s :: rest => do
    let c ← charAt s 0
    if c = 'F' then do
      let f ← parseField s
      parseFields (acc ++ [f]) rest
    else .ok (acc, s :: rest)

/-- One drawing line (src/symbol_lib.rs 714-722). -/
def parseDrawLine (s : Str) : Said Draw :=
  if startsWith s (str! "X ") then do
    let p ← parsePin s
    .ok (.pin p)
  else if startsWith s (str! "S ") then do
    let r ← parseRect s
    .ok (.rectangle r)
  else .ok (.other s)

/-- The drawing loop of `parse_symbol` (src/symbol_lib.rs 707-724). -/
def parseDraws (acc : List Draw) : List Str → Said (List Draw × List Str)
  | [] => .ok (acc, [])
  | s :: rest =>
    if s = str! "ENDDRAW" then .ok (acc, rest)
    else do
      let d ← parseDrawLine s
      parseDraws (acc ++ [d]) rest

/-- The `ALIAS` line of `parse_symbol` (src/symbol_lib.rs 698-704). -/
def parseAliases (p : List Str) : Said (List Str × List Str) := do
  let s ← here p
  if startsWith s (str! "ALIAS") then do
    let v ← Sch.Msg.splitQ s
    .ok (v.drop 1, Sch.next p)
  else .ok ([], p)

/-- The `DEF` line of `parse_symbol` (src/symbol_lib.rs 663-675). -/
def parseDef {F : Type} [Flt F] (l : Str) : Said (Symbol F) := do
  let v ← Sch.Msg.splitQ l
  if v.length ≠ 10 then .err (unexpected l)
  else do
    assumeString (str! "DEF") (← idx v 0)
    let s : Symbol F := Symbol.new (← idx v 1) (← idx v 2)
    let textOffset ← f64R l (← idx v 4)
    let drawPinnumber ← boolFromString (← idx v 5) (str! "Y") (str! "N")
    let drawPinname ← boolFromString (← idx v 6) (str! "Y") (str! "N")
    let unitCount ← i64R l (← idx v 7)
    let unitLocked ← boolFromString (← idx v 8) (str! "L") (str! "F")
    let isPower ← boolFromString (← idx v 9) (str! "P") (str! "N")
    .ok { s with textOffset, drawPinnumber, drawPinname, unitCount, unitLocked, isPower }

/-- `parse_symbol` (src/symbol_lib.rs 660-728). -/
def parseSymbol {F : Type} [Flt F] (p : List Str) : Said (Symbol F × List Str) := do
  let p ← assumeLine (str! "#") (Sch.next p)
  let l ← here p
  let s : Symbol F ← parseDef l
  let (fields, p) ← parseFields [] (Sch.next p)
  let h ← here p
  let p := if h = str! "$FPLIST" then skipFplist (Sch.next p) else p
  let (aliases, p) ← parseAliases p
  let p ← assumeLine (str! "DRAW") p
  let (draw, p) ← parseDraws [] p
  let p ← assumeLine (str! "ENDDEF") p
  let p ← assumeLine (str! "#") p
  .ok ({ s with fields, aliases, draw }, p)

/-- The main loop of `parse` (src/symbol_lib.rs 826-834). -/
def parseSymbols {F : Type} [Flt F] : Nat → List (Symbol F) → List Str → Said (List (Symbol F))
  | _, acc, [] => .ok acc
  | 0, _, _ :: _ => .diverge
  | fuel + 1, acc, l :: rest =>
    if l = str! "#End Library" then .ok acc
    else do
      let (s, p) ← parseSymbol (l :: rest)
      parseSymbols fuel (acc ++ [s]) p

/-- `parse` after splitting into lines (src/symbol_lib.rs 819-836). -/
def parseLines {F : Type} [Flt F] (v : List Str) : Said (SymbolLib F) := do
  let p ← assumeLine (str! "EESchema-LIBRARY Version 2.3") v
  let p ← assumeLine (str! "#encoding utf-8") p
  let p ← assumeLine (str! "#") p
  let symbols ← parseSymbols p.length [] p
  .ok ⟨symbols⟩

/-- `parse_str` (src/symbol_lib.rs 839-841). -/
def parseStr {F : Type} [Flt F] (s : Str) : Said (SymbolLib F) := parseLines (lines s)

end Verif.Lib.Msg
