import Verif.Model.Schematic
/-!
# What the schematic reader prints (src/schematic.rs 1278-1562)

The schematic reader prints a notice to the standard output for each line it skips.
`Model/Schematic.lean` leaves these notices out; here are the same functions with them.
-/

namespace Verif

/-- What a computation prints to the standard output, line by line, and how it ends (src/schematic.rs 1293, 1387, 1389). -/
structure Told (α : Type) where
  out : List Str
  res : Res α

namespace Told

/-- A computation that prints nothing (e.g. src/schematic.rs 1135-1140). -/
def of {α : Type} (r : Res α) : Told α := ⟨[], r⟩

/-- `println!` (src/schematic.rs 1293). -/
def say (s : Str) : Told Unit := ⟨[s], .ok ()⟩

/-- Go on after a success (`?` and sequencing in Rust, e.g. src/schematic.rs 1278-1299). -/
def bind {α β : Type} (x : Told α) (f : α → Told β) : Told β :=
  match x.res with
  | .ok a => ⟨x.out ++ (f a).out, (f a).res⟩
  | .err e => ⟨x.out, .err e⟩
  | .panic => ⟨x.out, .panic⟩
  | .diverge => ⟨x.out, .diverge⟩

instance : Monad Told where -- the `?` of src/schematic.rs 1278-1299
  pure a := of (.ok a)
  bind := bind

end Told

namespace Sch
open Told

/-- The loop of `parse_component` (src/schematic.rs 1281-1296) with its `println!`. -/
def tellComponentLoop {F : Type} [Flt F] (d : Component F) : List Str → Told (Component F × List Str)
  | [] => of .panic
  | s :: rest =>
    if s = str! "$EndComp" then of (.ok (d, s :: rest))
    else
      let w := firstWord s
      if w = some (str! "L") then do
        let d ← of (parseComponentL s d)
        tellComponentLoop d rest
      else if w = some (str! "U") then tellComponentLoop { d with u := s } rest
      else if w = some (str! "P") then do
        let d ← of (parseComponentP s d)
        tellComponentLoop d rest
      else if w = some (str! "F") then do
        let d ← of (parseComponentF s d)
        tellComponentLoop d rest
      else if w = some (str! "1") ∨ w = some (str! "0") then
        match rest with
        | [] => of .panic
        | s2 :: rest2 => do
          let r ← of (parseRotation s2)
          tellComponentLoop { d with rotation := r } rest2
      else if w = some (str! "AR") then tellComponentLoop { d with arPath := d.arPath ++ [s] } rest
      else do
        say (str! "skipping unknown component line " ++ s)
        tellComponentLoop d rest

/-- `parse_component` (src/schematic.rs 1278-1298) with its output. -/
def tellComponent {F : Type} [Flt F] (p : List Str) : Told (Component F × List Str) :=
  tellComponentLoop .dflt (next p)

/-- The loop of `parse_sheet` (src/schematic.rs 1376-1392) with its `println!`. -/
def tellSheetLoop (s : Sheet) : List Str → Told (Sheet × List Str)
  | [] => of .panic
  | st :: rest =>
    if st = str! "$EndSheet" then of (.ok (s, st :: rest))
    else
      match firstWord st with
      | some w =>
        if w = str! "S" then do
          let s ← of (parseSheetS st s)
          tellSheetLoop s rest
        else if w = str! "U" then do
          let s ← of (parseSheetU st s)
          tellSheetLoop s rest
        else if startsWith w (str! "F") then do
          let s ← of (parseSheetF st s w)
          tellSheetLoop s rest
        else do
          say (str! "skipping unknown sheet line " ++ st)
          tellSheetLoop s rest
      | none => do
        say (str! "skipping unknown sheet line " ++ st)
        tellSheetLoop s rest

/-- `parse_sheet` (src/schematic.rs 1373-1394) with its output. -/
def tellSheet (p : List Str) : Told (Sheet × List Str) := tellSheetLoop .dflt (next p)

/-- One iteration of the main loop of `parse` (src/schematic.rs 1524-1558) with its
output; only `parse_component` and `parse_sheet` print. -/
def tellItem {F : Type} [Flt F] (sch : Schematic F) (p : List Str) : Told (Schematic F × List Str) := do
  let s ← of (here p)
  match firstWord s with
  | none => of .panic
  | some w =>
    if w = str! "$Descr" then of (parseItem sch p)
    else if w = str! "$Comp" then do
      let (d, p) ← tellComponent p
      of (.ok ({ sch with elements := sch.elements ++ [.component d] }, p))
    else if w = str! "$Sheet" then do
      let (d, p) ← tellSheet p
      of (.ok ({ sch with sheets := sch.sheets ++ [d] }, p))
    else of (parseItem sch p)

/-- The main loop of `parse` (src/schematic.rs 1523-1560) with its output. -/
def tellItems {F : Type} [Flt F] : Nat → Schematic F → List Str → Told (Schematic F)
  | _, sch, [] => of (.ok sch)
  | 0, _, _ :: _ => of .diverge
  | fuel + 1, sch, p => do
    let (sch, p) ← tellItem sch p
    tellItems fuel sch (next p)

/-- `parse` after splitting into lines (src/schematic.rs 1505-1562) with its output. -/
def tellLines {F : Type} [Flt F] (filename : Option Str) (v : List Str) : Told (Schematic F) := do
  let sch : Schematic F := { Schematic.dflt with filename := filename }
  let p ← of (assumeLine (str! "EESchema Schematic File Version 2") v)
  let (sch, p) := parseLibs sch p
  let s ← of (here p)
  if !startsWith s (str! "EELAYER ") then of (.err .other)
  else do
    let sch := { sch with eelayer := s }
    let p ← of (assumeLine (str! "EELAYER END") (next p))
    tellItems p.length sch p

/-- `parse` (src/schematic.rs 1501-1562) with its output. -/
def tell {F : Type} [Flt F] (filename : Option Str) (s : Str) : Told (Schematic F) :=
  tellLines filename (lines s)

end Sch
end Verif
