import Verif.Basic.Flt
/-!
# Style-check findings (src/checkfix.rs)
-/

namespace Verif

/-- `Config`/`ModConfig` (src/checkfix.rs 10-25); the name and the empty symbol
configuration are not used by any check and are dropped. -/
structure Config (F : Type) where
  fontSize : F
  fontThickness : F

/-- `Config::klc` (src/checkfix.rs 29-38). -/
def Config.klc {F : Type} [Flt F] : Config F := ⟨Flt.lit 1 0, Flt.lit 15 2⟩

/-- `CheckFixItem` (src/checkfix.rs 111-122, with `new` and `info`, 125-143). -/
structure CheckFixItem where
  section_ : Int
  rule : Int
  item : Str
  message : Str
  info : Bool
  deriving DecidableEq, Repr

/-- `CheckFixData` (src/checkfix.rs 52-57). -/
inductive CheckFixData
  | item (i : CheckFixItem)
  | more (v : List CheckFixData)
  deriving Repr

namespace CheckFixData

/-- `CheckFixData::flatter` (src/checkfix.rs 61-70). -/
def flatter : CheckFixData → CheckFixData
  | item i => item i
  | more [x] => x
  | more v => more v

/-- `CheckFixData::new` (src/checkfix.rs 73-81). -/
def new (section_ rule : Int) (item_ message : Str) : CheckFixData :=
  item ⟨section_, rule, item_, message, false⟩

/-- `CheckFixData::info` (src/checkfix.rs 84-92). -/
def newInfo (section_ rule : Int) (item_ message : Str) : CheckFixData :=
  item ⟨section_, rule, item_, message, true⟩

mutual
/-- The findings visited by `dump_on_logger` with the indentation they are
logged at (src/checkfix.rs 95-106). -/
def dump (indent : Nat) : CheckFixData → List (Nat × CheckFixItem)
  | item i => [(indent, i)]
  | more v => dumpAll indent v
/-- The loop over nested findings (src/checkfix.rs 98-104). -/
def dumpAll (indent : Nat) : List CheckFixData → List (Nat × CheckFixItem)
  | [] => []
  | item i :: ds => dump indent (item i) ++ dumpAll indent ds
  | more v :: ds => dump (indent + 1) (more v) ++ dumpAll indent ds
end

end CheckFixData

/-- `KLCSection` (src/checkfix.rs 174-195). -/
inductive KLCSection
  | general | symbolLibraryNames | symbolNames | symbolRules | footprintLibraryNames
  | footprintNames | footprintRules | smdRules | thtRules | footprintProperties
  deriving DecidableEq, Repr

/-- `Into<i64> for KLCSection` (src/checkfix.rs 197-212). -/
def KLCSection.number : KLCSection → Int
  | .general => 1
  | .symbolLibraryNames => 2
  | .symbolNames => 3
  | .symbolRules => 4
  | .footprintLibraryNames => 5
  | .footprintNames => 6
  | .footprintRules => 7
  | .smdRules => 8
  | .thtRules => 9
  | .footprintProperties => 10

/-- `Display for KLCSection` (src/checkfix.rs 214-230). -/
def KLCSection.show : KLCSection → Str
  | .general => str! "General Rules"
  | .symbolLibraryNames => str! "Symbol Library Names"
  | .symbolNames => str! "Symbol Names"
  | .symbolRules => str! "General Rules for Symbols"
  | .footprintLibraryNames => str! "Footprint Library Names"
  | .footprintNames => str! "Footprint Names"
  | .footprintRules => str! "General Rules for Footprints"
  | .smdRules => str! "Rules for SMD Footprints"
  | .thtRules => str! "Rules for Through-hole Footprints"
  | .footprintProperties => str! "Footprint Properties"

/-- `ALLOWED_1_7` (src/checkfix.rs 245). -/
def allowedChars : Str :=
  str! "ABCDEFGHIJKLMNOPQRSTUVWXYZabcdefghijklmnopqrstuvwxyz0123456789_-."

/-- The loop of `allowed_1_7` (src/checkfix.rs 248-253), from character `i` on. -/
def invalidMsgs (s : Str) : Nat → Str → List Str
  | _, [] => []
  | i, c :: cs =>
    if c ∈ allowedChars then invalidMsgs s (i + 1) cs
    else (str! "Invalid char '" ++ [c] ++ str! "' at " ++ showNat i ++ str! " in '" ++ s ++ str! "'")
      :: invalidMsgs s (i + 1) cs

/-- `allowed_1_7` (src/checkfix.rs 247-259). -/
def allowed17 (s : Str) : Option (List Str) :=
  let v := invalidMsgs s 0 s
  if v.isEmpty then none else some v

/-- `allowed_1_7_items` (src/checkfix.rs 262-270). -/
def allowed17Items (s : Str) : List CheckFixData :=
  match allowed17 s with
  | some v => v.map fun x => CheckFixData.new 1 7 s x
  | none => []

/-- `is_allowed_1_7` (src/checkfix.rs 273-275). -/
def isAllowed17 (s : Str) : Bool := (allowed17 s).isNone

end Verif
