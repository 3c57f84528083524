import Verif.Spec.Numerals
import Verif.Spec.Cut
import Mathlib.Data.List.Forall2
import Verif.Model.SymbolLib
/-!
# The language of symbol library files

Which lines make up a symbol library, and what they stand for.  The words of a line
are the ones described in `Verif.Spec.Cut`.
-/

namespace Verif.Spec
open Verif Lib

variable {F : Type} [Flt F]

/-- A line with these words. -/
def HasWords (line : Str) (ws : List Str) : Prop := Cut none line ws

def pinSides : List (Str × PinOrientation) :=
  [(str! "U", .up), (str! "D", .down), (str! "L", .left), (str! "R", .right)]

def pinTypes : List (Str × PinType) :=
  [(str! "I", .input), (str! "O", .output), (str! "B", .bidi), (str! "T", .tristate), (str! "P", .passive),
   (str! "U", .unspecified), (str! "W", .powerInput), (str! "w", .powerOutput), (str! "C", .openCollector),
   (str! "E", .openEmitter), (str! "N", .notConnected)]

def pinShapes : List (Str × PinShape) :=
  [(str! "I", .inverted), (str! "C", .clock), (str! "CI", .invertedClock), (str! "L", .inputLow),
   (str! "CL", .clockLow), (str! "V", .outputLow), (str! "F", .fallingEdgeClock), (str! "X", .nonLogic), ([], .line)]

def fills : List (Str × Fill) :=
  [(str! "F", .filledForeground), (str! "f", .filledBackground), (str! "N", .transparent)]

def directions : List (Char × Sch.Orientation) := [('H', .horizontal), ('V', .vertical)]

def alignments : List (Char × Sch.Justify) :=
  [('C', .center), ('R', .right), ('L', .left), ('B', .bottom), ('T', .top)]

/-- The last word of a pin line: the letters of the shape, behind an `N` if the pin
is not shown.  A pair of quotation marks with nothing in it hides the pin. -/
def ShapeWord (w : Str) (shown : Bool) (shape : PinShape) : Prop :=
  (w = [] ∧ shown = false ∧ shape = .line) ∨
  ∃ l, (l, shape) ∈ pinShapes ∧ (w = 'N' :: l ∧ shown = false ∨ w = l ∧ l ≠ [] ∧ shown = true)

/-- `X name number x y length side size size unit convert type [shape]` -/
def PinLine (line : Str) (p : Pin) : Prop :=
  ∃ first name number x y len side s1 s2 unit convert type_ shape,
    HasWords line ([first, name, number, x, y, len, side, s1, s2, unit, convert, type_] ++ shape) ∧
    p.name = name ∧ p.number = number ∧ IntWord x p.x ∧ IntWord y p.y ∧ IntWord len p.len ∧
    (side, p.orientation) ∈ pinSides ∧ IntWord s1 p.numSize ∧ IntWord s2 p.nameSize ∧ IntWord unit p.unit ∧
    IntWord convert p.convert ∧ (type_, p.pinType) ∈ pinTypes ∧
    (shape = [] ∧ p.pinVisible = true ∧ p.pinShape = .line ∨
      ∃ w, shape = [w] ∧ ShapeWord w p.pinVisible p.pinShape)

/-- `S x y x y unit convert width fill` -/
def RectLine (line : Str) (r : Rectangle) : Prop :=
  ∃ first x1 y1 x2 y2 unit convert width fill,
    HasWords line [first, x1, y1, x2, y2, unit, convert, width, fill] ∧
    IntWord x1 r.x1 ∧ IntWord y1 r.y1 ∧ IntWord x2 r.x2 ∧ IntWord y2 r.y2 ∧ IntWord unit r.unit ∧
    IntWord convert r.convert ∧ IntWord width r.thickness ∧ (fill, r.fill) ∈ fills

/-- The names of the first fields. -/
def fixedNames : List (Int × Str) :=
  [(0, str! "Reference"), (1, str! "Value"), (2, str! "Footprint"), (3, str! "UserDocLink")]

/-- `Fn value x y size direction visible align align+italic+bold [name]` -/
def FieldLine (line : Str) (f : Field F) : Prop :=
  ∃ first value x y size dir shown hor ver it bo name r1 r2 r3,
    HasWords line ([first, value, x, y, size, dir :: r1, shown, hor :: r2, ver :: it :: bo :: r3] ++ name) ∧
    IntWord (first.drop 1) f.i ∧ f.value = value ∧ FloatWord x f.x ∧ FloatWord y f.y ∧ IntWord size f.dimension ∧
    (dir, f.orientation) ∈ directions ∧ Choice (str! "V") (str! "I") shown f.visible ∧
    (hor, f.hjustify) ∈ alignments ∧ (ver, f.vjustify) ∈ alignments ∧ Choice 'I' 'N' it f.italic ∧
    Choice 'B' 'N' bo f.bold ∧ (name = [] ∧ (f.i, f.name) ∈ fixedNames ∨ name = [f.name])

/-- `DEF name reference 0 offset numbers names units locked power` -/
def DefLine (line : Str) (s : Symbol F) : Prop :=
  ∃ fourth offset numbers names units locked power,
    HasWords line [str! "DEF", s.name, s.reference, fourth, offset, numbers, names, units, locked, power] ∧
    FloatWord offset s.textOffset ∧ Choice (str! "Y") (str! "N") numbers s.drawPinnumber ∧
    Choice (str! "Y") (str! "N") names s.drawPinname ∧ IntWord units s.unitCount ∧
    Choice (str! "L") (str! "F") locked s.unitLocked ∧ Choice (str! "P") (str! "N") power s.isPower

/-- A drawing: a pin, a rectangle, or something that is kept as it is. -/
inductive DrawLine : Str → Draw → Prop
  | pin {r p} (h : PinLine (str! "X " ++ r) p) : DrawLine (str! "X " ++ r) (.pin p)
  | rect {l p} (h : RectLine (str! "S " ++ l) p) : DrawLine (str! "S " ++ l) (.rectangle p)
  | other {l} (hx : ¬ str! "X " <+: l) (hs : ¬ str! "S " <+: l) : DrawLine l (.other l)

/-- The optional list of footprints: it is skipped. -/
def FilterLines (ls : List Str) : Prop :=
  ls = [] ∨ ∃ fs, ls = str! "$FPLIST" :: fs ++ [str! "$ENDFPLIST"] ∧ str! "$ENDFPLIST" ∉ fs

/-- The optional line of other names. -/
def AliasLines (ls : List Str) (as : List Str) : Prop :=
  (ls = [] ∧ as = []) ∨ ∃ r ws, ls = [str! "ALIAS" ++ r] ∧ HasWords (str! "ALIAS" ++ r) ws ∧ as = ws.tail

/-- The lines of one symbol. -/
def SymbolLines (ls : List Str) (s : Symbol F) : Prop :=
  ∃ heading def_ fields filters aliases draws,
    ls = heading :: str! "#" :: def_ :: (fields ++ filters ++ aliases ++ str! "DRAW" :: draws ++
      [str! "ENDDRAW", str! "ENDDEF", str! "#"]) ∧
    DefLine def_ s ∧
    List.Forall₂ (fun l f => (∃ r, l = 'F' :: r) ∧ FieldLine l f) fields s.fields ∧
    FilterLines filters ∧ AliasLines aliases s.aliases ∧
    List.Forall₂ (fun l d => l ≠ str! "ENDDRAW" ∧ DrawLine l d) draws s.draw

/-- The lines of a library after its heading: symbols up to the end of the file or to
the end mark. -/
inductive SymbolList : List Str → List (Symbol F) → Prop
  | eof : SymbolList [] []
  | mark {rest} : SymbolList (str! "#End Library" :: rest) []
  | symbol {a b s ss} (hs : SymbolLines a s) (hh : a.head? ≠ some (str! "#End Library")) (hr : SymbolList b ss) :
      SymbolList (a ++ b) (s :: ss)

/-- The lines of a library. -/
def LibraryLines (ls : List Str) (l : SymbolLib F) : Prop :=
  ∃ body, ls = str! "EESchema-LIBRARY Version 2.3" :: str! "#encoding utf-8" :: str! "#" :: body ∧
    SymbolList body l.symbols

end Verif.Spec
