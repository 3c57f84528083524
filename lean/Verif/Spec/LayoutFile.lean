import Verif.Model.Layout.Data
import Verif.Spec.FootprintFile
/-!
# Which layouts can be saved without loss

Conditions on the data alone; they say nothing about how it is written.
-/

namespace Verif.Spec
open Verif Flt Lay

variable {F : Type} [Flt F]

mutual
/-- A tree whose atoms survive quoting. -/
def CleanTree : Sexp → Prop
  | .str s => Clean s
  | .empty => False
  | .list l => CleanTrees l
/-- A sequence of such trees. -/
def CleanTrees : List Sexp → Prop
  | [] => True
  | x :: xs => CleanTree x ∧ CleanTrees xs
end

/-- The top-level sections of a board file the library knows. -/
def layoutSections : List Str :=
  [str! "version", str! "host", str! "general", str! "page", str! "layers", str! "module",
   str! "net", str! "net_class", str! "gr_text", str! "gr_line", str! "gr_arc", str! "gr_circle",
   str! "dimension", str! "zone", str! "segment", str! "via", str! "setup"]

/-- A named section the library does not know. -/
def UnknownSection (s : Sexp) : Prop := ∃ n r, s = .list (.str n :: r) ∧ n ∉ layoutSections

/-- The outline sections of a zone. -/
def outlineSections : List Str := [str! "polygon", str! "filled_polygon", str! "fill_segments"]

/-- Anything that is not an outline section of a zone. -/
def NotOutline (s : Sexp) : Prop := ∀ n r, s = .list (.str n :: r) → n ∉ outlineSections

/-- The largest value of a 64-bit signed number. -/
def maxI64 : Nat := 9223372036854775807

/-- A board text that can be saved. -/
def GoodGrText (t : GrText F) : Prop := GoodLayer t.layer ∧ GoodFont t.effects.font

/-- A zone that can be saved. -/
def GoodZone (z : Zone F) : Prop :=
  inI64 z.net ∧ GoodLayer z.layer ∧ z.priority ≤ maxI64 ∧ inI64 z.fill.arcSegments ∧
  ∀ s ∈ z.other, NotOutline s

/-- A board element that can be saved. -/
def GoodBoardElem : Lay.Elem F → Prop
  | .module_ m => ∀ e ∈ m.elements, GoodElem e
  | .net n => inI64 n.num
  | .netClass _ => True
  | .grText t => GoodGrText t
  | .grLine l => GoodLayer l.layer
  | .grArc l => GoodLayer l.layer
  | .grCircle l => GoodLayer l.layer
  | .dimension d => GoodLayer d.layer ∧ GoodGrText d.text
  | .segment s => GoodLayer s.layer ∧ inI64 s.net
  | .via v => (∀ l ∈ v.layers, GoodLayer l) ∧ inI64 v.net
  | .zone z => GoodZone z
  | .other s => UnknownSection s

/-- The free-form strings of a board element (not those of unknown sections). -/
def boardStrings : Lay.Elem F → List Str
  | .module_ m => m.name :: m.elements.flatMap strings
  | .net n => [n.name]
  | .netClass n => n.name :: n.desc :: n.nets
  | .grText t => t.value :: (layerStrings t.layer ++ t.tstamp.toList)
  | .grLine l => layerStrings l.layer ++ l.tstamp.toList
  | .grArc l => layerStrings l.layer ++ l.tstamp.toList
  | .grCircle l => layerStrings l.layer ++ l.tstamp.toList
  | .dimension d => d.name :: (layerStrings d.layer ++ d.tstamp.toList ++
      d.text.value :: (layerStrings d.text.layer ++ d.text.tstamp.toList))
  | .segment s => layerStrings s.layer ++ s.tstamp.toList ++ s.status.toList
  | .via v => v.layers.flatMap layerStrings
  | .zone z => z.netName :: z.tstamp :: z.hatch.style :: (layerStrings z.layer ++
      z.connectPads.connection.toList ++ z.fill.smoothing.toList)
  | .other _ => []

/-- The unknown parts of a board element. -/
def boardTrees : Lay.Elem F → List Sexp
  | .zone z => z.other
  | .other s => [s]
  | _ => []

/-- The strings of a setup entry. -/
def setupStrings (s : SetupElement) : List Str := s.name :: s.value1 :: s.value2.toList

/-- The free-form strings of a layout outside its elements. -/
def headerStrings (l : Layout F) : List Str :=
  l.host.tool :: l.host.build :: l.page :: (l.layers.flatMap (fun x => layerStrings x.layer) ++
    l.setup.elements.flatMap setupStrings ++ l.setup.pcbplotparams.flatMap setupStrings)

/-- The numbers of the general section fit in 64 bits. -/
def GoodGeneral (g : General F) : Prop :=
  inI64 g.links ∧ inI64 g.noConnects ∧ inI64 g.drawings ∧ inI64 g.tracks ∧ inI64 g.zones ∧
  inI64 g.modules ∧ inI64 g.nets

/-- A layout whose parts can all be saved. -/
def SavableLayout (l : Layout F) : Prop :=
  inI64 l.version ∧ GoodGeneral l.general ∧ (∀ x ∈ l.layers, inI64 x.num ∧ GoodLayer x.layer) ∧
  (∀ s ∈ l.setup.elements, s.name ≠ str! "pcbplotparams") ∧ ∀ e ∈ l.elements, GoodBoardElem e

/-- All strings survive quoting. -/
def CleanLayout (l : Layout F) : Prop :=
  (∀ s ∈ headerStrings l, Clean s) ∧ ∀ e ∈ l.elements, (∀ s ∈ boardStrings e, Clean s) ∧
    ∀ t ∈ boardTrees e, CleanTree t

/-- A letter size that survives being saved. -/
def ResavableFont (f : Fp.Font F) : Prop :=
  lt zero f.size.x = true ∨ lt zero f.size.y = true ∨ (f.size.x = zero ∧ f.size.y = zero)

/-- What may be wrong with a board element that was read from a file: a module
with an element that does not survive, a negative letter size, a negative zone
priority (which is kept as a huge number). -/
def ResavableBoard : Lay.Elem F → Prop
  | .module_ m => ∀ e ∈ m.elements, Resavable e
  | .grText t => ResavableFont t.effects.font
  | .dimension d => ResavableFont d.text.effects.font
  | .zone z => z.priority ≤ maxI64
  | _ => True

end Verif.Spec
