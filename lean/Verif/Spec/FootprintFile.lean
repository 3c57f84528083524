import Verif.Model.Footprint.Data
import Verif.Spec.Sexp
/-!
# Which footprints can be saved without loss

Conditions on the data alone; they say nothing about how it is written.
-/

namespace Verif.Spec
open Verif Flt Fp

variable {F : Type} [Flt F]

/-- The layer type names the library knows. -/
def knownTypes : List Str :=
  [str! "Cu", str! "Paste", str! "Mask", str! "SilkS", str! "User", str! "Adhes", str! "Cuts",
   str! "CrtYd", str! "Fab", str! "Margin"]

/-- The side names the library knows. -/
def knownSides : List Str :=
  [str! "F", str! "B", str! "Dwgs", str! "Cmts", str! "Eco1", str! "Eco2", str! "Edge", str! "In1",
   str! "In2", str! "*"]

/-- A layer whose free-form type name, if any, has no dot and is not one of the
known names in disguise. -/
def GoodLayer (l : Layer) : Prop :=
  ∀ s, l.t = .other s → '.' ∉ s ∧ s ∉ knownTypes

/-- Number of dots in a name. -/
def dots (s : Str) : Nat := s.count '.'

/-- A letter size: positive in some direction, or not given at all. -/
def GoodFont (f : Font F) : Prop :=
  f.size.t = .xy ∧ (lt zero f.size.x = true ∨ lt zero f.size.y = true ∨
    (f.size.x = zero ∧ f.size.y = zero))

/-- A hole: round or oval, of positive width, and either as high as wide or
positively high and noticeably different. -/
def GoodDrill (d : Drill F) : Prop :=
  (d.shape = none ∨ d.shape = some (str! "oval")) ∧ lt zero d.width = true ∧
  (d.height = d.width ∨ (lt zero d.height = true ∧ lt eps (Flt.abs (sub d.height d.width)) = true))

/-- A pad without trapezoid delta, with a good hole if any. -/
def GoodPad (p : Pad F) : Prop :=
  p.size.t = .size ∧ p.rectDelta = none ∧ (∀ l ∈ p.layers, GoodLayer l) ∧
  (∀ n, p.net = some n → inI64 n.num) ∧ (∀ i, p.zoneConnect = some i → inI64 i) ∧
  (∀ d, p.drill = some d → GoodDrill d)

/-- An element that can be saved. -/
def GoodElem : Elem F → Prop
  | .layer l => GoodLayer l
  | .text t => GoodLayer t.layer ∧ GoodFont t.effects.font
  | .pad p => GoodPad p
  | .poly p => GoodLayer p.layer
  | .line p => GoodLayer p.layer ∧ p.start.t = .start ∧ p.end_.t = .end_
  | .circle p => GoodLayer p.layer ∧ p.center.t = .center ∧ p.end_.t = .end_
  | .arc p => GoodLayer p.layer ∧ p.start.t = .start ∧ p.end_.t = .end_
  | .tedit i => 0 ≤ i ∧ inI64 i
  | .tstamp i => 0 ≤ i ∧ inI64 i
  | _ => True

/-- A free-form layer type name. -/
def layerStrings (l : Layer) : List Str := match l.t with | .other s => [s] | _ => []

/-- The free-form strings of an element. -/
def strings : Elem F → List Str
  | .layer l => layerStrings l
  | .descr s => [s]
  | .tags s => [s]
  | .attr s => [s]
  | .path s => [s]
  | .text t => t.name :: t.value :: layerStrings t.layer
  | .pad p => p.name :: (p.layers.flatMap layerStrings ++
      match p.net with | some n => [n.name] | none => [])
  | .poly p => layerStrings p.layer
  | .line p => layerStrings p.layer
  | .circle p => layerStrings p.layer
  | .arc p => layerStrings p.layer
  | .model m => [m.name]
  | _ => []

/-- A footprint that can be saved: every element can, and its strings survive
quoting (`Clean`). -/
def GoodModule (m : Module F) : Prop :=
  Clean m.name ∧ ∀ e ∈ m.elements, GoodElem e ∧ ∀ s ∈ strings e, Clean s

/-- What may be wrong with an element that was read from a file: a letter size
that is negative, a pad with a trapezoid delta, a hole of no width or almost
round, a negative time stamp. -/
def Resavable : Elem F → Prop
  | .text t => lt zero t.effects.font.size.x = true ∨ lt zero t.effects.font.size.y = true ∨
      (t.effects.font.size.x = zero ∧ t.effects.font.size.y = zero)
  | .pad p => p.rectDelta = none ∧ ∀ d, p.drill = some d → lt zero d.width = true ∧
      (d.height = d.width ∨
        (lt zero d.height = true ∧ lt eps (Flt.abs (sub d.height d.width)) = true))
  | .tedit i => 0 ≤ i
  | .tstamp i => 0 ≤ i
  | _ => True

end Verif.Spec
