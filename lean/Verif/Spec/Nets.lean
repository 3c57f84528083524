import Verif.Spec.Edits
/-!
# Specification vocabulary: nets of a board
-/

namespace Verif.Spec
open Verif Flt

variable {F : Type}

/-- The declared nets of a board: number and name. -/
def declared (l : Lay.Layout F) : List (Int × Str) :=
  l.elements.filterMap fun e => match e with | .net n => some (n.num, n.name) | _ => none

/-- The net of a pad. -/
def padNet : Fp.Elem F → Option (Int × Str)
  | .pad p => p.net.map fun n => (n.num, n.name)
  | _ => none

/-- Where an element refers to a net by number and name: pads and zones. -/
def connections : Lay.Elem F → List (Int × Str)
  | .module_ m => m.elements.filterMap padNet
  | .zone z => [(z.net, z.netName)]
  | _ => []

/-- Where an element refers to a net by name only: net classes. -/
def members : Lay.Elem F → List Str
  | .netClass nc => nc.nets
  | _ => []

/-- Every net that is referred to is declared. -/
def NetsDeclared (l : Lay.Layout F) : Prop :=
  ∀ e ∈ l.elements, (∀ c ∈ connections e, c ∈ declared l) ∧
    ∀ n ∈ members e, n ∈ (declared l).map Prod.snd

/-- A footprint edit that does not touch nets. -/
def FpEdit.Netless : FpEdit F → Prop
  | .renameNet _ _ => False
  | .append e => padNet e = none
  | _ => True

/-- A board edit that refers only to nets that are declared at that point. -/
def BoardEdit.Netwise (l : Lay.Layout F) : BoardEdit F → Prop
  | .addNetclass nc => ∀ n ∈ nc.nets, n ∈ (declared l).map Prod.snd
  | .editModule _ es => ∀ e ∈ es, e.Netless
  | .append e => (∀ c ∈ connections e, c ∈ declared l) ∧ ∀ n ∈ members e, n ∈ (declared l).map Prod.snd
  | _ => True

/-- Every edit of a session refers only to nets declared when it is made. -/
def NetwiseSession [Flt F] : List (BoardEdit F) → Lay.Layout F → Prop
  | [], _ => True
  | e :: es, l => e.Netwise l ∧ ∀ l', runBoard [e] l = .ok l' → NetwiseSession es l'

end Verif.Spec
