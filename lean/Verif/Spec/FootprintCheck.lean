import Verif.Model.Footprint.Data
import Verif.Model.CheckFix
/-!
# Specification vocabulary: the footprint style rules
-/

namespace Verif.Spec
open Verif Flt Fp

variable {F : Type}

/-- The texts of a footprint that carry the given name, in order. -/
def textsNamed (m : Module F) (which : Str) : List (FpText F) :=
  m.elements.filterMap fun e => match e with
    | .text t => if t.name = which then some t else none
    | _ => none

/-- Some pad of the footprint has the given type. -/
def HasPad (m : Module F) (t : PadType) : Prop := ∃ p, Elem.pad p ∈ m.elements ∧ p.t = t

/-- The footprint is marked as a surface-mount device. -/
def MarkedSmd (m : Module F) : Prop := Elem.attr (str! "smd") ∈ m.elements

variable [Flt F]

/-- Equal up to the float tolerance. -/
def Near (a b : F) : Prop := le (Flt.abs (sub a b)) eps = true

/-- The lettering rule: quadratic characters of the configured size. -/
def Lettering (cfg : Config F) (t : FpText F) : Prop :=
  Near t.effects.font.size.y cfg.fontSize ∧ Near t.effects.font.size.x cfg.fontSize ∧
  Near t.effects.font.thickness cfg.fontThickness

/-- Rule 7.3: there is a reference text and (the first one) shows `REF**` on a
silk screen layer. -/
def ReferenceRule (cfg : Config F) (m : Module F) : Prop :=
  ∃ t, (textsNamed m (str! "reference")).head? = some t ∧ t.value = str! "REF**" ∧
    t.layer.t = .silkS ∧ t.hide = false ∧
    Near t.effects.font.size.x t.effects.font.size.y ∧ Lettering cfg t

/-- Rule 7.4: there is a value text, which shows the footprint name on a
fabrication layer. -/
def ValueRule (cfg : Config F) (m : Module F) : Prop :=
  ∃ t, (textsNamed m (str! "value")).head? = some t ∧ t.value = m.name ∧
    t.layer.t = .fab ∧ t.hide = false ∧ Lettering cfg t

/-- Rule 7.4: the first user text shows `%R` on a fabrication layer. -/
def Reference2Rule (cfg : Config F) (m : Module F) : Prop :=
  ∃ t, (textsNamed m (str! "user")).head? = some t ∧ t.value = str! "%R" ∧
    t.layer.t = .fab ∧ Near t.effects.font.size.x t.effects.font.size.y ∧ Lettering cfg t

omit [Flt F] in
/-- The courtyard lines of a footprint. -/
def courtyard (m : Module F) : List (Elem F) :=
  m.elements.filter fun e => match e with
    | .line l => l.layer.t = .crtYd
    | _ => false

omit [Flt F] in
/-- Rules 8.1 and 9.1: pure surface-mount footprints are marked so, pure
through-hole footprints are not. -/
def PlacementRule (m : Module F) : Prop :=
  (HasPad m .smd ∧ ¬ HasPad m .pth → MarkedSmd m) ∧
  (HasPad m .pth ∧ ¬ HasPad m .smd → ¬ MarkedSmd m)

end Verif.Spec
