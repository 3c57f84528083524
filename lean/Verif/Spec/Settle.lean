import Verif.Spec.LayoutFile
/-!
# What a footprint or a board is after it has been saved once

Written against the data alone: which sizes a file keeps, and what becomes of the others.
-/

namespace Verif.Spec
open Verif Flt

variable {F : Type} [Flt F]

/-- A hole of which the file mentions at least one size. -/
def HoleWritten (d : Fp.Drill F) : Prop :=
  lt zero d.width = true ∨
  (lt zero d.height = true ∧ lt eps (Flt.abs (sub d.height d.width)) = true)

/-- A hole after saving: as it was if both sizes are positive and noticeably different; round
with the width if only the width counts, round with the height if there is no width. -/
def settleDrill (d : Fp.Drill F) : Fp.Drill F :=
  if lt zero d.width = true then
    if lt zero d.height = true ∧ lt eps (Flt.abs (sub d.height d.width)) = true then d
    else { d with height := d.width }
  else { d with width := d.height }

/-- Letters after saving: a size that is positive in no direction is forgotten. -/
def settleFont (f : Fp.Font F) : Fp.Font F :=
  if lt zero f.size.x = true ∨ lt zero f.size.y = true then f
  else { f with size := { f.size with x := zero, y := zero } }

/-- An element after saving. -/
def settleElem : Fp.Elem F → Fp.Elem F
  | .text t => .text { t with effects := { t.effects with font := settleFont t.effects.font } }
  | .pad p => .pad { p with drill := p.drill.map settleDrill }
  | e => e

/-- A footprint after saving. -/
def settle (m : Fp.Module F) : Fp.Module F := { m with elements := m.elements.map settleElem }

/-- An element whose text can be read: no trapezoid delta, no hole without a size, no negative
time stamp. -/
def ReadsBack : Fp.Elem F → Prop
  | .pad p => p.rectDelta = none ∧ ∀ d, p.drill = some d → HoleWritten d
  | .tedit i => 0 ≤ i
  | .tstamp i => 0 ≤ i
  | _ => True

/-- A board text after saving. -/
def settleText (t : Lay.GrText F) : Lay.GrText F :=
  { t with effects := { t.effects with font := settleFont t.effects.font } }

/-- A board element after saving. -/
def settleBoardElem : Lay.Elem F → Lay.Elem F
  | .module_ m => .module_ (settle m)
  | .grText t => .grText (settleText t)
  | .dimension d => .dimension { d with text := settleText d.text }
  | e => e

/-- A board after saving. -/
def settleBoard (l : Lay.Layout F) : Lay.Layout F :=
  { l with elements := l.elements.map settleBoardElem }

/-- A board element whose text can be read. -/
def ReadsBackBoard : Lay.Elem F → Prop
  | .module_ m => ∀ e ∈ m.elements, ReadsBack e
  | .zone z => z.priority ≤ maxI64
  | _ => True

/-- What a number machine needs for this: zero is not positive, and no number is noticeably
different from itself (true for infinities and NaN also). -/
class SelfLaws (F : Type) [Flt F] : Prop where
  lt_zero : lt (zero : F) zero = false
  gap_self : ∀ a : F, lt eps (Flt.abs (sub a a)) = false

end Verif.Spec
