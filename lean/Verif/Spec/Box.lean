import Verif.Model.Bound
/-!
# Specification vocabulary: boxes and points
-/

namespace Verif.Spec
open Verif Flt

variable {F : Type} [Flt F]

/-- The point `(x, y)` lies in the (bounded) box. -/
def Inside (b : Bound F) (x y : F) : Prop :=
  b.isBounded = true ∧ le b.x1 x = true ∧ le x b.x2 = true ∧ le b.y1 y = true ∧ le y b.y2 = true

/-- Every side of `inner` is within `outer`. -/
def Encloses (outer inner : Bound F) : Prop :=
  le outer.x1 inner.x1 = true ∧ le outer.y1 inner.y1 = true ∧
  le inner.x2 outer.x2 = true ∧ le inner.y2 outer.y2 = true

/-- The corners are the right way round. -/
def Upright (b : Bound F) : Prop := le b.x1 b.x2 = true ∧ le b.y1 b.y2 = true

end Verif.Spec
