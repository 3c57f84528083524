import Verif.Basic.Flt
/-!
# Bounding boxes (src/lib.rs 247-345)
-/

namespace Verif
open Flt

/-- `Bound` (src/lib.rs 249-260). -/
structure Bound (F : Type) where
  x1 : F
  y1 : F
  x2 : F
  y2 : F
  isBounded : Bool
  deriving DecidableEq, Repr

namespace Bound
variable {F : Type} [Flt F]

/-- `Bound::default` (src/lib.rs 262-272). -/
def dflt : Bound F := ⟨zero, zero, zero, zero, false⟩

/-- `Bound::new` (src/lib.rs 276-284). -/
def new (x1 y1 x2 y2 : F) : Bound F := ⟨x1, y1, x2, y2, true⟩

/-- `Bound::new_from_i64` (src/lib.rs 286-294). -/
def newFromI64 (x1 y1 x2 y2 : Int) : Bound F :=
  ⟨ofInt x1, ofInt y1, ofInt x2, ofInt y2, true⟩

/-- `Bound::update` (src/lib.rs 297-312), returning the updated `self`. -/
def update (self other : Bound F) : Bound F :=
  if other.isBounded then
    if !self.isBounded then
      { isBounded := true, x1 := other.x1, y1 := other.y1, x2 := other.x2, y2 := other.y2 }
    else
      { self with
        x1 := fmin self.x1 other.x1
        y1 := fmin self.y1 other.y1
        x2 := fmax self.x2 other.x2
        y2 := fmax self.y2 other.y2 }
  else self

/-- `Bound::swap_if_needed` (src/lib.rs 315-322). -/
def swapIfNeeded (self : Bound F) : Bound F :=
  let b := if lt self.x2 self.x1 then { self with x1 := self.x2, x2 := self.x1 } else self
  if lt b.y2 b.y1 then { b with y1 := b.y2, y2 := b.y1 } else b

/-- `Bound::width` (src/lib.rs 325-327). -/
def width (self : Bound F) : F := Flt.abs (sub self.x1 self.x2)

/-- `Bound::height` (src/lib.rs 330-332). -/
def height (self : Bound F) : F := Flt.abs (sub self.y1 self.y2)

end Bound

end Verif
