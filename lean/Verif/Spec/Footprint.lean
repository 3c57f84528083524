import Verif.Model.Footprint.Data
/-!
# Specification vocabulary for footprints

Nothing here is used by the model; these definitions say what the property
theorems claim.
-/

namespace Verif.Spec
open Verif Flt Fp

variable {F : Type}

/-- A layer with the board side forgotten. -/
def anySide (l : Layer) : Layer := { l with side := .none }

/-- Does the text belong to the component rather than to the drawing? -/
def isDesignator (t : FpText F) : Prop := t.name = str! "reference" ∨ t.name = str! "value"

instance (t : FpText F) : Decidable (isDesignator t) := inferInstanceAs (Decidable (_ ∨ _))

/-- What the comparison of footprint elements looks at: nets, board sides and
everything about the reference and value texts are forgotten. -/
def shapeOf [Flt F] : Elem F → Elem F
  | .layer l => .layer (anySide l)
  | .text t =>
    if isDesignator t then .text { FpText.new t.name [] with at_ := At.dflt }
    else .text { t with layer := anySide t.layer }
  | .pad p => .pad { p with net := none, layers := p.layers.map anySide }
  | .poly p => .poly { p with layer := anySide p.layer }
  | .line p => .line { p with layer := anySide p.layer }
  | .circle p => .circle { p with layer := anySide p.layer }
  | .arc p => .arc { p with layer := anySide p.layer }
  | e => e

/-- The net names used by the pads of an element. -/
def netNames : Elem F → List Str
  | .pad p => match p.net with | some n => [n.name] | none => []
  | _ => []

/-- An element with its net name replaced by a fixed one: everything but the net
name. -/
def eraseNetName : Elem F → Elem F
  | .pad p => .pad { p with net := p.net.map fun n => { n with name := [] } }
  | e => e

/-- The location and rotation of an element, if it has one. -/
def placement? : Elem F → Option (At F)
  | .pad p => some p.at_
  | .text t => some t.at_
  | .at_ a => some a
  | _ => none

/-- The element with its rotation set to a fixed value. -/
def eraseRotation [Flt F] : Elem F → Elem F
  | .pad p => .pad { p with at_ := { p.at_ with rot := zero } }
  | .text t => .text { t with at_ := { t.at_ with rot := zero } }
  | .at_ a => .at_ { a with rot := zero }
  | e => e

/-- A rotation angle in the range 0 (included) to 360 (excluded) degrees. -/
def Normal [Flt F] (r : F) : Prop := le zero r = true ∧ lt r (lit 360 0) = true

/-- Justification of an element, if it is a text that has one. -/
def justify? : Elem F → Option Justify
  | .text t => t.effects.justify
  | _ => none

/-- The board sides an element mentions. -/
def sides : Elem F → List LayerSide
  | .layer l => [l.side]
  | .text t => [t.layer.side]
  | .pad p => p.layers.map (·.side)
  | .poly p => [p.layer.side]
  | .line p => [p.layer.side]
  | .circle p => [p.layer.side]
  | .arc p => [p.layer.side]
  | _ => []

/-- The opposite board side. -/
def otherSide : LayerSide → LayerSide
  | .front => .back
  | .back => .front
  | s => s

/-- The points an element is drawn with: its position, ends, centre or corners. -/
def points : Elem F → List (F × F)
  | .text t => [(t.at_.x, t.at_.y)]
  | .pad p => [(p.at_.x, p.at_.y)]
  | .at_ a => [(a.x, a.y)]
  | .line l => [(l.start.x, l.start.y), (l.end_.x, l.end_.y)]
  | .arc l => [(l.start.x, l.start.y), (l.end_.x, l.end_.y)]
  | .circle c => [(c.center.x, c.center.y), (c.end_.x, c.end_.y)]
  | .poly p => p.pts.map fun q => (q.x, q.y)
  | _ => []

/-- The element with its points, rotation, board sides and justification
forgotten: what a flip must not touch. -/
def eraseFlip [Flt F] : Elem F → Elem F
  | .layer l => .layer (anySide l)
  | .text t => .text { t with at_ := At.dflt, layer := anySide t.layer,
                              effects := { t.effects with justify := none } }
  | .pad p => .pad { p with at_ := At.dflt, layers := p.layers.map anySide }
  | .at_ _ => .at_ At.dflt
  | .line l => .line { l with start := ⟨zero, zero, l.start.t⟩, end_ := ⟨zero, zero, l.end_.t⟩,
                              layer := anySide l.layer }
  | .arc l => .arc { l with start := ⟨zero, zero, l.start.t⟩, end_ := ⟨zero, zero, l.end_.t⟩,
                            layer := anySide l.layer }
  | .circle c => .circle { c with center := ⟨zero, zero, c.center.t⟩, end_ := ⟨zero, zero, c.end_.t⟩,
                                  layer := anySide c.layer }
  | .poly p => .poly { p with pts := p.pts.map fun q => ⟨zero, zero, q.t⟩, layer := anySide p.layer }
  | e => e

/-- The corner points that describe the extent of an element relative to the
footprint origin: ends of lines and arcs, corners of polygons, the corners of
the square around a circle, the corners of a pad (width and height exchanged
for pads turned by a quarter). -/
def extent [Flt F] : Elem F → List (F × F)
  | .line l => [(l.start.x, l.start.y), (l.end_.x, l.end_.y)]
  | .arc l => [(l.start.x, l.start.y), (l.end_.x, l.end_.y)]
  | .poly p => p.pts.map fun q => (q.x, q.y)
  | .circle c =>
    let r := sqrt (add (mul (sub c.center.x c.end_.x) (sub c.center.x c.end_.x))
      (mul (sub c.center.y c.end_.y) (sub c.center.y c.end_.y)))
    [(sub c.center.x r, sub c.center.y r), (c.center.x, c.center.y),
     (add c.center.x r, add c.center.y r)]
  | .pad p =>
    let q := quarter p.at_.rot
    let w := half (if q then p.size.y else p.size.x)
    let h := half (if q then p.size.x else p.size.y)
    [(sub p.at_.x w, sub p.at_.y h), (sub p.at_.x w, add p.at_.y h), (p.at_.x, p.at_.y),
     (add p.at_.x w, sub p.at_.y h), (add p.at_.x w, add p.at_.y h)]
  | _ => []
where
  /-- within a tenth of a degree of a quarter turn, either way -/
  quarter (rot : F) : Bool :=
    [lit 90 0, lit 270 0].any fun q =>
      lt (abs (sub rot q)) (lit 1 1) || lt (abs (add rot q)) (lit 1 1)

/-- Lines and arcs that go right and down (not left or up), pads with
nonnegative size. -/
def Oriented [Flt F] : Elem F → Prop
  | .line l => le l.start.x l.end_.x = true ∧ le l.start.y l.end_.y = true
  | .arc l => le l.start.x l.end_.x = true ∧ le l.start.y l.end_.y = true
  | .pad p => le zero p.size.x = true ∧ le zero p.size.y = true
  | _ => True

/-- The elements the footprint box is about: pads and fabrication graphics. -/
def Counts : Elem F → Prop
  | .pad _ => True
  | .poly p => p.layer.t = .fab
  | .line p => p.layer.t = .fab
  | .circle p => p.layer.t = .fab
  | .arc p => p.layer.t = .fab
  | _ => False

end Verif.Spec
