import Verif.Spec.Footprint
import Verif.Basic.Nm
import Verif.Basic.Fl
import Verif.Lemmas.Rounding
/-!
# Vocabulary for mirrored and turned footprints

How a footprint and its box look in a mirror, and where the parts of a turned footprint are drawn.
-/

namespace Verif.Spec
open Flt Fp

variable {F : Type} [Flt F]

/-- Arithmetic does not prefer a sign.  This holds for exact numbers and for binary64 numbers, whose
rounding is symmetric. -/
class SymLaws (F : Type) [Flt F] : Prop where
  neg_neg : ∀ a : F, neg (neg a) = a
  neg_zero : neg (zero : F) = zero
  neg_le : ∀ a b : F, le (neg a) (neg b) = le b a
  add_neg : ∀ a b : F, add (neg a) (neg b) = neg (add a b)
  sub_neg : ∀ a b : F, sub (neg a) (neg b) = neg (sub a b)
  add_neg_left : ∀ a b : F, add (neg a) b = neg (sub a b)
  sub_neg_left : ∀ a b : F, sub (neg a) b = neg (add a b)
  mul_neg : ∀ a : F, mul (neg a) (neg a) = mul a a

instance : SymLaws Nm where
  neg_neg a := by simp [Flt.neg]
  neg_zero := by apply Nm.ext_n; simp [Flt.neg, Nm.zero_n]
  neg_le a b := by simp [Flt.neg, Flt.le]
  add_neg a b := by apply Nm.ext_n; simp only [Flt.neg, Flt.add]; omega
  sub_neg a b := by apply Nm.ext_n; simp only [Flt.neg, Flt.sub]; omega
  add_neg_left a b := by apply Nm.ext_n; simp only [Flt.neg, Flt.sub, Flt.add]; omega
  sub_neg_left a b := by apply Nm.ext_n; simp only [Flt.neg, Flt.sub, Flt.add]; omega
  mul_neg a := by apply Nm.ext_n; simp [Flt.neg, Flt.mul]

instance : SymLaws Fl where
  neg_neg a := by apply Fl.ext_val; rw [Fl.neg_val, Fl.neg_val, _root_.neg_neg]
  neg_zero := by apply Fl.ext_val; rw [Fl.neg_val, Fl.zero_val, _root_.neg_zero]
  neg_le a b := by simp only [Flt.le, Fl.neg_val, neg_le_neg_iff]
  add_neg a b := by
    apply Fl.ext_val
    rw [Fl.neg_val]
    show Fp64.round64 _ = - Fp64.round64 _
    rw [Fl.neg_val, Fl.neg_val, ← Fp64.round64_neg]
    congr 1; ring
  sub_neg a b := by
    apply Fl.ext_val
    rw [Fl.neg_val]
    show Fp64.round64 _ = - Fp64.round64 _
    rw [Fl.neg_val, Fl.neg_val, ← Fp64.round64_neg]
    congr 1; ring
  add_neg_left a b := by
    apply Fl.ext_val
    rw [Fl.neg_val]
    show Fp64.round64 _ = - Fp64.round64 _
    rw [Fl.neg_val, ← Fp64.round64_neg]
    congr 1; ring
  sub_neg_left a b := by
    apply Fl.ext_val
    rw [Fl.neg_val]
    show Fp64.round64 _ = - Fp64.round64 _
    rw [Fl.neg_val, ← Fp64.round64_neg]
    congr 1; ring
  mul_neg a := by
    apply Fl.ext_val
    show Fp64.round64 _ = Fp64.round64 _
    rw [Fl.neg_val]
    congr 1; ring

/-- A point in the mirror. -/
def mirrored (p : F × F) : F × F := (p.1, neg p.2)

/-- A box in the mirror. -/
def mirroredBox (b : Bound F) : Bound F := { b with y1 := neg b.y2, y2 := neg b.y1 }

/-- The mirror does not change whether an angle is a quarter turn. -/
def AngleKept (e : Elem F) : Prop :=
  ∀ p, e = .pad p → extent.quarter (sub (lit 360 0) p.at_.rot) = extent.quarter p.at_.rot

/-- The corner the code takes for the lower right one once the footprint is flipped is where a line
or an arc still starts; the shapes with a middle or with corners have them on all sides. -/
def lowerCorners : Elem F → List (F × F)
  | .line l => [(l.start.x, l.start.y)]
  | .arc l => [(l.start.x, l.start.y)]
  | .poly p => extent (.poly p)
  | .circle c => (extent (.circle c)).getLast?.toList
  | .pad p => (extent (.pad p)).getLast?.toList
  | _ => []

/-- Likewise for the upper left one: where a line or an arc still ends. -/
def upperCorners : Elem F → List (F × F)
  | .line l => [(l.end_.x, l.end_.y)]
  | .arc l => [(l.end_.x, l.end_.y)]
  | .poly p => extent (.poly p)
  | .circle c => (extent (.circle c)).head?.toList
  | .pad p => (extent (.pad p)).head?.toList
  | _ => []

/-- The two ends of a line or an arc, in the order of drawing. -/
def ends? : Elem F → Option ((F × F) × (F × F))
  | .line l => some ((l.start.x, l.start.y), (l.end_.x, l.end_.y))
  | .arc l => some ((l.start.x, l.start.y), (l.end_.x, l.end_.y))
  | _ => none

/-- The fabrication lines and arcs make closed outlines: as high as one ends another begins, and
the other way around. -/
def Outlines (m : Module F) : Prop :=
  (∀ e ∈ m.elements, Counts e → ∀ p q, ends? e = some (p, q) →
    ∃ e' ∈ m.elements, Counts e' ∧ ∃ p' q', ends? e' = some (p', q') ∧ p'.2 = q.2) ∧
  (∀ e ∈ m.elements, Counts e → ∀ p q, ends? e = some (p, q) →
    ∃ e' ∈ m.elements, Counts e' ∧ ∃ p' q', ends? e' = some (p', q') ∧ q'.2 = p.2)

/-- The footprint turned to another angle, its parts as they are. -/
def turnedTo (r : F) (m : Module F) : Module F :=
  { m with elements := m.elements.map fun e => match e with | .at_ a => .at_ { a with rot := r } | e => e }

/-- Where a point of a footprint is drawn that is placed with a quarter turn to the left (the y axis
points down). -/
def drawnQuarter (m : Module F) (p : F × F) : F × F := (add p.2 m.at_.1, add (neg p.1) m.at_.2)

/-- Where an arc by a quarter turn ends that is drawn around `start` from `end`. -/
def farEnd (a : FpArc F) : F × F :=
  (sub a.start.x (sub a.end_.y a.start.y), add a.start.y (sub a.end_.x a.start.x))

end Verif.Spec
