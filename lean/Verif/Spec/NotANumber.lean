import Verif.Basic.F64
import Verif.Model.Footprint.Data
import Verif.Spec.Footprint
/-!
# NaN and infinities: vocabulary
-/

namespace Verif.Spec
open Verif.Fp

/-- A text spelled with any mixture of capital and small letters; the word is given
as pairs of letters. -/
def Spelled (t : Str) (word : List (Char × Char)) : Prop :=
  List.Forall₂ (fun c p => c = p.1 ∨ c = p.2) t word

/-- `nan`. -/
def nanWord : List (Char × Char) := [('n', 'N'), ('a', 'A'), ('n', 'N')]

/-- `inf`. -/
def infWord : List (Char × Char) := [('i', 'I'), ('n', 'N'), ('f', 'F')]

/-- `infinity`. -/
def infinityWord : List (Char × Char) :=
  infWord ++ [('i', 'I'), ('n', 'N'), ('i', 'I'), ('t', 'T'), ('y', 'Y')]

/-- A text with an optional sign in front; `true` for the minus sign. -/
def Signed (s t : Str) (minus : Bool) : Prop :=
  s = '-' :: t ∧ minus = true ∨ s = '+' :: t ∧ minus = false ∨
    s = t ∧ minus = false ∧ s.head? ≠ some '-' ∧ s.head? ≠ some '+'

section
variable {F : Type}

/-- The numbers of a place, of a point. -/
def atNumbers (a : At F) : List F := [a.x, a.y, a.rot]

/-- The coordinates of a point. -/
def xyNumbers (a : Xy F) : List F := [a.x, a.y]

/-- The numbers of an element that `==` looks at: all of them, except those of the
reference and value texts. -/
def compared : Elem F → List F
  | .solderMaskMargin x => [x]
  | .clearance x => [x]
  | .text t => if isDesignator t then [] else
      atNumbers t.at_ ++ xyNumbers t.effects.font.size ++ [t.effects.font.thickness]
  | .pad p => atNumbers p.at_ ++ xyNumbers p.size ++ p.rectDelta.toList.flatMap xyNumbers ++
      p.drill.toList.flatMap (fun d => [d.width, d.height, d.offsetX, d.offsetY]) ++
      p.solderPasteMargin.toList ++ p.solderMaskMargin.toList ++ p.clearance.toList ++ p.thermalGap.toList
  | .poly p => p.pts.flatMap xyNumbers ++ [p.width]
  | .line p => xyNumbers p.start ++ xyNumbers p.end_ ++ [p.width]
  | .circle p => xyNumbers p.center ++ xyNumbers p.end_ ++ [p.width]
  | .arc p => xyNumbers p.start ++ xyNumbers p.end_ ++ [p.angle, p.width]
  | .at_ a => atNumbers a
  | .model m => [m.at_.x, m.at_.y, m.at_.z, m.scale.x, m.scale.y, m.scale.z, m.rotate.x, m.rotate.y, m.rotate.z]
  | _ => []

/-- The same footprint with another font size and thickness in all its texts. -/
def withFonts (size thickness : F) (m : Module F) : Module F :=
  { m with elements := m.elements.map fun e => match e with
      | .text t => .text { t with effects := { t.effects with font := { t.effects.font with
          size := { t.effects.font.size with x := size, y := size }
          thickness := thickness } } }
      | e => e }

end

end Verif.Spec
