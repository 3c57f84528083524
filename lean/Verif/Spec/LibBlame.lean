import Verif.Spec.Blame
/-!
# What an error message says about a line of a symbol library
-/

namespace Verif.Spec
open Verif Lib

/-- `LibBlames F line message`: the message says something about the line of a library, and
it is true. -/
inductive LibBlames (F : Type) [Flt F] (line : Str) : Str → Prop
  /-- a message that the schematic reader has as well -/
  | common {m} : Blames F line m → LibBlames F line m
  /-- not the right number of words for a definition -/
  | definition {ws} : HasWords line ws → ws.length ≠ 10 → LibBlames F line (str! "unexpected elements in " ++ line)
  /-- not the right number of words for a field -/
  | field {ws} : line.head? = some 'F' → HasWords line ws → ws.length ≠ 9 → ws.length ≠ 10 →
      LibBlames F line (str! "unexpected elements in " ++ line)
  /-- not the right number of words for a pin -/
  | pin {ws} : str! "X " <+: line → HasWords line ws → ws.length ≠ 12 → ws.length ≠ 13 →
      LibBlames F line (str! "unexpected elements in " ++ line)
  /-- not the right number of words for a rectangle -/
  | rect {ws} : str! "S " <+: line → HasWords line ws → ws.length ≠ 9 →
      LibBlames F line (str! "unexpected elements in " ++ line)
  /-- the number after the first letter is not an integer -/
  | number {w} : WordOf line w → (∀ i, ¬ IntWord (w.drop 1) i) →
      LibBlames F line (str! "int parse error in " ++ w.drop 1 ++ str! "; line: " ++ line)
  /-- a field without a name -/
  | nameless {ws n i} : HasWords line ws → ws.length = 9 → ws[0]? = some n → IntWord (n.drop 1) i →
      (∀ s, (i, s) ∉ fixedNames) → LibBlames F line (str! "expecting name for componentfield > 3")
  /-- there is no such filling -/
  | fill {w} : WordOf line w → (∀ k, (w, k) ∉ fills) → LibBlames F line (str! "unknown fill type " ++ w)
  /-- there is no such side of a pin -/
  | pinSide {w} : WordOf line w → (∀ k, (w, k) ∉ pinSides) → LibBlames F line (str! "unknown pin orientation " ++ w)
  /-- there is no such type of pin -/
  | pinType {w} : WordOf line w → (∀ k, (w, k) ∉ pinTypes) → LibBlames F line (str! "unknown pin type " ++ w)
  /-- there is no such shape -/
  | pinShape {w l} : WordOf line w → (w = l ∨ w = 'N' :: l) → (∀ b k, ¬ ShapeWord w b k) →
      LibBlames F line (str! "unknown pinshape " ++ l)

end Verif.Spec
