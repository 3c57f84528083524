import Verif.Spec.Sexp
/-!
# Specification vocabulary: line ends
-/

namespace Verif.Spec
open Verif

/-- The text with the line ends of another system: a carriage return in front of every line
feed. -/
def crlf (t : Str) : Str := t.flatMap fun c => if c = '\n' then ['\r', '\n'] else [c]

/-- No line end of the text is of that kind already. -/
def PlainEnds (t : Str) : Prop := ∀ a b, t ≠ a ++ '\r' :: '\n' :: b

mutual
/-- A tree with all its atoms changed. -/
def mapAtoms (f : Str → Str) : Sexp → Sexp
  | .str s => .str (f s)
  | .empty => .empty
  | .list l => .list (mapAtomsL f l)
/-- A sequence of trees with all atoms changed. -/
def mapAtomsL (f : Str → Str) : List Sexp → List Sexp
  | [] => []
  | x :: xs => mapAtoms f x :: mapAtomsL f xs
end

mutual
/-- No atom of the tree contains a line feed. -/
def OneLineAtoms : Sexp → Prop
  | .str s => '\n' ∉ s
  | .empty => True
  | .list l => OneLineAtomsL l
/-- No atom of the trees contains a line feed. -/
def OneLineAtomsL : List Sexp → Prop
  | [] => True
  | x :: xs => OneLineAtoms x ∧ OneLineAtomsL xs
end

end Verif.Spec
