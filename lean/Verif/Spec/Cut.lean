import Verif.Basic.Str
/-!
# Cutting a line into words
-/

namespace Verif

namespace Spec

/-- A word is made of single characters and quoted pieces. -/
inductive Piece
  | bare (c : Char)
  | quoted (q : Str)

/-- How a piece looks in the line. -/
def Piece.raw : Piece → Str
  | .bare c => [c]
  | .quoted q => '"' :: q ++ ['"']

/-- What it stands for. -/
def Piece.value : Piece → Str
  | .bare c => [c]
  | .quoted q => q

def Piece.Good : Piece → Prop
  | .bare c => c ≠ ' ' ∧ c ≠ '"'
  | .quoted q => '"' ∉ q

/-- `Cut n s ws`: the line `s` is cut into the words `ws`, at most `n` of them and the
untouched rest of the line (`none`: no limit). -/
inductive Cut : Option Nat → Str → List Str → Prop
  /-- nothing left -/
  | nothing {n} : Cut n [] []
  /-- the limit is reached: the rest is the last word -/
  | rest {c r} : Cut (some 0) (c :: r) [c :: r]
  /-- spaces between words are skipped -/
  | space {n s ws} : n ≠ some 0 → Cut n s ws → Cut n (' ' :: s) ws
  /-- the last word -/
  | last {n p ps} : n ≠ some 0 → (∀ q ∈ p :: ps, Piece.Good q) →
      Cut n ((p :: ps).flatMap Piece.raw) [(p :: ps).flatMap Piece.value]
  /-- a word and what follows its space -/
  | word {n p ps s ws} : n ≠ some 0 → (∀ q ∈ p :: ps, Piece.Good q) → Cut (n.map (· - 1)) s ws →
      Cut n ((p :: ps).flatMap Piece.raw ++ ' ' :: s) ((p :: ps).flatMap Piece.value :: ws)
  /-- a quotation mark that is never closed belongs to the last word ... -/
  | open_ {n ps q} : n ≠ some 0 → (∀ q ∈ ps, Piece.Good q) → '"' ∉ q → ps ≠ [] ∨ q ≠ [] →
      Cut n (ps.flatMap Piece.raw ++ '"' :: q) [ps.flatMap Piece.value ++ q]
  /-- ... unless there is nothing in it. -/
  | mark {n} : n ≠ some 0 → Cut n ['"'] []

end Spec
end Verif
