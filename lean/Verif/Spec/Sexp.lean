import Verif.Model.Sexp
/-!
# What the text of an s-expression must contain

Independent of the formatter: the pieces of text a tree consists of, in order,
and what it means for a text to consist of given pieces with only white space
between them.
-/

namespace Verif.Spec
open Verif

/-- Only white space. -/
def Blank (w : Str) : Prop := ∀ c ∈ w, isSexpSpace c = true

/-- `Spaced ps t`: the text `t` is the pieces `ps` one after the other, with
white space (possibly none) before, between and after them. -/
inductive Spaced : List Str → Str → Prop
  | nil {w : Str} : Blank w → Spaced [] w
  | cons {w p t : Str} {ps : List Str} : Blank w → Spaced ps t → Spaced (p :: ps) (w ++ p ++ t)

mutual
/-- The pieces of a tree, given how an atom is spelled. -/
def pieces (spell : Str → Str) : Sexp → List Str
  | .str s => [spell s]
  | .empty => []
  | .list l => ['('] :: (piecesL spell l ++ [[')']])
/-- The pieces of a sequence of trees. -/
def piecesL (spell : Str → Str) : List Sexp → List Str
  | [] => []
  | x :: xs => pieces spell x ++ piecesL spell xs
end

/-- An atom that can be written without quotes: not empty, no white space,
parentheses or quotes. -/
def BareSafe (s : Str) : Prop :=
  s ≠ [] ∧ ∀ c ∈ s, isSexpSpace c = false ∧ c ≠ '(' ∧ c ≠ ')' ∧ c ≠ '"'

instance (s : Str) : Decidable (BareSafe s) := inferInstanceAs (Decidable (_ ∧ _))

/-- The backslashes in front of a double quote, and those at the end, come in pairs.  `odd`
says whether an unpaired backslash stands in front of the text. -/
def pairedAfter (odd : Bool) : Str → Bool
  | [] => !odd
  | c :: s =>
    if c = '\\' then pairedAfter (!odd) s
    else if c = '"' then !odd && pairedAfter false s
    else pairedAfter false s

/-- A text that survives being written in quotes: the backslashes in front of a double quote,
and those at its end, come in pairs.  (In particular every text without backslashes.) -/
def Clean (s : Str) : Prop := pairedAfter false s = true

instance (s : Str) : Decidable (Clean s) := inferInstanceAs (Decidable (_ = _))

/-- An atom that survives being written: in quotes if its backslashes come in pairs, without
quotes if it needs none. -/
def OkAtom (q : Str → Bool) (s : Str) : Prop :=
  if q s then Clean s else BareSafe s

instance (q : Str → Bool) (s : Str) : Decidable (OkAtom q s) := by
  unfold OkAtom; infer_instance

/-- A quoting policy that puts quotes around everything that needs them (it may
quote more). -/
def QuotesWhenNeeded (q : Str → Bool) : Prop := ∀ s, q s = false → BareSafe s

mutual
/-- A tree all of whose atoms can be written. -/
def OkTree (q : Str → Bool) : Sexp → Prop
  | .str s => OkAtom q s
  | .empty => False
  | .list l => OkTrees q l
/-- A sequence of such trees. -/
def OkTrees (q : Str → Bool) : List Sexp → Prop
  | [] => True
  | x :: xs => OkTree q x ∧ OkTrees q xs
end

mutual
/-- Every list starts with a nonempty atom. -/
def Headed : Sexp → Prop
  | .str _ => True
  | .empty => True
  | .list [] => False
  | .list (x :: xs) => (∃ s, x = .str s ∧ s ≠ []) ∧ HeadedL xs
/-- Every list of the sequence starts with a nonempty atom. -/
def HeadedL : List Sexp → Prop
  | [] => True
  | x :: xs => Headed x ∧ HeadedL xs
end

mutual
/-- Parentheses are balanced: number of opening minus closing pieces never goes
negative and ends at zero; here as the number of list nodes of a tree. -/
def nodes : Sexp → Nat
  | .str _ => 0
  | .empty => 0
  | .list l => nodesL l + 1
/-- List nodes of a sequence. -/
def nodesL : List Sexp → Nat
  | [] => 0
  | x :: xs => nodes x + nodesL xs
end

end Verif.Spec
