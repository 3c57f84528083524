import Verif.Spec.Sexp
import Verif.Spec.Numerals
/-!
# The language of trees

Which texts stand for which trees, and words for describing trees.
-/

namespace Verif.Spec
open Verif

/-! ## Texts -/

/-- `Quoted w s`: between quotes, `w` stands for the word `s`.  A backslash makes a
quote behind it part of the word; any other character behind a backslash stays, and so
does the backslash. -/
inductive Quoted : Str → Str → Prop
  | nil : Quoted [] []
  | plain {c w s} (h1 : c ≠ '"') (h2 : c ≠ '\\') (h : Quoted w s) : Quoted (c :: w) (c :: s)
  | quote {w s} (h : Quoted w s) : Quoted ('\\' :: '"' :: w) ('"' :: s)
  | slash {c w s} (h1 : c ≠ '"') (h : Quoted w s) : Quoted ('\\' :: c :: w) ('\\' :: c :: s)

/-- A word without quotes ends at the end of the text, at white space, a parenthesis or
a quote. -/
def WordEnds (t : Str) : Prop :=
  ∀ c r, t = c :: r → isSexpSpace c = true ∨ c = '(' ∨ c = ')' ∨ c = '"'

/-- `TreesText t es`: the text `t` stands for the trees `es`. -/
inductive TreesText : Str → List Sexp → Prop
  | nil : TreesText [] []
  | space {c t es} (hc : isSexpSpace c = true) (h : TreesText t es) : TreesText (c :: t) es
  | bare {w t es} (hw : BareSafe w) (he : WordEnds t) (h : TreesText t es) : TreesText (w ++ t) (.str w :: es)
  | quoted {w s t es} (hw : Quoted w s) (h : TreesText t es) :
      TreesText ('"' :: (w ++ '"' :: t)) (.str s :: es)
  | list {body l t es} (hl : TreesText body l) (h : TreesText t es) :
      TreesText ('(' :: (body ++ ')' :: t)) (.list l :: es)

/-- A text with exactly one tree in it, or with nothing. -/
def TreeText (t : Str) (e : Sexp) : Prop := TreesText t [e] ∨ TreesText t [] ∧ e = .empty

/-! ## Trees -/

/-- A number. -/
def NumTree {F : Type} [Flt F] (e : Sexp) (x : F) : Prop := ∃ w, e = .str w ∧ FloatWord w x

/-- An integer. -/
def IntTree (e : Sexp) (i : Int) : Prop := ∃ w, e = .str w ∧ IntWord w i

/-- A word. -/
def WordTree (e : Sexp) (s : Str) : Prop := e = .str s

/-- `(name value)` -/
def Named {α : Type} (name : Str) (P : Sexp → α → Prop) (e : Sexp) (a : α) : Prop :=
  ∃ v, e = .list [.str name, v] ∧ P v a

/-- Nothing or one tree. -/
def Opt {α : Type} (P : Sexp → α → Prop) (l : List Sexp) (o : Option α) : Prop :=
  l = [] ∧ o = none ∨ ∃ x a, l = [x] ∧ P x a ∧ o = some a

/-- Any number of trees. -/
inductive Many {α : Type} (P : Sexp → α → Prop) : List Sexp → List α → Prop
  | nil : Many P [] []
  | cons {x l a as} (hx : P x a) (h : Many P l as) : Many P (x :: l) (a :: as)

/-- The digits of a hexadecimal number. -/
def HexDigit (c : Char) (d : Nat) : Prop :=
  (str! "0123456789ABCDEF")[d]? = some c ∨ (str! "0123456789abcdef")[d]? = some c

/-- Hexadecimal digits and their value. -/
inductive Hexadecimal : Str → Nat → Prop
  | one {c d} (h : HexDigit c d) : Hexadecimal [c] d
  | more {w n c d} (hw : Hexadecimal w n) (h : HexDigit c d) : Hexadecimal (w ++ [c]) (16 * n + d)

/-- A hexadecimal number of 64 bits with at most one sign. -/
def HexWord (w : Str) (i : Int) : Prop :=
  -9223372036854775808 ≤ i ∧ i ≤ 9223372036854775807 ∧
  ∃ (v : Str) (n : Nat), Hexadecimal v n ∧ (w = v ∧ i = n ∨ w = '+' :: v ∧ i = n ∨ w = '-' :: v ∧ i = -n)

end Verif.Spec
