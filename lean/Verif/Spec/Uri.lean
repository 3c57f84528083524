import Verif.Model.Expand
/-!
# The parts of the address of a library

How an address with `$name`, `${name}` and `$$` is divided into parts, and what the parts
stand for.
-/

namespace Verif.Spec
open Verif

/-- A part of an address. -/
inductive UriPart
  /-- a character other than `$` -/
  | text (c : Char)
  /-- `${name}` -/
  | braced (name : Str)
  /-- `$name` -/
  | bare (name : Str)
  /-- `$$` -/
  | double
  /-- a `$` that begins none of the others -/
  | lone
  /-- `${` without a closing brace -/
  | opened
  deriving DecidableEq, Repr

/-- How an address is divided: a name without braces ends where the letters, digits and
underscores end, a name with braces at the first closing brace. -/
inductive Divides (word : Char → Bool) : List UriPart → Str → Prop
  | nil : Divides word [] []
  | text {c ps s} : c ≠ '$' → Divides word ps s → Divides word (.text c :: ps) (c :: s)
  | braced {name ps s} : '}' ∉ name → Divides word ps s →
      Divides word (.braced name :: ps) (str! "${" ++ name ++ str! "}" ++ s)
  | bare {name ps s} : name ≠ [] → (∀ c ∈ name, word c = true) → (∀ c, s.head? = some c → word c = false) →
      Divides word ps s → Divides word (.bare name :: ps) (str! "$" ++ name ++ s)
  | double {ps s} : Divides word ps s → Divides word (.double :: ps) (str! "$$" ++ s)
  | lone {ps s} : (∀ c, s.head? = some c → word c = false ∧ c ≠ '{' ∧ c ≠ '$') → Divides word ps s →
      Divides word (.lone :: ps) (str! "$" ++ s)
  | opened {ps s} : '}' ∉ s → Divides word ps s → Divides word (.opened :: ps) (str! "${" ++ s)

/-- The variable that a part names. -/
def UriPart.var : UriPart → Option Str
  | .braced n => some n
  | .bare n => some n
  | _ => none

/-- What a part stands for; nothing if its variable is not set. -/
def UriPart.value (var : Str → Option Str) : UriPart → Str
  | .text c => [c]
  | .braced n => (var n).getD []
  | .bare n => (var n).getD []
  | .double => str! "$"
  | .lone => str! "$"
  | .opened => str! "${"

/-- The variables named in an address that are not set. -/
def unset (var : Str → Option Str) (ps : List UriPart) : List Str :=
  (ps.filterMap UriPart.var).filter fun n => (var n).isNone

/-- Names are made of characters other than `$` and `{`. -/
def NameChars (word : Char → Bool) : Prop := word '$' = false ∧ word '{' = false

/-- A leading `~` stands for the home directory if nothing or a slash follows. -/
def atHome (home : Option Str) (s : Str) : Str :=
  match home with
  | none => s
  | some h =>
    if s = str! "~" then h
    else if (str! "~/").isPrefixOf s then h ++ s.drop 1
    else s

end Verif.Spec
