import Mathlib.Data.List.Forall2
import Verif.Basic.Str
/-!
# What a line-by-line comparison of two versions of a file shows
-/

namespace Verif.Spec
open Verif

/-- The lines of a text: what stands between the line breaks. -/
def fileLines : Str → List Str
  | [] => [[]]
  | c :: s =>
    if c = '\n' then [] :: fileLines s
    else match fileLines s with
      | [] => [[c]]
      | l :: ls => (c :: l) :: ls

/-- The two texts have as many lines; where they differ, the old line satisfies `P` and the new
line `Q`. -/
def DifferOnly (P Q : Str → Prop) (old new : Str) : Prop :=
  List.Forall₂ (fun a b => a = b ∨ (P a ∧ Q b)) (fileLines old) (fileLines new)

/-- The new text is the old one with whole lines put in at one place, after a line break. -/
def LinesAdded (added : List Str) (old new : Str) : Prop :=
  ∃ a b : Str, old = a ++ str! "\n" ++ b ∧
    new = a ++ str! "\n" ++ added.flatMap (· ++ str! "\n") ++ b ∧ ∀ l ∈ added, '\n' ∉ l

/-- The new text is the old one with one block of whole lines replaced by another. -/
def BlockReplaced (block block' : Str) (old new : Str) : Prop :=
  ∃ a b : Str, old = a ++ str! "\n" ++ block ++ b ∧ new = a ++ str! "\n" ++ block' ++ b

end Verif.Spec
