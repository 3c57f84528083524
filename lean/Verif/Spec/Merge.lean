import Verif.Basic.Str
/-!
# Merging two versions of a file with a common ancestor
-/

namespace Verif.Spec
open Verif

/-- `result` is what a merge without conflicts makes of `ours` and `theirs`, two versions of
`base`: what only one of them changed is taken from that one. -/
inductive Merged {α : Type} : (base ours theirs result : List α) → Prop
  | nil : Merged [] [] [] []
  /-- neither changed this -/
  | same (u) {b o t r} (h : Merged b o t r) : Merged (u ++ b) (u ++ o) (u ++ t) (u ++ r)
  /-- ours changed `u` to `v` -/
  | ours (u v) {b o t r} (h : Merged b o t r) : Merged (u ++ b) (v ++ o) (u ++ t) (v ++ r)
  /-- theirs changed `u` to `v` -/
  | theirs (u v) {b o t r} (h : Merged b o t r) : Merged (u ++ b) (u ++ o) (v ++ t) (v ++ r)

/-- The same for a single value. -/
def MergedValue {α : Type} (base ours theirs result : α) : Prop :=
  (ours = base ∧ result = theirs) ∨ (theirs = base ∧ result = ours)

end Verif.Spec
