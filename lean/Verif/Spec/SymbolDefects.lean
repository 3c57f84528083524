import Verif.Basic.Num
import Verif.Model.Split
/-!
# Specification vocabulary: damage in a symbol library file
-/

namespace Verif.Spec
open Verif

/-- A symbol field line with all its parts, but with an empty orientation or
justification or less than three style letters. -/
def BadSymField (l : Str) : Prop :=
  (∃ r, l = 'F' :: r) ∧ ∃ v, splitQ l = .ok v ∧ (v.length = 9 ∨ v.length = 10) ∧
    (v[5]? = some [] ∨ v[7]? = some [] ∨ ∃ w, v[8]? = some w ∧ w.length < 3)

/-- The damage that makes the symbol library reader panic, in the lines of a file. -/
inductive LibDefect : List Str → Prop
  /-- an empty line -/
  | emptyLine {ls} (h : [] ∈ ls) : LibDefect ls
  /-- a bad field line -/
  | field {ls l} (hl : l ∈ ls) (h : BadSymField l) : LibDefect ls
  /-- the file ends after the comment before a symbol -/
  | cutComment {a x} : LibDefect (a ++ [x, str! "#"])
  /-- the file ends after the definition line of a symbol -/
  | cutDefinition {a l v} (h : splitQ l = .ok v) (hv : v[0]? = some (str! "DEF")) : LibDefect (a ++ [l])
  /-- the file ends after a field -/
  | cutField {a r} : LibDefect (a ++ ['F' :: r])
  /-- the file ends in or right after a list of footprint filters -/
  | cutFilters {a b} (h : str! "$ENDFPLIST" ∉ b.dropLast) : LibDefect (a ++ str! "$FPLIST" :: b)

end Verif.Spec
