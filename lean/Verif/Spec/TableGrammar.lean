import Verif.Spec.FootprintGrammar
import Verif.Model.FpLibTable
/-!
# Specification: footprint library tables as trees
-/

namespace Verif.Spec
open Tbl

/-- `(lib (name …) (type …) (uri …) (options …) (descr …) …)`: the five parts have to be in
this order, anything may follow. -/
def LibTree (e : Sexp) (l : Tbl.Lib) : Prop :=
  ∃ p1 p2 p3 p4 p5 more, e = .list (.str (str! "lib") :: p1 :: p2 :: p3 :: p4 :: p5 :: more) ∧
    Named (str! "name") WordTree p1 l.name ∧ Named (str! "type") WordTree p2 l.type_ ∧
    Named (str! "uri") WordTree p3 l.uri ∧ Named (str! "options") WordTree p4 l.options ∧
    Named (str! "descr") WordTree p5 l.descr

/-- `(fp_lib_table lib …)`. -/
def TableTree (e : Sexp) (t : FpLibTable) : Prop :=
  ∃ libs, e = .list (.str (str! "fp_lib_table") :: libs) ∧ Many LibTree libs t.libs

/-- A text that stands for a table. -/
def TableText (s : Str) (t : FpLibTable) : Prop := ∃ e, TreeText s e ∧ TableTree e t

end Verif.Spec
