import Verif.Model.FpLibTable
import Verif.Model.FilesMsg
/-!
# Expanding the address of a library (src/fp_lib_table.rs 35-41)

`Lib::get_expanded_uri` calls `shellexpand::full`, which is not part of /repo.  It is modelled
from its documented behaviour: `$name` and `${name}` are replaced by environment variables, `$$`
by `$`, and a leading `~` by the home directory.  This is a recorded assumption, like the model of
symbolic_expressions.  Which characters count as letters or digits (`char::is_alphanumeric`) is a
parameter, and so is the text of the error for a variable that is not set.  That the crate may panic on a name whose first letter is not ASCII is not modelled.
-/

namespace Verif.Tbl
open Verif

/-- What the expansion (src/fp_lib_table.rs 35-41) needs from outside: the environment variables (those whose value is text),
the home directory, which characters belong to names, and what is said about a variable that is
not set. -/
structure Shell where
  var : Str → Option Str
  home : Option Str
  word : Char → Bool
  told : Str → Str

/-- The text before and after the first `}` (external crate, used at src/fp_lib_table.rs 38). -/
def cutBrace : Str → Option (Str × Str)
  | [] => none
  | c :: s => if c = '}' then some ([], s) else (cutBrace s).map fun p => (c :: p.1, p.2)

/-- `shellexpand::env_with_context` as called by `full` (external crate, used at
src/fp_lib_table.rs 38): the result, or the name of the variable that is not set.  The number
bounds the recursion; each round uses up a character. -/
def expandGo (sh : Shell) : Nat → Str → Except Str Str
  | 0, _ => .ok []
  | _ + 1, [] => .ok []
  | n + 1, c :: s =>
    if c ≠ '$' then (expandGo sh n s).map (c :: ·)
    else match s with
      | [] => .ok ['$']
      | d :: r =>
        if d = '{' then
          match cutBrace r with
          | some (name, after) =>
            match sh.var name with
            | some v => (expandGo sh n after).map (v ++ ·)
            | none => .error name
          | none => (expandGo sh n r).map ('$' :: '{' :: ·)
        else if sh.word d then
          let name := d :: r.takeWhile sh.word
          match sh.var name with
          | some v => (expandGo sh n (r.dropWhile sh.word)).map (v ++ ·)
          | none => .error name
        else if d = '$' then (expandGo sh n r).map ('$' :: ·)
        else (expandGo sh n (d :: r)).map ('$' :: ·)

/-- `shellexpand::env_with_context` (external crate, used at src/fp_lib_table.rs 38). -/
def expandEnv (sh : Shell) (s : Str) : Except Str Str := expandGo sh s.length s

/-- `shellexpand::tilde_with_context` (external crate, used at src/fp_lib_table.rs 38). -/
def expandTilde (sh : Shell) : Str → Str
  | '~' :: r =>
    match r, sh.home with
    | [], some h => h
    | '/' :: _, some h => h ++ r
    | _, _ => '~' :: r
  | s => s

/-- `shellexpand::full_with_context` (external crate, used at src/fp_lib_table.rs 38): a tilde that
comes from a variable is left alone. -/
def expandFull (sh : Shell) (s : Str) : Except Str Str :=
  (expandEnv sh s).map fun t =>
    if s.head? ≠ some '~' ∧ t.head? = some '~' then t else expandTilde sh t

/-- `Lib::get_expanded_uri` (src/fp_lib_table.rs 37-40), with `From<LookupError>`
(src/error.rs 33-37). -/
def Lib.getExpandedUri (sh : Shell) (l : Lib) : Tried Str :=
  match expandFull sh l.uri with
  | .ok s => .ok s
  | .error n => .err ⟨.shellExpand, sh.told n⟩

end Verif.Tbl
