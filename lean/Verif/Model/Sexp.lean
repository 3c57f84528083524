import Verif.Basic.Res
import Verif.Basic.Flt
/-!
# S-expressions

The crate `symbolic_expressions` is an external dependency that is not part of
/repo.  This file models the part of it the code uses, from its documented
behaviour; this is an assumption (see DESIGN.md).

Whether an atom is written with quotes is decided inside that crate; the model
takes this decision as a parameter `q : Str → Bool` so that no theorem depends
on the crate's exact choice.
-/

namespace Verif

/-- `symbolic_expressions::Sexp` (external crate, matched at src/formatter.rs 251-260). -/
inductive Sexp
  | list (l : List Sexp)
  | str (s : Str)
  | empty
  deriving Repr

/-- Tokens of the text form (external crate, called at src/footprint/mod.rs 58). -/
inductive Tok
  | op
  | cl
  | atom (s : Str)
  deriving DecidableEq, Repr

/-- White space between tokens (external crate, called at src/footprint/mod.rs 58). -/
def isSexpSpace (c : Char) : Bool := c == ' ' || c == '\t' || c == '\r' || c == '\n'

/-- Lexer mode (external crate, called at src/footprint/mod.rs 58): between tokens, inside a bare atom, inside a quoted atom, after a
backslash inside a quoted atom (with the characters read so far, reversed). -/
inductive LexMode
  | gap
  | bare (cur : Str)
  | quoted (cur : Str)
  | esc (cur : Str)

/-- Lexer of `symbolic_expressions::parser` (external crate, called at src/footprint/mod.rs 58): bare atoms end at
white space, parentheses and quotes; in a quoted atom a backslash before a quote
makes the quote part of the atom (tests/data/layout1.kicad_pcb line 1114 needs
this), any other backslash is an ordinary character; `none` is an unterminated
quote. -/
def lexAux : LexMode → Str → Option (List Tok)
  | .gap, [] => some []
  | .bare cur, [] => some [.atom cur.reverse]
  | .quoted _, [] => none
  | .esc _, [] => none
  | .gap, c :: cs =>
    if isSexpSpace c then lexAux .gap cs
    else if c = '(' then (lexAux .gap cs).map (.op :: ·)
    else if c = ')' then (lexAux .gap cs).map (.cl :: ·)
    else if c = '"' then lexAux (.quoted []) cs
    else lexAux (.bare [c]) cs
  | .bare cur, c :: cs =>
    if isSexpSpace c then (lexAux .gap cs).map (.atom cur.reverse :: ·)
    else if c = '(' then (lexAux .gap cs).map fun t => .atom cur.reverse :: .op :: t
    else if c = ')' then (lexAux .gap cs).map fun t => .atom cur.reverse :: .cl :: t
    else if c = '"' then (lexAux (.quoted []) cs).map (.atom cur.reverse :: ·)
    else lexAux (.bare (c :: cur)) cs
  | .quoted cur, c :: cs =>
    if c = '"' then (lexAux .gap cs).map (.atom cur.reverse :: ·)
    else if c = '\\' then lexAux (.esc cur) cs
    else lexAux (.quoted (c :: cur)) cs
  | .esc cur, c :: cs =>
    if c = '"' then lexAux (.quoted ('"' :: cur)) cs
    else lexAux (.quoted (c :: '\\' :: cur)) cs

/-- All tokens of a text (external crate, called at src/footprint/mod.rs 58). -/
def lex (s : Str) : Option (List Tok) := lexAux .gap s

/-- A complete expression must be the last thing in the text (external crate, called at src/footprint/mod.rs 58). -/
def finishParse (e : Sexp) : List Tok → Res Sexp
  | [] => .ok e
  | _ :: _ => .err .sexp

/-- Parser over tokens (external crate, called at src/footprint/mod.rs 58); the stack holds the open lists, each
reversed.  Assumption: text after the first expression is an error. -/
def parseToks : List (List Sexp) → List Tok → Res Sexp
  | [], [] => .ok .empty
  | [], .op :: r => parseToks [[]] r
  | [], .cl :: _ => .err .sexp
  | [], .atom a :: r => finishParse (.str a) r
  | _ :: _, [] => .err .sexp
  | l :: st, .op :: r => parseToks ([] :: l :: st) r
  | l :: st, .atom a :: r => parseToks ((.str a :: l) :: st) r
  | [l], .cl :: r => finishParse (.list l.reverse) r
  | l :: l' :: st, .cl :: r => parseToks ((.list l.reverse :: l') :: st) r

/-- `symbolic_expressions::parser::parse_str` (external crate, called at src/footprint/mod.rs 58 and src/layout/mod.rs 26). -/
def parseSexp (s : Str) : Res Sexp :=
  match lex s with
  | some ts => parseToks [] ts
  | none => .err .sexp

/-! ## Reading values out of trees (external crate: `Sexp`, `iteratom`) -/

namespace Sx
open Flt

/-- `Sexp::string` (external crate, called at src/footprint/de.rs 99 and src/layout/de.rs 149). -/
def string : Sexp → Res Str
  | .str s => .ok s
  | _ => .err .sexp

/-- `Sexp::i` (external crate, called at src/footprint/de.rs 127). -/
def int (e : Sexp) : Res Int :=
  match e with
  | .str s => match i64FromStr s with | some i => .ok i | none => .err .sexp
  | _ => .err .sexp

/-- `Sexp::f` (external crate, called at src/footprint/de.rs 115). -/
def flt {F : Type} [Flt F] (e : Sexp) : Res F :=
  match e with
  | .str s => match (ofStr s : Option F) with | some x => .ok x | none => .err .sexp
  | _ => .err .sexp

/-- `Sexp::list` (external crate, called at src/footprint/de.rs 111). -/
def list : Sexp → Res (List Sexp)
  | .list l => .ok l
  | _ => .err .sexp

/-- `Sexp::list_name` (external crate, called at src/footprint/de.rs 133): the atom at the head of a list.  Assumption: the empty
list is an error. -/
def listName : Sexp → Res Str
  | .list (.str n :: _) => .ok n
  | _ => .err .sexp

/-- `IterAtom::new` (external crate, called at src/footprint/de.rs 26): the elements after the head atom `name`. -/
def iter (name : Str) : Sexp → Res (List Sexp)
  | .list (.str n :: r) => if n = name then .ok r else .err .sexp
  | _ => .err .sexp

/-- `Sexp::named_value` (external crate, its form for words called at src/layout/de.rs 197): the value of a two-element list headed by `name`. -/
def namedValue (name : Str) : Sexp → Res Sexp
  | .list [.str n, v] => if n = name then .ok v else .err .sexp
  | _ => .err .sexp

/-- Consume one element with a reader (external crate, called at src/footprint/de.rs 27 and 56; `IterAtom::s`, `i`, `f`, `t` and their
`_in_list` forms). -/
def eat {α : Type} (dec : Sexp → Res α) : List Sexp → Res (α × List Sexp)
  | [] => .err .sexp
  | x :: r => do
    let a ← dec x
    .ok (a, r)

/-- Consume one element if the reader accepts it (`IterAtom::maybe_*`, external crate, called at src/footprint/de.rs 39 and 57). -/
def maybe {α : Type} (dec : Sexp → Res α) : List Sexp → Res (Option α × List Sexp)
  | [] => .ok (none, [])
  | x :: r =>
    match dec x with
    | .ok a => .ok (some a, r)
    | .err _ => .ok (none, x :: r)
    | .panic => .panic
    | .diverge => .diverge

/-- Reader for `name value` pairs (`*_in_list`, external crate, called at src/footprint/de.rs 84). -/
def inList {α : Type} (name : Str) (dec : Sexp → Res α) (e : Sexp) : Res α := do
  let v ← namedValue name e
  dec v

/-- Reader for a literal atom (`maybe_literal_s`, external crate, called at src/footprint/de.rs 87). -/
def literal (name : Str) : Sexp → Res Str
  | .str s => if s = name then .ok s else .err .sexp
  | _ => .err .sexp

/-- `IterAtom::vec` (external crate, called at src/footprint/de.rs 154): read all remaining elements. -/
def vec {α : Type} (dec : Sexp → Res α) : List Sexp → Res (List α)
  | [] => .ok []
  | x :: r => do
    let a ← dec x
    let l ← vec dec r
    .ok (a :: l)

/-- `IterAtom::close` (external crate, called at src/footprint/de.rs 29): no elements may remain. -/
def close {α : Type} (r : List Sexp) (a : α) : Res α :=
  match r with
  | [] => .ok a
  | _ :: _ => .err .sexp

/-! ## Building trees -/

/-- `Sexp::from(f64)` (external crate, by `push` at src/footprint/ser.rs 62). -/
def ofF {F : Type} [Flt F] (x : F) : Sexp := .str (toStr x)
/-- `Sexp::from(i64)` (external crate, by `push`, e.g. src/layout/ser.rs 187). -/
def ofI (i : Int) : Sexp := .str (showInt i)
/-- `Sexp::from((name, value))` (external crate, by `push` at src/footprint/ser.rs 50). -/
def pair (name : Str) (v : Sexp) : Sexp := .list [.str name, v]
/-- `Sexp::start(name)` followed by pushes (external crate, called at src/footprint/ser.rs 10-13). -/
def node (name : Str) (l : List Sexp) : Sexp := .list (.str name :: l)

end Sx

end Verif
