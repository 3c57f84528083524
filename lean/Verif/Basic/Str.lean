/-!
# Strings

Rust strings are modelled as lists of Unicode scalar values.  This file models
the standard-library string functions the code uses (not part of /repo; their
documented behaviour is assumed).
-/

namespace Verif

/-- A Rust `String`/`&str`: its sequence of `char`s (e.g. src/schematic.rs 1130). -/
abbrev Str := List Char

open Lean in
/-- `str! "abc"` is the character list `['a', 'b', 'c']`. -/
macro "str!" s:str : term => do
  let cs := s.getString.toList
  let elems : Array (TSyntax `term) := (cs.map fun c => (⟨(Syntax.mkCharLit c).raw⟩ : TSyntax `term)).toArray
  `(([ $elems,* ] : List Char))

/-- `char::is_whitespace`: the Unicode White_Space property (by `split_whitespace`, src/schematic.rs 1260). -/
def isWs (c : Char) : Bool :=
  let n := c.toNat
  (9 ≤ n && n ≤ 13) || n == 32 || n == 0x85 || n == 0xA0 || n == 0x1680 ||
  (0x2000 ≤ n && n ≤ 0x200A) || n == 0x2028 || n == 0x2029 || n == 0x202F ||
  n == 0x205F || n == 0x3000

/-- Strip one trailing carriage return (`str::lines`, src/schematic.rs 1504, treats "\r\n" as a line end). -/
def stripCr : Str → Str
  | [] => []
  | ['\r'] => []
  | c :: cs => c :: stripCr cs

/-- `str::lines` (src/schematic.rs 1504): `cur` is the (reversed) line read so far. -/
def linesAux (cur : Str) : Str → List Str
  | [] => if cur.isEmpty then [] else [cur.reverse]
  | c :: cs => if c = '\n' then stripCr cur.reverse :: linesAux [] cs else linesAux (c :: cur) cs

/-- `str::lines` (src/schematic.rs 1504). -/
def lines (s : Str) : List Str := linesAux [] s

/-- Text made of the given lines, each terminated by a line feed
(src/schematic.rs 207-211; what a sequence of `writeln!` produces). -/
def unlines : List Str → Str
  | [] => []
  | l :: ls => l ++ '\n' :: unlines ls

/-- `str::split_whitespace` (src/schematic.rs 1260), accumulating the current token reversed. -/
def splitWsAux (cur : Str) : Str → List Str
  | [] => if cur.isEmpty then [] else [cur.reverse]
  | c :: cs =>
    if isWs c then
      (if cur.isEmpty then splitWsAux [] cs else cur.reverse :: splitWsAux [] cs)
    else splitWsAux (c :: cur) cs

/-- `str::split_whitespace().collect()` (src/schematic.rs 1260). -/
def splitWs (s : Str) : List Str := splitWsAux [] s

/-- `str::split_whitespace().next()` (src/schematic.rs 1286). -/
def firstWord (s : Str) : Option Str := (splitWs s).head?

/-- `str::split(pred)` (src/footprint/data.rs 935, src/layout/data.rs 906): always yields at least one piece. -/
def splitPred (p : Char → Bool) : Str → List Str
  | [] => [[]]
  | c :: cs =>
    if p c then [] :: splitPred p cs
    else match splitPred p cs with
      | [] => [[c]]
      | w :: ws => (c :: w) :: ws

/-- `str::starts_with` (src/project.rs 21). -/
def startsWith (s pre : Str) : Bool := pre.isPrefixOf s

/-- `str::contains` for a nonempty pattern (src/symbol_lib.rs 989). -/
def containsStr (s pat : Str) : Bool :=
  match s with
  | [] => pat.isEmpty
  | c :: cs => pat.isPrefixOf (c :: cs) || containsStr cs pat

/-- `str::replace` for a nonempty pattern (src/layout/data.rs 288): leftmost, non-overlapping.
`skip` counts the characters of a match still to be dropped. -/
def replaceAux (pat rep : Str) : Nat → Str → Str
  | _, [] => []
  | n + 1, _ :: cs => replaceAux pat rep n cs
  | 0, c :: cs =>
    if pat.isPrefixOf (c :: cs) then rep ++ replaceAux pat rep (pat.length - 1) cs
    else c :: replaceAux pat rep 0 cs

/-- `str::replace(pat, rep)` for a nonempty pattern (src/layout/data.rs 288). -/
def replaceStr (pat rep s : Str) : Str := replaceAux pat rep 0 s

/-- `format!("{:n}", s)` for a string (e.g. src/schematic.rs 598): left aligned, padded with spaces. -/
def padRight (n : Nat) (s : Str) : Str := s ++ List.replicate (n - s.length) ' '

/-- `s.chars().nth(n)` (src/schematic.rs 1129-1133) followed by indexing: `none` is the out-of-bounds case. -/
def charAt? (s : Str) (n : Nat) : Option Char := s[n]?

end Verif
