import Verif.Model.Sexp
/-!
# The KiCad formatter (src/formatter.rs)
-/

namespace Verif.Fm
open Verif

/-- `Indent` (src/formatter.rs 10-14). -/
structure Indent where
  newlineBefore : Nat
  closingOnNewLine : Bool
  newlineAfter : Nat
  deriving DecidableEq, Repr

/-- `Indent::default` (src/formatter.rs 16-24). -/
def Indent.dflt : Indent := ⟨0, false, 0⟩

/-- `indent` after `before()` (src/formatter.rs 28-30). -/
def Indent.before (i : Indent) : Indent := { i with newlineBefore := 1 }
/-- `close_on_new_line` (src/formatter.rs 32-34). -/
def Indent.closeOnNewLine (i : Indent) : Indent := { i with closingOnNewLine := true }
/-- `before_double` (src/formatter.rs 36-38). -/
def Indent.beforeDouble (i : Indent) : Indent := { i with newlineBefore := 2 }
/-- `newline_after_closing` (src/formatter.rs 40-42). -/
def Indent.newlineAfterClosing (i : Indent) : Indent := { i with newlineAfter := 1 }

/-- `KicadFormatter` (src/formatter.rs 46-53).  The top of the stack is the head
of the list; the constant `ind` is inlined. -/
structure St where
  indent : Int
  stack : List (Option (Str × Option Indent))
  ptsXyCount : Nat
  seenModule : Bool
  seenSegment : Bool
  deriving DecidableEq, Repr

/-- `KicadFormatter::new` (src/formatter.rs 56-65). -/
def St.new (level : Int) : St := ⟨level, [], 0, false, false⟩

/-- `is` (src/formatter.rs 67-76). -/
def St.is (st : St) (what : Str) : Bool :=
  st.stack.any fun x => match x with | some (name, _) => decide (name = what) | none => false

/-- `parent_is` (src/formatter.rs 78-85). -/
def St.parentIs (st : St) (what : Str) : Bool :=
  match st.stack with
  | some (t, _) :: _ => decide (t = what)
  | _ => false

/-- `indent` (src/formatter.rs 87-95): what is written; `indent_plus` (97-102) is the same one
level deeper. -/
def indentText (level : Int) (nls : Nat) : Str :=
  List.replicate nls '\n' ++ List.replicate (2 * level.toNat) ' '

/-- `want_indent_fp_lib_table` (src/formatter.rs 104-113). -/
def wantFpLibTable (st : St) : Option Indent :=
  if !st.is (str! "fp_lib_table") then none
  else if st.parentIs (str! "fp_lib_table") then some Indent.dflt.before
  else some Indent.dflt

/-- `want_indent_module` (src/formatter.rs 115-168). -/
def wantModule (st : St) (ele : Str) : Option Indent :=
  let indent := Indent.dflt.before
  if st.parentIs (str! "module") && ele ∈ [str! "at", str! "descr", str! "fp_line", str! "fp_poly",
      str! "pad", str! "path", str! "fp_circle", str! "attr"] then some indent
  else if st.parentIs (str! "module") && ele ∈ [str! "model", str! "fp_text", str! "gr_text"] then
    some indent.closeOnNewLine
  else if st.parentIs (str! "dimension") && ele = str! "gr_text" then some indent.closeOnNewLine
  else if (st.parentIs (str! "fp_text") || st.parentIs (str! "gr_text")) && ele = str! "effects" then
    some indent
  else if st.parentIs (str! "pts") && ele = str! "xy" &&
      (let wrap := if st.is (str! "fp_poly") then 4 else 5
       (decide (st.ptsXyCount > 0) && st.ptsXyCount % wrap == 0) ||
       (st.ptsXyCount == 0 && (st.is (str! "polygon") || st.is (str! "filled_polygon")))) then
    some indent
  else if st.parentIs (str! "model") && ele ∈ [str! "at", str! "scale", str! "rotate"] then some indent
  else if st.parentIs (str! "pad") && ele = str! "net" then some indent
  else none

/-- `want_indent_layout` (src/formatter.rs 170-248). -/
def wantLayout (st : St) (ele : Str) : Option Indent :=
  let indent := Indent.dflt.before
  if !st.is (str! "kicad_pcb") then none
  else if st.parentIs (str! "kicad_pcb") && ele = str! "page" then some indent.beforeDouble
  else if st.parentIs (str! "kicad_pcb") && ele ∈ [str! "net", str! "gr_circle", str! "gr_line",
      str! "gr_arc", str! "segment", str! "via"] then some indent
  else if st.parentIs (str! "kicad_pcb") && ele ∈ [str! "layers", str! "gr_text", str! "dimension",
      str! "zone"] then some indent.closeOnNewLine
  else if st.parentIs (str! "kicad_pcb") && ele = str! "setup" then
    some indent.beforeDouble.closeOnNewLine.newlineAfterClosing
  else if st.parentIs (str! "kicad_pcb") && ele ∈ [str! "general", str! "net_class", str! "module"] then
    some indent.beforeDouble.closeOnNewLine
  else if st.parentIs (str! "general") then some indent
  else if st.parentIs (str! "layers") then some indent
  else if st.parentIs (str! "setup") then some indent
  else if st.parentIs (str! "pcbplotparams") then some indent
  else if st.parentIs (str! "net_class") then some indent
  else if st.parentIs (str! "dimension") && ele ∈ [str! "gr_text", str! "feature1", str! "feature2",
      str! "crossbar", str! "arrow1a", str! "arrow1b", str! "arrow2a", str! "arrow2b"] then some indent
  else if st.parentIs (str! "zone") && ele ∈ [str! "connect_pads", str! "min_thickness", str! "fill",
      str! "keepout", str! "priority"] then some indent
  else if st.parentIs (str! "zone") && ele ∈ [str! "polygon", str! "filled_polygon"] then
    some indent.closeOnNewLine
  else if st.parentIs (str! "polygon") || st.parentIs (str! "filled_polygon") then
    some indent.closeOnNewLine
  else none

/-- `want_indent` on a head atom (src/formatter.rs 261-275). -/
def wantAtom (st : St) (ele : Str) : Option Indent :=
  match wantModule st ele with
  | some i => some i
  | none =>
    match wantLayout st ele with
    | some i => some i
    | none => wantFpLibTable st

/-- `want_indent` (src/formatter.rs 250-276). -/
def wantIndent (st : St) (value : Sexp) : Option Indent :=
  match value with
  | .list (.str ele :: _) => wantAtom st ele
  | .list _ => none
  | .empty => none
  | .str ele => wantAtom st ele

/-- The head atom of a list, or the empty string (src/formatter.rs 284-290). -/
def headAtom (value : Option Sexp) : Str :=
  match value with
  | some (.str s) => s
  | _ => []

/-- `Formatter::open` (src/formatter.rs 280-337): text written and new state. -/
def openList (st : St) (value : Option Sexp) : Str × St :=
  let ele := headAtom value
  let (w1, st) :=
    if ele = str! "module" then (([] : Str), { st with seenModule := true })
    else if st.parentIs (str! "kicad_pcb") && st.seenModule then
      (indentText st.indent 1, { st with seenModule := false })
    else ([], st)
  let (w2, st) :=
    if !st.seenSegment && ele = str! "segment" then
      (indentText st.indent 1, { st with seenSegment := true })
    else (([] : Str), st)
  let want := wantIndent st (.str ele)
  let (w3, st) :=
    match want with
    | some wi =>
      let st := { st with indent := st.indent + 1 }
      (if wi.newlineBefore > 0 then indentText st.indent wi.newlineBefore else [], st)
    | none => (([] : Str), st)
  let st := if ele = str! "pts" then { st with ptsXyCount := 0 } else st
  let st := if st.parentIs (str! "pts") && ele = str! "xy" then
      { st with ptsXyCount := st.ptsXyCount + 1 } else st
  let st := if !ele.isEmpty then { st with stack := some (ele, want) :: st.stack }
    else { st with stack := none :: st.stack }
  (w1 ++ w2 ++ w3 ++ str! "(", st)

/-- `Formatter::element` (src/formatter.rs 339-350): text written. -/
def element (st : St) (value : Sexp) : Str :=
  match wantIndent st value with
  | none => str! " "
  | some _ => match value with | .str _ => str! " " | _ => []

/-- `Formatter::close` (src/formatter.rs 352-380): text written and new state. -/
def closeList (st : St) : Str × St :=
  match st.stack with
  | some (s, want) :: rest =>
    let st := { st with stack := rest }
    match want with
    | some indent =>
      let st := { st with indent := st.indent - 1 }
      ((if indent.closingOnNewLine then indentText (st.indent + 1) 1 else []) ++
       (if s = str! "module" ∧ rest.isEmpty then str! "\n" else []) ++
       str! ")" ++ List.replicate indent.newlineAfter '\n', st)
    | none =>
      ((if rest.isEmpty && (s = str! "module" || s = str! "kicad_pcb" || s = str! "fp_lib_table") then
          str! "\n" else []) ++ str! ")", st)
  | _ :: rest => (str! ")", { st with stack := rest })
  | [] => (str! ")", st)

/-- A backslash is put before every quote (external crate, called at src/footprint/mod.rs 21). -/
def escapeQuotes (s : Str) : Str := s.flatMap fun c => if c = '"' then ['\\', '"'] else [c]

/-- An atom in text form; `q` decides whether it is quoted (external crate, called at src/footprint/mod.rs 21). -/
def atomText (q : Str → Bool) (s : Str) : Str :=
  if q s then '"' :: (escapeQuotes s ++ ['"']) else s

mutual
/-- The serializer of the external crate driving the formatter (src/footprint/mod.rs 21, src/layout/mod.rs 19): `open` with the
first element, the elements with `element` before every one but the first, then
`close`. -/
def ser (q : Str → Bool) (st : St) : Sexp → Str × St
  | .str s => (atomText q s, st)
  | .empty => ([], st)
  | .list [] =>
    let (w1, st) := openList st none
    let (w2, st) := closeList st
    (w1 ++ w2, st)
  | .list (x :: xs) =>
    let (w1, st) := openList st (some x)
    let (w2, st) := ser q st x
    let (w3, st) := serRest q st xs
    let (w4, st) := closeList st
    (w1 ++ w2 ++ w3 ++ w4, st)
/-- The elements after the first one (src/footprint/mod.rs 21). -/
def serRest (q : Str → Bool) (st : St) : List Sexp → Str × St
  | [] => ([], st)
  | x :: xs =>
    let w1 := element st x
    let (w2, st) := ser q st x
    let (w3, st) := serRest q st xs
    (w1 ++ w2 ++ w3, st)
end

/-- `to_string_with_formatter` (external crate) with a fresh `KicadFormatter` (src/footprint/mod.rs 19-23). -/
def toText (q : Str → Bool) (level : Int) (e : Sexp) : Str := (ser q (St.new level) e).1

/-- The quoting rule of the external crate (called at src/footprint/mod.rs 21) assumed for the executable model: atoms that are empty or
contain white space, parentheses or quotes are quoted. -/
def stdQuote (s : Str) : Bool :=
  s.isEmpty || s.any fun c => isSexpSpace c || c == '(' || c == ')' || c == '"'

end Verif.Fm
