import Verif.Basic.Res
import Verif.Basic.Num
/-!
# The quote-aware splitter (src/lib.rs 26-80)
-/

namespace Verif

/-- Loop state of `parse_split_quote_aware_int` (src/lib.rs 27-32): the counter
`i`, the parts found (reversed), the two flags and the part being collected
(reversed). -/
structure SplitSt where
  i : Nat
  v : List Str
  inside : Bool
  seen : Bool
  cur : Str

/-- One iteration of the loop (src/lib.rs 33-63). -/
def splitStep (n : Option Nat) (st : SplitSt) (c : Char) : SplitSt :=
  if n = some st.i then { st with cur := c :: st.cur }
  else if !st.inside && c == '"' then { st with inside := true }
  else if st.inside && c == '"' then { st with inside := false, seen := true }
  else if !st.inside && c == ' ' then
    if !st.cur.isEmpty || st.seen then
      { st with i := st.i + 1, v := st.cur.reverse :: st.v, cur := [], seen := false }
    else { st with seen := false }
  else { st with cur := c :: st.cur }

/-- The parts after the loop (src/lib.rs 64-66). -/
def splitFinish (st : SplitSt) : List Str :=
  if !st.cur.isEmpty || st.seen then (st.cur.reverse :: st.v).reverse else st.v.reverse

/-- `parse_split_quote_aware_int` (src/lib.rs 26-73). -/
def splitInt (n : Option Nat) (s : Str) : Res (List Str) :=
  let v := splitFinish (s.foldl (splitStep n) ⟨0, [], false, false, []⟩)
  match n with
  | some k => if v.length < k then .err .other else .ok v
  | none => .ok v

/-- `parse_split_quote_aware_n` (src/lib.rs 75-77). -/
def splitN (n : Nat) (s : Str) : Res (List Str) := splitInt (some n) s

/-- `parse_split_quote_aware` (src/lib.rs 78-80). -/
def splitQ (s : Str) : Res (List Str) := splitInt none s

end Verif
