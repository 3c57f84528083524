import Verif.Basic.Res
import Verif.Basic.Num
/-!
# Ordering of reference designators (src/lib.rs 347-367)
-/

namespace Verif

/-- The digits collected by the loop of `reference_ord` (src/lib.rs 351-361). -/
def refDigits : Str → Str
  | [] => []
  | c :: cs =>
    let rest := if c = ',' then [] else refDigits cs
    if '0' ≤ c ∧ c ≤ '9' then c :: rest else rest

/-- `reference_ord` (src/lib.rs 349-367); `unwrap` on the empty string panics. -/
def referenceOrd (r : Str) : Res (Char × Int) :=
  match r with
  | [] => .panic
  | c :: _ => .ok (c, match i64FromStr (refDigits r) with | some n => n | none => 0)

end Verif
