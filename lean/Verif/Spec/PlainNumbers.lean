import Verif.Spec.Numerals
import Mathlib.Data.Rat.Defs
import Mathlib.Algebra.Order.Ring.Rat
/-!
# Numbers written plainly

The form in which the editor writes numbers: no exponent, no superfluous zeros, and no more digits
than a number of 64 bits can tell apart.
-/

namespace Verif.Spec

/-- Whole digits `i` without a superfluous zero in front, and, behind a point, digits `f` without a
superfluous zero at the end; the value of all digits together is `d`, below `10^15`. -/
structure PlainDigits (i f : Str) (d : Nat) : Prop where
  digits : Decimal (i ++ f) d
  whole : i ≠ []
  front : i.head? = some '0' → i = str! "0"
  back : f.getLast? ≠ some '0'
  few : d < 10 ^ 15
  short : f.length ≤ 300

/-- The text of digits before and behind the point. -/
def withPoint (i f : Str) : Str := if f = [] then i else i ++ '.' :: f

/-- A number written plainly and its value. -/
inductive PlainNumber : Str → ℚ → Prop
  | pos {i f d} (h : PlainDigits i f d) : PlainNumber (withPoint i f) (d / 10 ^ f.length)
  | neg {i f d} (h : PlainDigits i f d) (h0 : d ≠ 0) : PlainNumber ('-' :: withPoint i f) (-(d / 10 ^ f.length))

end Verif.Spec
