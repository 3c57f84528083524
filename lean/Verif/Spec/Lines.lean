import Verif.Basic.Flt
/-!
# Specification vocabulary for line-oriented files
-/

namespace Verif.Spec
open Verif

/-- A text after which a line can end: it does not end in a carriage return. -/
def EndsLine (s : Str) : Prop := s.getLast? ≠ some '\r'

instance (s : Str) : Decidable (EndsLine s) := inferInstanceAs (Decidable (_ ≠ _))

/-- A text that is read back when it is written as a line of its own: it has no line
break and does not end in a carriage return, which would be taken for a part of the
line end.  Carriage returns elsewhere are allowed. -/
def OneLine (s : Str) : Prop := '\n' ∉ s ∧ EndsLine s

instance (s : Str) : Decidable (OneLine s) := inferInstanceAs (Decidable (_ ∧ _))

/-- A text that can be written between double quotes: it has no line break and no
double quote.  Spaces, also leading and trailing ones, carriage returns and the empty
text are allowed. -/
def Quotable (s : Str) : Prop := '\n' ∉ s ∧ '"' ∉ s

instance (s : Str) : Decidable (Quotable s) := inferInstanceAs (Decidable (_ ∧ _))

/-- A text that can be written without quotes: not empty, without line breaks, spaces
and double quotes. -/
def Word (s : Str) : Prop := s ≠ [] ∧ Quotable s ∧ ' ' ∉ s

instance (s : Str) : Decidable (Word s) := inferInstanceAs (Decidable (_ ∧ _))

/-- A word that can be written without quotes at the end of a line. -/
def LastWord (s : Str) : Prop := Word s ∧ EndsLine s

instance (s : Str) : Decidable (LastWord s) := inferInstanceAs (Decidable (_ ∧ _))

/-- A text without any white space, not empty. -/
def Solid (s : Str) : Prop := s ≠ [] ∧ ∀ c ∈ s, isWs c = false

instance (s : Str) : Decidable (Solid s) := inferInstanceAs (Decidable (_ ∧ _))

end Verif.Spec
