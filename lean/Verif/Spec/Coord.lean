import Verif.Basic.Nm
import Verif.Basic.F64
/-!
# Whole numbers of nanometres

The editor computes in whole nanometres and writes millimetres.  The same number as an exact number
and as an `f64`.
-/

namespace Verif

/-- A whole number of nanometres below a thousand kilometres. -/
def Coord : Type := { n : Int // -1000000000000000 < n ∧ n < 1000000000000000 }

namespace Coord

/-- The number of millimetres, exactly. -/
def exact (c : Coord) : Nm := ⟨c.1⟩

/-- The number of millimetres. -/
def value (c : Coord) : ℚ := (c.1 : ℚ) / 10 ^ 6

/-- The number of millimetres as an `f64`. -/
def near (c : Coord) : F64 := F64.of c.value

end Coord

end Verif
