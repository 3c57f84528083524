import Verif.Spec.ExactNumbers
/-!
# Moving in whole nanometres
-/

namespace Verif.Spec

/-- The nearest whole number of nanometres: what an editor that computes in nanometres makes of a
number of millimetres.  Infinities and NaN have none; they are taken to the origin. -/
def Number.nm : Number → Nm
  | .fin v => ⟨⌊v * 10 ^ 6 + 1 / 2⌋⟩
  | _ => ⟨0⟩

/-- A number of nanometres of up to a metre. -/
structure Metre where
  n : Int
  small : |n| ≤ 1000000000

namespace Metre

/-- The number of millimetres, exactly. -/
def exact (c : Metre) : Nm := ⟨c.n⟩

/-- The number of millimetres. -/
def value (c : Metre) : ℚ := (c.n : ℚ) / 10 ^ 6

/-- The number of millimetres as a number that is written in a file. -/
def number (c : Metre) : Number := .fin c.value

/-- The number of millimetres as an `f64`. -/
def near (c : Metre) : F64 := F64.of c.value

end Metre

/-- Moving again and again. -/
def moveAll {F : Type} [Flt F] (f : Metre → F) (moves : List (Metre × Metre)) (l : Lay.Layout F) : Lay.Layout F :=
  moves.foldl (fun l d => l.adjust (f d.1) (f d.2)) l

end Verif.Spec
