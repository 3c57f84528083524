import Verif.Basic.Flt
/-!
# Numerals

What counts as an integer in a file, independently of how it is read.
-/

namespace Verif.Spec

/-- The digits. -/
def digits : Str := str! "0123456789"

/-- A nonempty sequence of digits and its value. -/
inductive Decimal : Str → Nat → Prop
  | one {c d} (h : digits[d]? = some c) : Decimal [c] d
  | more {w n c d} (hw : Decimal w n) (h : digits[d]? = some c) : Decimal (w ++ [c]) (10 * n + d)

/-- An integer of 64 bits: digits with at most one sign in front of them. -/
def IntWord (w : Str) (i : Int) : Prop :=
  -9223372036854775808 ≤ i ∧ i ≤ 9223372036854775807 ∧
  ∃ (v : Str) (n : Nat), Decimal v n ∧ (w = v ∧ i = n ∨ w = '+' :: v ∧ i = n ∨ w = '-' :: v ∧ i = -n)

/-- A floating point number, as the standard library reads it. -/
def FloatWord {F : Type} [Flt F] (w : Str) (x : F) : Prop := Flt.ofStr w = some x

/-- One of two words. -/
def Choice {α : Type} (yes no : α) (w : α) (b : Bool) : Prop := w = yes ∧ b = true ∨ w = no ∧ b = false

end Verif.Spec
