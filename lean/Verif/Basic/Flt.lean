import Verif.Basic.Num
/-!
# f64

Rust's `f64` is an abstract type with the operations the code uses.  The class
`Flt` contains operations only; the laws a theorem relies on are separate
classes, so that each theorem names exactly what it assumes about floats.  All
of them except `ExactLaws` are proved for the finite binary64 numbers in
`Verif.Basic.Fl`; `TextLaws` and `ZeroLaws` for all of them, with infinities and
NaN, in `Verif.Basic.F64`.
-/

namespace Verif

/-- The `f64` operations used by the code (Rust standard library, not in /repo; e.g. src/footprint/data.rs 1419, src/lib.rs 247-330, src/schematic.rs 1150). -/
class Flt (F : Type) where
  /-- decimal literal `m * 10^(-k)` -/
  lit : Int → Nat → F
  /-- `as f64` from an integer -/
  ofInt : Int → F
  add : F → F → F
  sub : F → F → F
  mul : F → F → F
  neg : F → F
  abs : F → F
  sqrt : F → F
  /-- `x / 2.0` -/
  half : F → F
  /-- `==` -/
  feq : F → F → Bool
  /-- `<` -/
  lt : F → F → Bool
  /-- `<=` -/
  le : F → F → Bool
  /-- `f64::min` -/
  fmin : F → F → F
  /-- `f64::max` -/
  fmax : F → F → F
  /-- `f64::EPSILON` -/
  eps : F
  /-- `format!("{}", x)` -/
  toStr : F → Str
  /-- `f64::from_str` -/
  ofStr : Str → Option F

namespace Flt

/-- The literal `0.0` (e.g. src/footprint/de.rs 39). -/
def zero {F : Type} [Flt F] : F := lit 0 0

/-- Characters that occur in the `Display` of an `f64` (digits, point, sign,
`inf`, `NaN`). -/
def textChars : Str := str! "0123456789.-infNa"

/-- `Display` followed by `FromStr` is the identity, and `Display` uses only
number characters.  For Rust this holds for every `f64` (up to NaN payloads;
for `-0.0` since Rust 1.53, which prints `-0`). -/
class TextLaws (F : Type) [Flt F] : Prop where
  ofStr_toStr : ∀ x : F, ofStr (toStr x) = some x
  toStr_ne_nil : ∀ x : F, toStr x ≠ []
  toStr_chars : ∀ x : F, ∀ c ∈ toStr x, c ∈ textChars

/-- Only zero is equal to zero (every `f64`, the two zeros identified). -/
class ZeroLaws (F : Type) [Flt F] : Prop where
  feq_zero : ∀ a : F, feq a zero = true ↔ a = zero

/-- Float equality is equality (`f64` without NaN, the two zeros identified). -/
class EqLaws (F : Type) [Flt F] : Prop where
  feq_iff : ∀ a b : F, feq a b = true ↔ a = b

instance (F : Type) [Flt F] [EqLaws F] : ZeroLaws F := ⟨fun a => EqLaws.feq_iff a zero⟩

/-- Comparison laws; they hold for the `f64` values without NaN, with the two
zeros identified. -/
class OrdLaws (F : Type) [Flt F] : Prop extends EqLaws F where
  le_refl : ∀ a : F, le a a = true
  le_trans : ∀ a b c : F, le a b = true → le b c = true → le a c = true
  le_total : ∀ a b : F, le a b = true ∨ le b a = true
  le_antisymm : ∀ a b : F, le a b = true → le b a = true → a = b
  lt_eq : ∀ a b : F, lt a b = !le b a
  min_eq : ∀ a b : F, fmin a b = if le a b then a else b
  max_eq : ∀ a b : F, fmax a b = if le a b then b else a

/-- Order and rounding facts that hold for finite `f64` as long as nothing
overflows: addition and subtraction are monotone (rounding is monotone), adding
or subtracting a nonnegative number moves in the expected direction, halving and
absolute value keep the sign. -/
class MonoLaws (F : Type) [Flt F] : Prop extends OrdLaws F where
  add_mono : ∀ a b c : F, le a b = true → le (add a c) (add b c) = true
  sub_mono : ∀ a b c : F, le a b = true → le (sub a c) (sub b c) = true
  add_nonneg : ∀ a b : F, le zero b = true → le a (add a b) = true
  sub_nonneg : ∀ a b : F, le zero b = true → le (sub a b) a = true
  add_zero : ∀ a : F, add a zero = a
  sub_self : ∀ a : F, sub a a = zero
  abs_nonneg : ∀ a : F, le zero (abs a) = true
  abs_zero : abs (zero : F) = zero
  abs_sub_comm : ∀ a b : F, abs (sub a b) = abs (sub b a)
  half_nonneg : ∀ a : F, le zero a = true → le zero (half a) = true
  eps_nonneg : le zero (eps : F) = true
  sqrt_nonneg : ∀ a : F, le zero a = true → le zero (sqrt a) = true
  sq_nonneg : ∀ a b : F, le zero (add (mul a a) (mul b b)) = true
  lit_nonneg : ∀ (m k : Nat), le zero (lit (m : Int) k : F) = true

/-- Exact arithmetic.  It does not hold for `f64` in general (rounding); it holds
for coordinates that are multiples of a common unit and stay below 2^53 units.
Theorems that use it describe the code up to rounding; C81 says what is left of
them for binary64 numbers. -/
class ExactLaws (F : Type) [Flt F] : Prop extends MonoLaws F where
  add_comm : ∀ a b : F, add a b = add b a
  add_assoc : ∀ a b c : F, add (add a b) c = add a (add b c)
  sub_eq : ∀ a b : F, sub a b = add a (neg b)
  add_neg : ∀ a : F, add a (neg a) = zero
  lit_pos : ∀ m : Nat, 0 < m → lt zero (lit (m : Int) 0 : F) = true

/-- Converting integers keeps their order (`as f64` rounds monotonically; it is
not injective beyond 2^53). -/
class IntLaws (F : Type) [Flt F] : Prop where
  ofInt_mono : ∀ a b : Int, a ≤ b → le (ofInt a : F) (ofInt b) = true

end Flt

end Verif
