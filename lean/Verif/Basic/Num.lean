import Verif.Basic.Str
/-!
# Integer text

`i64` Display/FromStr and hexadecimal forms, modelled from the documented
behaviour of the Rust standard library.
-/

namespace Verif

/-- The digit character of a value below 36 (upper case; `{:X}`, src/footprint/ser.rs 33). -/
def digitChar (d : Nat) : Char :=
  if d < 10 then Char.ofNat (48 + d) else Char.ofNat (55 + d)

/-- The value of a digit character in radix at most 36 (`from_str_radix`, src/footprint/de.rs 403). -/
def digitVal? (c : Char) : Option Nat :=
  let n := c.toNat
  if 48 ≤ n ∧ n ≤ 57 then some (n - 48)
  else if 65 ≤ n ∧ n ≤ 90 then some (n - 55)
  else if 97 ≤ n ∧ n ≤ 122 then some (n - 87)
  else none

/-- Digits of `n` in base `b` (most significant first), `fuel` bounding the
number of digits. -/
def showBaseAux (b : Nat) : Nat → Nat → Str → Str
  | 0, _, acc => acc
  | fuel + 1, n, acc =>
    if n < b then digitChar n :: acc
    else showBaseAux b fuel (n / b) (digitChar (n % b) :: acc)

/-- Unsigned number in base `b ≥ 2` (src/footprint/ser.rs 33). -/
def showBase (b n : Nat) : Str := showBaseAux b (n + 1) n []

/-- Decimal `Display` of an unsigned integer (src/layout/ser.rs 99-100). -/
def showNat (n : Nat) : Str := showBase 10 n

/-- Decimal `Display` of a signed integer (e.g. src/schematic.rs 598). -/
def showInt (i : Int) : Str :=
  match i with
  | Int.ofNat n => showNat n
  | Int.negSucc n => '-' :: showNat (n + 1)

/-- Value of a digit string in base `b` (src/footprint/de.rs 403); `none` on a foreign character. -/
def readDigits (b : Nat) : Nat → Str → Option Nat
  | acc, [] => some acc
  | acc, c :: cs =>
    match digitVal? c with
    | some d => if d < b then readDigits b (acc * b + d) cs else none
    | none => none

/-- Unsigned digits, at least one (src/footprint/de.rs 403). -/
def readBase (b : Nat) (s : Str) : Option Nat :=
  if s.isEmpty then none else readDigits b 0 s

/-- The range of `i64` (src/schematic.rs 1143). -/
def inI64 (i : Int) : Prop := -9223372036854775808 ≤ i ∧ i ≤ 9223372036854775807

instance (i : Int) : Decidable (inI64 i) := inferInstanceAs (Decidable (_ ∧ _))

/-- `i64::from_str_radix(s, b)` (src/footprint/de.rs 403): optional sign, at least one digit, in range. -/
def readI64 (b : Nat) (s : Str) : Option Int :=
  let check (i : Int) : Option Int := if inI64 i then some i else none
  match s with
  | '-' :: cs => (readBase b cs).bind fun n => check (-(Int.ofNat n))
  | '+' :: cs => (readBase b cs).bind fun n => check (Int.ofNat n)
  | cs => (readBase b cs).bind fun n => check (Int.ofNat n)

/-- `i64::from_str` (src/schematic.rs 1143). -/
def i64FromStr (s : Str) : Option Int := readI64 10 s

/-- `format!("{:X}", i)` for an `i64` (src/footprint/ser.rs 33-34): two's complement for negative values. -/
def showHexI64 (i : Int) : Str :=
  match i with
  | Int.ofNat n => showBase 16 n
  | Int.negSucc n => showBase 16 (18446744073709551616 - (n + 1))

end Verif
