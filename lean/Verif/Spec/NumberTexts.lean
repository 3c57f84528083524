import Verif.Spec.Numerals
import Verif.Basic.F64
/-!
# Number texts

What counts as a floating point number in a file, which number is meant by it, and which `f64` stands
for it; independently of how texts are read and of how numbers are rounded.
-/

namespace Verif.Spec

/-- The number that is meant: a fraction, an infinity (`true` for the negative one) or no number at all. -/
inductive Number where
  | nan
  | inf (neg : Bool)
  | fin (v : ℚ)
  deriving DecidableEq

/-- Digits, possibly with a point in front of them, among them or behind them. -/
inductive Mantissa : Str → ℚ → Prop
  | whole {i d} (h : Decimal i d) : Mantissa i d
  | point {i f d} (h : Decimal (i ++ f) d) : Mantissa (i ++ '.' :: f) (d / 10 ^ f.length)

/-- A power of ten: digits with at most one sign in front of them. -/
inductive Exponent : Str → Int → Prop
  | plain {w n} (h : Decimal w n) : Exponent w n
  | plus {w n} (h : Decimal w n) : Exponent ('+' :: w) n
  | minus {w n} (h : Decimal w n) : Exponent ('-' :: w) (-n)

/-- A number without a sign. -/
inductive Magnitude : Str → ℚ → Prop
  | plain {s v} (h : Mantissa s v) : Magnitude s v
  | scaled {s v c t n} (h : Mantissa s v) (hc : c = 'e' ∨ c = 'E') (ht : Exponent t n) :
      Magnitude (s ++ c :: t) (v * (10 : ℚ) ^ n)

/-- A word written in capital or small letters; `w` lists the two forms of each letter. -/
inductive Spelt : Str → List (Char × Char) → Prop
  | nil : Spelt [] []
  | cons {c t p w} (hc : c = p.1 ∨ c = p.2) (h : Spelt t w) : Spelt (c :: t) (p :: w)

/-- At most one sign in front of a text; `true` for minus. -/
inductive Negated : Str → Bool → Str → Prop
  | none {t} : Negated t false t
  | plus {t} : Negated ('+' :: t) false t
  | minus {t} : Negated ('-' :: t) true t

/-- A number text and the number meant by it. -/
inductive NumberText : Str → Number → Prop
  | decimal {s neg t v} (hs : Negated s neg t) (h : Magnitude t v) : NumberText s (.fin (if neg then -v else v))
  | inf {s neg t} (hs : Negated s neg t) (h : Spelt t [('i', 'I'), ('n', 'N'), ('f', 'F')]) : NumberText s (.inf neg)
  | infinity {s neg t} (hs : Negated s neg t) (h : Spelt t [('i', 'I'), ('n', 'N'), ('f', 'F'), ('i', 'I'), ('n', 'N'),
      ('i', 'I'), ('t', 'T'), ('y', 'Y')]) : NumberText s (.inf neg)
  | nan {s neg t} (hs : Negated s neg t) (h : Spelt t [('n', 'N'), ('a', 'A'), ('n', 'N')]) : NumberText s .nan

/-- A number of 53 bits; the exponent is limited from below only. -/
def Bits53 (x : ℚ) : Prop := ∃ m e : Int, |m| ≤ 2 ^ 53 ∧ -1074 ≤ e ∧ x = m * (2 : ℚ) ^ e

/-- `r` is nearest to `v`: no number of 53 bits is nearer, and if another one is equally near, `r` is
the one whose last bit is zero: an even multiple of the distance between the two. -/
structure NearestTo (v r : ℚ) : Prop where
  bits : Bits53 r
  near : ∀ b, Bits53 b → |v - r| ≤ |v - b|
  even : ∀ b, Bits53 b → b ≠ r → |v - r| = |v - b| → ∃ k : Int, r = 2 * k * |r - b|

/-- The `f64` that stands for a number: the nearest one, or an infinity if that is too large. -/
inductive Held : Number → F64 → Prop
  | nan : Held .nan .nan
  | inf {neg} : Held (.inf neg) (.inf neg)
  | fin {v a hb} (h : NearestTo v a.val) : Held (.fin v) (.fin a hb)
  | over {v r} (h : NearestTo v r) (hr : (2 : ℚ) ^ 1024 ≤ |r|) : Held (.fin v) (.inf (decide (v < 0)))

/-- The `f64` that stands for a number; `C106_held` shows that it is the only one. -/
def Number.near : Number → F64
  | .nan => .nan
  | .inf neg => .inf neg
  | .fin v => .of v

end Verif.Spec
