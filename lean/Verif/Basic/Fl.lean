import Verif.Basic.Flt
import Verif.Basic.Decimal
import Verif.Basic.Sqrt
/-!
# Floating point numbers

`Fl` is the finite part of IEEE 754 binary64 as used by Rust's `f64`: every
operation is computed exactly and rounded to nearest, ties to even, with 53
significant bits and gradual underflow.  The largest exponent is not limited (a
computation that stays below 2^1024 gives the same result as in `f64`), there is
no NaN, and the two zeros are one number.  All law classes of `Verif.Basic.Flt`
hold for it except exact arithmetic, which does not hold for `f64` either
(`add_not_assoc`).
-/

namespace Verif

open Fp64

/-- A finite binary64 number. -/
structure Fl where
  val : ℚ
  ok : round64 val = val
  deriving DecidableEq

namespace Fl

/-- The number nearest to a rational number. -/
def of (q : ℚ) : Fl := ⟨round64 q, round64_idem q⟩

theorem isF64 (a : Fl) : IsF64 a.val := by
  have := round64_isF64 a.val
  rwa [a.ok] at this

theorem ext_val {a b : Fl} (h : a.val = b.val) : a = b := by
  cases a; cases b; simp at h; simp [h]

/-- `Display`. -/
def toStr (a : Fl) : Str := if a.val < 0 then '-' :: showMag (-a.val) else showMag a.val

/-- `FromStr`, without infinities and NaN. -/
def ofStr (s : Str) : Option Fl :=
  (readMag (splitSign s).2).map fun v => of (if (splitSign s).1 then -v else v)

instance : Flt Fl where
  lit m k := of (m * pow10 (-(k : Int)))
  ofInt i := of i
  add a b := of (a.val + b.val)
  sub a b := of (a.val - b.val)
  mul a b := of (a.val * b.val)
  neg a := of (-a.val)
  abs a := of |a.val|
  sqrt a := of (sqrtApprox a.val)
  half a := of (a.val / 2)
  feq a b := decide (a.val = b.val)
  lt a b := decide (a.val < b.val)
  le a b := decide (a.val ≤ b.val)
  fmin a b := if a.val ≤ b.val then a else b
  fmax a b := if a.val ≤ b.val then b else a
  eps := of (pow2 (-52))
  toStr := toStr
  ofStr := ofStr

theorem ofStr_toStr (a : Fl) : ofStr (toStr a) = some a := by
  unfold toStr
  split
  · rename_i h
    obtain ⟨v, h1, h2⟩ := readMag_showMag (isF64_neg a.isF64) (by linarith)
    have hs : splitSign ('-' :: showMag (-a.val)) = (true, showMag (-a.val)) := rfl
    simp only [ofStr, hs, h1, Option.map_some, Option.some.injEq, if_true]
    apply ext_val
    show round64 (-v) = a.val
    rw [round64_neg, h2, neg_neg]
  · rename_i h
    obtain ⟨v, h1, h2⟩ := readMag_showMag a.isF64 (not_lt.1 h)
    simp only [ofStr, splitSign_showMag, h1, Option.map_some, Option.some.injEq, Bool.false_eq_true, if_false]
    exact ext_val h2

theorem mem_textChars {c : Char} (h : isDig c = true ∨ c = '.') : c ∈ Flt.textChars := by
  rcases h with h | rfl
  · have := isDig_iff c h
    simp only [List.mem_cons, List.not_mem_nil, or_false] at this
    rcases this with rfl | rfl | rfl | rfl | rfl | rfl | rfl | rfl | rfl | rfl <;> decide
  · decide

instance : Flt.TextLaws Fl where
  ofStr_toStr := ofStr_toStr
  toStr_ne_nil a := by
    show toStr a ≠ []
    unfold toStr
    split
    · simp
    · exact showMag_ne_nil _
  toStr_chars a c hc := by
    change c ∈ toStr a at hc
    unfold toStr at hc
    split at hc
    · rcases List.mem_cons.1 hc with rfl | hc
      · decide
      · exact mem_textChars (showMag_chars _ c hc)
    · exact mem_textChars (showMag_chars _ c hc)

theorem zero_val : (Flt.zero : Fl).val = 0 := by
  show round64 (((0 : Int) : ℚ) * pow10 (-((0 : Nat) : Int))) = 0
  simp [round64_zero]

instance : Flt.OrdLaws Fl where
  feq_iff a b := by
    simp only [Flt.feq, decide_eq_true_eq]
    exact ⟨ext_val, fun h => h ▸ rfl⟩
  le_refl a := by simp [Flt.le]
  le_trans a b c := by simp only [Flt.le, decide_eq_true_eq]; exact le_trans
  le_total a b := by simp only [Flt.le, decide_eq_true_eq]; exact le_total _ _
  le_antisymm a b := by
    simp only [Flt.le, decide_eq_true_eq]
    exact fun h1 h2 => ext_val (le_antisymm h1 h2)
  lt_eq a b := by
    simp only [Flt.lt, Flt.le]
    by_cases h : a.val < b.val
    · simp [h]
    · simp [h, not_lt.1 h]
  min_eq a b := by simp [Flt.fmin, Flt.le]
  max_eq a b := by simp [Flt.fmax, Flt.le]

instance : Flt.MonoLaws Fl where
  add_mono a b c := by
    simp only [Flt.le, Flt.add, decide_eq_true_eq]
    exact fun h => round64_mono (by linarith)
  sub_mono a b c := by
    simp only [Flt.le, Flt.sub, decide_eq_true_eq]
    exact fun h => round64_mono (by linarith)
  add_nonneg a b := by
    simp only [Flt.le, Flt.add, decide_eq_true_eq, zero_val]
    exact fun h => le_round64 a.isF64 (by linarith)
  sub_nonneg a b := by
    simp only [Flt.le, Flt.sub, decide_eq_true_eq, zero_val]
    exact fun h => round64_le a.isF64 (by linarith)
  add_zero a := ext_val (by
    show round64 (a.val + (Flt.zero : Fl).val) = a.val
    rw [zero_val, add_zero, a.ok])
  sub_self a := ext_val (by
    show round64 (a.val - a.val) = _
    rw [sub_self, zero_val, round64_zero])
  abs_nonneg a := by
    simp only [Flt.le, Flt.abs, decide_eq_true_eq, zero_val]
    exact le_round64 isF64_zero (abs_nonneg _)
  abs_zero := ext_val (by
    show round64 |(Flt.zero : Fl).val| = _
    rw [zero_val, abs_zero, round64_zero])
  abs_sub_comm a b := ext_val (by
    show round64 |round64 (a.val - b.val)| = round64 |round64 (b.val - a.val)|
    rw [← neg_sub b.val a.val, round64_neg, abs_neg])
  half_nonneg a := by
    simp only [Flt.le, Flt.half, decide_eq_true_eq, zero_val]
    exact fun h => le_round64 isF64_zero (by linarith)
  eps_nonneg := by
    simp only [Flt.le, Flt.eps, decide_eq_true_eq, zero_val]
    exact le_round64 isF64_zero (le_of_lt (pow2_pos _))
  sqrt_nonneg a _ := by
    simp only [Flt.le, Flt.sqrt, decide_eq_true_eq, zero_val]
    exact le_round64 isF64_zero (sqrtApprox_nonneg _)
  sq_nonneg a b := by
    simp only [Flt.le, Flt.add, Flt.mul, decide_eq_true_eq, zero_val]
    have h1 : 0 ≤ round64 (a.val * a.val) := le_round64 isF64_zero (mul_self_nonneg _)
    have h2 : 0 ≤ round64 (b.val * b.val) := le_round64 isF64_zero (mul_self_nonneg _)
    exact le_round64 isF64_zero (add_nonneg h1 h2)
  lit_nonneg m k := by
    simp only [Flt.le, Flt.lit, decide_eq_true_eq, zero_val]
    have := pow10_pos (-(k : Int))
    exact le_round64 isF64_zero (by positivity)

instance : Flt.IntLaws Fl where
  ofInt_mono a b h := by
    simp only [Flt.le, Flt.ofInt, decide_eq_true_eq]
    exact round64_mono (by exact_mod_cast h)

/-- Addition of floating point numbers is not associative: 0.1 + 0.2 + 0.3. -/
theorem add_not_assoc : ∃ a b c : Fl, Flt.add (Flt.add a b) c ≠ Flt.add a (Flt.add b c) :=
  ⟨Flt.lit 1 1, Flt.lit 2 1, Flt.lit 3 1, by decide +kernel⟩

/-- `0.1 + 0.2` prints as in every language. -/
example : Flt.toStr (Flt.add (Flt.lit 1 1 : Fl) (Flt.lit 2 1)) = str! "0.30000000000000004" := by decide +kernel

example : (Flt.ofStr (str! "-1.27e1") : Option Fl).map Flt.toStr = some (str! "-12.7") := by decide +kernel

example : Flt.toStr (Flt.sqrt (Flt.lit 2 0 : Fl)) = str! "1.4142135623730951" := by decide +kernel

end Fl

end Verif
