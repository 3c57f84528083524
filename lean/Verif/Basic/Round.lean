import Mathlib.Data.Rat.Floor
import Mathlib.Tactic.Linarith
import Mathlib.Tactic.Positivity
import Mathlib.Tactic.Ring
import Mathlib.Tactic.FieldSimp
import Mathlib.Tactic.NormNum
import Mathlib.Algebra.Order.Field.Power
/-!
# Rounding to 64-bit floating point

`round64` rounds a rational number to the nearest number with 53 significant
bits that is a multiple of 2^-1074, ties to even (IEEE 754 binary64, round to
nearest; the largest exponent is not limited).
-/

namespace Verif.Fp64

/-- `2^e`. -/
def pow2 : Int → ℚ
  | .ofNat n => (2 ^ n : ℕ)
  | .negSucc n => 1 / (2 ^ (n + 1) : ℕ)

theorem pow2_eq (e : Int) : pow2 e = (2 : ℚ) ^ e := by
  cases e with
  | ofNat n => simp [pow2]
  | negSucc n => simp [pow2, zpow_negSucc]

theorem pow2_pos (e : Int) : 0 < pow2 e := by rw [pow2_eq]; positivity

theorem pow2_add (a b : Int) : pow2 (a + b) = pow2 a * pow2 b := by
  simp only [pow2_eq]; exact zpow_add₀ (by norm_num) a b

theorem pow2_mono {a b : Int} (h : a ≤ b) : pow2 a ≤ pow2 b := by
  simp only [pow2_eq]; exact zpow_le_zpow_right₀ (by norm_num) h

theorem pow2_lt {a b : Int} (h : pow2 a < pow2 b) : a < b := by
  by_contra hc
  exact absurd (pow2_mono (not_lt.1 hc)) (not_le.2 h)

theorem pow2_one : pow2 1 = 2 := rfl

theorem pow2_nat (n : Nat) : pow2 n = (2 ^ n : ℕ) := rfl

/-- Nearest integer, ties to even. -/
def rne (q : ℚ) : Int :=
  let f := q.floor
  let r := q - f
  if r < 1 / 2 then f else if 1 / 2 < r then f + 1 else if f % 2 = 0 then f else f + 1

theorem rne_half (q : ℚ) : |q - rne q| ≤ 1 / 2 := by
  have h1 : ((q.floor : Int) : ℚ) ≤ q := Rat.floor_le q
  have h2 : q < (q.floor : Int) + 1 := by have := Rat.lt_floor_add_one q; push_cast at this; exact this
  unfold rne
  simp only []
  split
  · rw [abs_le]; constructor <;> linarith
  · split
    · push_cast; rw [abs_le]; constructor <;> linarith
    · split
      · rw [abs_le]; constructor <;> linarith
      · push_cast; rw [abs_le]; constructor <;> linarith

/-- No integer is nearer. -/
theorem rne_nearest (q : ℚ) (z : Int) : |q - rne q| ≤ |q - z| := by
  have h := rne_half q
  by_cases e : z = rne q
  · rw [e]
  · have h3 : (1 : ℚ) ≤ |(rne q : ℚ) - z| := by
      have : (1 : Int) ≤ |rne q - z| := Int.one_le_abs (by omega)
      exact_mod_cast this
    have h4 : |(rne q : ℚ) - z| ≤ |(rne q : ℚ) - q| + |q - z| := abs_sub_le _ _ _
    rw [abs_sub_comm (rne q : ℚ) q] at h4
    linarith

theorem rne_int (z : Int) : rne (z : ℚ) = z := by
  have h := rne_nearest (z : ℚ) z
  rw [sub_self, abs_zero] at h
  have := abs_nonpos_iff.1 h
  have : (z : ℚ) = rne (z : ℚ) := by linarith
  exact_mod_cast this.symm

theorem rne_neg (q : ℚ) : rne (-q) = - rne q := by
  have h1 : ((q.floor : Int) : ℚ) ≤ q := Rat.floor_le q
  have h2 : q < (q.floor : Int) + 1 := by have := Rat.lt_floor_add_one q; push_cast at this; exact this
  by_cases e : (q.floor : ℚ) = q
  · rw [← e, rne_int]
    have := rne_int (-q.floor)
    push_cast at this
    exact this
  · have h3 : ((q.floor : Int) : ℚ) < q := lt_of_le_of_ne h1 e
    have hf : (-q).floor = -q.floor - 1 := by
      have : ⌊-q⌋ = -q.floor - 1 := by rw [Int.floor_eq_iff]; push_cast; constructor <;> linarith
      exact this
    unfold rne
    simp only [hf]
    push_cast
    have e1 : -q - (-(q.floor : ℚ) - 1) = 1 - (q - q.floor) := by ring
    rw [e1]
    by_cases c1 : q - q.floor < 1 / 2
    · rw [if_pos c1, if_neg (by linarith), if_pos (by linarith)]; ring
    · by_cases c2 : 1 / 2 < q - q.floor
      · rw [if_neg c1, if_pos c2, if_pos (by linarith)]; ring
      · rw [if_neg c1, if_neg c2, if_neg (by linarith), if_neg (by linarith)]
        by_cases c3 : q.floor % 2 = 0
        · rw [if_pos c3, if_neg (by omega)]; ring
        · rw [if_neg c3, if_pos (by omega)]; ring

/-- The exponent of a positive fraction: `2^e ≤ n/d < 2^(e+1)`. -/
def expoOf (n d : Nat) : Int :=
  let e : Int := (n.log2 : Int) - d.log2
  if (n : ℚ) < d * pow2 e then e - 1 else e

/-- The exponent of a nonzero rational number. -/
def expo (x : ℚ) : Int := expoOf x.num.natAbs x.den

theorem expoOf_spec (n d : Nat) (hn : n ≠ 0) (hd : d ≠ 0) :
    pow2 (expoOf n d) * d ≤ n ∧ (n : ℚ) < pow2 (expoOf n d + 1) * d := by
  have n1 : 2 ^ n.log2 ≤ n := Nat.log2_self_le hn
  have n2 : n < 2 ^ (n.log2 + 1) := Nat.lt_log2_self
  have d1 : 2 ^ d.log2 ≤ d := Nat.log2_self_le hd
  have d2 : d < 2 ^ (d.log2 + 1) := Nat.lt_log2_self
  have n1' : pow2 n.log2 ≤ n := by rw [pow2_nat]; exact_mod_cast n1
  have n2' : (n : ℚ) < pow2 (n.log2 + 1) := by
    have := pow2_nat (n.log2 + 1)
    push_cast at this
    rw [this]; exact_mod_cast n2
  have d1' : pow2 d.log2 ≤ d := by rw [pow2_nat]; exact_mod_cast d1
  have d2' : (d : ℚ) < pow2 (d.log2 + 1) := by
    have := pow2_nat (d.log2 + 1)
    push_cast at this
    rw [this]; exact_mod_cast d2
  unfold expoOf
  simp only []
  generalize (n.log2 : Int) = a at *
  generalize (d.log2 : Int) = b at *
  split
  · rename_i h
    constructor
    · have hb : pow2 (a - b - 1) * pow2 (b + 1) = pow2 a := by rw [← pow2_add]; congr 1; ring
      have := mul_le_mul_of_nonneg_left (le_of_lt d2') (le_of_lt (pow2_pos (a - b - 1)))
      linarith
    · have : a - b - 1 + 1 = a - b := by ring
      rw [this]; linarith
  · rename_i h
    constructor
    · linarith
    · have hb : pow2 (a - b + 1) * pow2 b = pow2 (a + 1) := by rw [← pow2_add]; congr 1; ring
      have := mul_le_mul_of_nonneg_left d1' (le_of_lt (pow2_pos (a - b + 1)))
      linarith

theorem expo_spec {x : ℚ} (hx : x ≠ 0) : pow2 (expo x) ≤ |x| ∧ |x| < pow2 (expo x + 1) := by
  have hn : x.num.natAbs ≠ 0 := by simpa using hx
  obtain ⟨h1, h2⟩ := expoOf_spec x.num.natAbs x.den hn x.den_nz
  have hd : (0 : ℚ) < x.den := by exact_mod_cast x.den_pos
  have e : |x| = (x.num.natAbs : ℚ) / x.den := by
    rw [Nat.cast_natAbs, Int.cast_abs]
    conv_lhs => rw [← Rat.num_div_den x]
    rw [abs_div, abs_of_pos hd]
  rw [e]
  constructor
  · rw [le_div_iff₀ hd]; exact h1
  · rw [div_lt_iff₀ hd]; exact h2

theorem expo_neg (x : ℚ) : expo (-x) = expo x := by simp [expo]

/-- The exponent of the last bit kept. -/
def ulpExp (x : ℚ) : Int := max (expo x - 52) (-1074)

/-- Rounding to the nearest binary64 number, ties to even. -/
def round64 (x : ℚ) : ℚ := (rne (x / pow2 (ulpExp x)) : ℚ) * pow2 (ulpExp x)

/-- The numbers of the format. -/
def IsF64 (x : ℚ) : Prop := ∃ m e : Int, |m| ≤ 2 ^ 53 ∧ -1074 ≤ e ∧ x = m * pow2 e

theorem abs_lt_ulp (x : ℚ) : |x| < pow2 (ulpExp x + 53) := by
  by_cases hx : x = 0
  · rw [hx, abs_zero]; exact pow2_pos _
  · refine lt_of_lt_of_le (expo_spec hx).2 (pow2_mono ?_)
    unfold ulpExp; omega

theorem round64_isF64 (x : ℚ) : IsF64 (round64 x) := by
  refine ⟨rne (x / pow2 (ulpExp x)), ulpExp x, ?_, by unfold ulpExp; omega, rfl⟩
  have hp := pow2_pos (ulpExp x)
  have h1 : |x / pow2 (ulpExp x)| < 2 ^ 53 := by
    rw [abs_div, abs_of_pos hp, div_lt_iff₀ hp]
    have := abs_lt_ulp x
    rw [pow2_add] at this
    have e : pow2 53 = 2 ^ 53 := by norm_num [pow2]
    rw [e] at this; linarith
  have h2 := rne_half (x / pow2 (ulpExp x))
  have h3 : |(rne (x / pow2 (ulpExp x)) : ℚ)| < 2 ^ 53 + 1 := by
    have h4 := abs_sub_abs_le_abs_sub (rne (x / pow2 (ulpExp x)) : ℚ) (x / pow2 (ulpExp x))
    rw [abs_sub_comm] at h4
    linarith
  have h5 : |rne (x / pow2 (ulpExp x))| < 2 ^ 53 + 1 := by exact_mod_cast h3
  omega

theorem nearest_multiple (x : ℚ) (e : Int) (z : Int) :
    |x - rne (x / pow2 e) * pow2 e| ≤ |x - z * pow2 e| := by
  have hp := pow2_pos e
  have key : ∀ w : ℚ, |x - w * pow2 e| = |x / pow2 e - w| * pow2 e := by
    intro w
    rw [← abs_of_pos hp, ← abs_mul, abs_of_pos hp]
    congr 1
    field_simp
  rw [key, key]
  exact mul_le_mul_of_nonneg_right (rne_nearest _ z) (le_of_lt hp)

theorem round64_nearest_pos {x r : ℚ} (hx : 0 < x) (hr : IsF64 r) : |x - round64 x| ≤ |x - r| := by
  obtain ⟨m, e, hm, he, rfl⟩ := hr
  unfold round64
  by_cases hle : ulpExp x ≤ e
  · obtain ⟨k, hk⟩ := Int.le.dest hle
    have : (m : ℚ) * pow2 e = ((m * 2 ^ k : Int) : ℚ) * pow2 (ulpExp x) := by
      rw [← hk, pow2_add, pow2_nat]; push_cast; ring
    rw [this]
    exact nearest_multiple x _ _
  · have hu : ulpExp x = expo x - 52 := by unfold ulpExp at *; omega
    have h1 := (expo_spec (ne_of_gt hx)).1
    rw [abs_of_pos hx] at h1
    have h2 : (m : ℚ) * pow2 e ≤ pow2 (expo x) := by
      have a1 : (m : ℚ) ≤ 2 ^ 53 := by
        have : m ≤ 2 ^ 53 := le_trans (le_abs_self m) hm
        exact_mod_cast this
      have a2 : (2 : ℚ) ^ 53 * pow2 e = pow2 (53 + e) := by
        rw [pow2_add]; norm_num [pow2]
      have a3 := mul_le_mul_of_nonneg_right a1 (le_of_lt (pow2_pos e))
      rw [a2] at a3
      refine le_trans a3 (pow2_mono (by omega))
    have h3 := nearest_multiple x (ulpExp x) (2 ^ 52)
    have e3 : ((2 ^ 52 : Int) : ℚ) * pow2 (ulpExp x) = pow2 (expo x) := by
      have : expo x = 52 + ulpExp x := by omega
      rw [this, pow2_add]
      norm_num [pow2]
    rw [e3] at h3
    refine le_trans h3 ?_
    rw [abs_of_nonneg (by linarith), abs_of_nonneg (by linarith)]
    linarith

theorem round64_zero : round64 0 = 0 := by
  have : rne ((0 : Int) : ℚ) = 0 := rne_int 0
  simp at this
  simp [round64, this]

theorem round64_neg (x : ℚ) : round64 (-x) = - round64 x := by
  unfold round64
  have : ulpExp (-x) = ulpExp x := by unfold ulpExp; rw [expo_neg]
  rw [this, neg_div, rne_neg]
  push_cast; ring

theorem isF64_neg {x : ℚ} (h : IsF64 x) : IsF64 (-x) := by
  obtain ⟨m, e, hm, he, rfl⟩ := h
  exact ⟨-m, e, by rwa [abs_neg], he, by push_cast; ring⟩

theorem isF64_zero : IsF64 0 := ⟨0, 0, by norm_num, by norm_num, by norm_num⟩

/-- No number of the format is nearer than the rounded one. -/
theorem round64_nearest (x : ℚ) {r : ℚ} (hr : IsF64 r) : |x - round64 x| ≤ |x - r| := by
  rcases lt_trichotomy x 0 with h | h | h
  · have := round64_nearest_pos (x := -x) (by linarith) (isF64_neg hr)
    rw [round64_neg] at this
    have e : ∀ a : ℚ, |-x - -a| = |x - a| := by
      intro a
      rw [← abs_neg]
      congr 1; ring
    rwa [e, e] at this
  · subst h
    rw [round64_zero]; simp
  · exact round64_nearest_pos h hr

/-- Numbers of the format are rounded to themselves. -/
theorem round64_of_isF64 {x : ℚ} (h : IsF64 x) : round64 x = x := by
  have := round64_nearest x h
  rw [sub_self, abs_zero] at this
  have := abs_nonpos_iff.1 this
  linarith

theorem round64_idem (x : ℚ) : round64 (round64 x) = round64 x := round64_of_isF64 (round64_isF64 x)

/-- Rounding keeps the order. -/
theorem round64_mono {x y : ℚ} (h : x ≤ y) : round64 x ≤ round64 y := by
  rcases eq_or_lt_of_le h with rfl | h
  · exact le_refl _
  by_contra hc
  have hc := not_le.1 hc
  have h1 := round64_nearest x (round64_isF64 y)
  have h2 := round64_nearest y (round64_isF64 x)
  generalize round64 x = a at *
  generalize round64 y = b at *
  rcases abs_cases (x - a) with ⟨e1, c1⟩ | ⟨e1, c1⟩ <;> rcases abs_cases (x - b) with ⟨e2, c2⟩ | ⟨e2, c2⟩ <;>
    rcases abs_cases (y - a) with ⟨e3, c3⟩ | ⟨e3, c3⟩ <;> rcases abs_cases (y - b) with ⟨e4, c4⟩ | ⟨e4, c4⟩ <;>
    rw [e1, e2] at h1 <;> rw [e3, e4] at h2 <;> linarith

theorem le_round64 {r x : ℚ} (hr : IsF64 r) (h : r ≤ x) : r ≤ round64 x := by
  have := round64_mono h
  rwa [round64_of_isF64 hr] at this

theorem round64_le {r x : ℚ} (hr : IsF64 r) (h : x ≤ r) : round64 x ≤ r := by
  have := round64_mono h
  rwa [round64_of_isF64 hr] at this

end Verif.Fp64
