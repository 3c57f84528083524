import Verif.Lemmas.Near
import Verif.Basic.F64
/-!
# Decimals of up to 15 digits and binary64

Rounding to binary64 keeps decimals of up to 15 digits apart, so that the shortest decimal that
reads back as the rounded number is the decimal itself.
-/

namespace Verif.Fp64
open Verif

theorem pow10_add (a b : Int) : pow10 (a + b) = pow10 a * pow10 b := by
  simp only [pow10_eq]; exact zpow_add₀ (by norm_num) a b

theorem pow10_nat (n : Nat) : pow10 n = (10 ^ n : ℕ) := rfl

theorem pow10_mono {a b : Int} (h : a ≤ b) : pow10 a ≤ pow10 b := by
  simp only [pow10_eq]; exact zpow_le_zpow_right₀ (by norm_num) h

/-- `10^-300` is much larger than the smallest number of the format. -/
theorem tiny {k : Int} (hk : k ≤ 300) : pow2 (-1074) * 100 ≤ pow10 (-k) := by
  refine le_trans ?_ (pow10_mono (show -300 ≤ -k by omega))
  rw [pow2_eq, pow10_eq]
  have h1 : (2 : ℚ) ^ (-1074 : Int) ≤ 2 ^ (-1064 : Int) * (1 / 1024) := by
    rw [show (-1074 : Int) = -1064 + -10 by norm_num, zpow_add₀ (by norm_num)]
    norm_num
  have h2 : (2 : ℚ) ^ (-1064 : Int) ≤ 10 ^ (-300 : Int) := by
    rw [zpow_neg, zpow_neg]
    refine inv_anti₀ (by positivity) ?_
    have : (10 : ℚ) ^ (300 : Int) = ((10 : ℚ) ^ (3 : Nat)) ^ (100 : Nat) := by
      rw [← pow_mul]; norm_cast
    rw [this]
    have h3 : ((10 : ℚ) ^ (3 : Nat)) ^ (100 : Nat) ≤ ((2 : ℚ) ^ (10 : Nat)) ^ (100 : Nat) :=
      pow_le_pow_left₀ (by norm_num) (by norm_num) _
    refine le_trans h3 ?_
    rw [← pow_mul, ← zpow_natCast]
    exact zpow_le_zpow_right₀ (by norm_num) (by norm_num)
  have h3 : (0 : ℚ) < 2 ^ (-1064 : Int) := by positivity
  generalize (2 : ℚ) ^ (-1064 : Int) = a at *
  generalize (2 : ℚ) ^ (-1074 : Int) = b at *
  generalize (10 : ℚ) ^ (-300 : Int) = c at *
  linarith

theorem w_fifteen : (10 : ℚ) ^ 15 * pow2 (-53) ≤ 1 / 9 := by
  rw [pow2_eq]; norm_num

/-- Decimals of up to 15 digits keep apart from all other decimals with as many digits behind
the point. -/
theorem decimal_apart {d D : Nat} {k : Int} (hd : d < 10 ^ 15) (hk : k ≤ 300)
    (h : round64 (d * pow10 (-k)) = round64 (D * pow10 (-k))) : D = d := by
  have hp := pow10_pos (-k)
  have ht := tiny hk
  have h1 := round64_abs ((d : ℚ) * pow10 (-k))
  have h2 := round64_abs ((D : ℚ) * pow10 (-k))
  rw [← h] at h2
  generalize hu : pow10 (-k) = u at *
  have e1 : pow2 (-1075) ≤ u / 100 := by
    have := pow2_mono (show (-1075 : Int) ≤ -1074 by norm_num)
    linarith
  have a1 : |(d : ℚ) * u| = d * u := abs_of_nonneg (by positivity)
  have a2 : |(D : ℚ) * u| = D * u := abs_of_nonneg (by positivity)
  rw [a1] at h1
  rw [a2] at h2
  have hd' : (d : ℚ) ≤ 10 ^ 15 := by exact_mod_cast le_of_lt hd
  have w0 := w_pos
  have b1 : (d : ℚ) * u * pow2 (-53) ≤ u / 9 := by
    have := mul_le_mul_of_nonneg_right hd' (le_of_lt w0)
    have := mul_le_mul_of_nonneg_right (le_trans this w_fifteen) (le_of_lt hp)
    linarith
  have ws := w_small
  generalize round64 (d * u) = x at *
  rw [abs_le] at h1 h2
  -- the second decimal in terms of the first
  have c1 : (D : ℚ) * u * (1 - pow2 (-53)) ≤ d * u + u / 9 + u / 100 + u / 100 := by nlinarith [h1.2, h2.1]
  have hDu : (0 : ℚ) ≤ D * u := by positivity
  have c2 : (D : ℚ) * u ≤ 2 * (d * u) + u / 2 := by nlinarith
  have b2 : (D : ℚ) * u * pow2 (-53) ≤ 2 * (u / 9) + u / 1000 := by
    have := mul_le_mul_of_nonneg_right c2 (le_of_lt w0)
    nlinarith
  have f1 : (D : ℚ) * u - d * u < u := by linarith [h1.2, h2.1]
  have f2 : (d : ℚ) * u - D * u < u := by linarith [h1.1, h2.2]
  have g1 : (D : ℚ) < d + 1 := by nlinarith
  have g2 : (d : ℚ) < D + 1 := by nlinarith
  have g1' : D < d + 1 := by exact_mod_cast g1
  have g2' : d < D + 1 := by exact_mod_cast g2
  omega

/-- The decimal is found among those with as many digits behind the point. -/
theorem candidate_eq {d : Nat} {k : Int} (hd : d < 10 ^ 15) (hk : k ≤ 300) :
    candidate (round64 (d * pow10 (-k))) k = some d := by
  have hp := pow10_pos (-k)
  have hq := pow10_pos k
  have hpq : pow10 (-k) * pow10 k = 1 := by rw [← pow10_add, neg_add_cancel]; rfl
  have ht := tiny hk
  have h1 := round64_abs ((d : ℚ) * pow10 (-k))
  have a1 : |(d : ℚ) * pow10 (-k)| = d * pow10 (-k) := abs_of_nonneg (by positivity)
  rw [a1] at h1
  have hd' : (d : ℚ) ≤ 10 ^ 15 := by exact_mod_cast le_of_lt hd
  have b1 : (d : ℚ) * pow10 (-k) * pow2 (-53) ≤ pow10 (-k) / 9 := by
    have := mul_le_mul_of_nonneg_right hd' (le_of_lt w_pos)
    have := mul_le_mul_of_nonneg_right (le_trans this w_fifteen) (le_of_lt hp)
    linarith
  have e1 : pow2 (-1075) ≤ pow10 (-k) / 100 := by
    have := pow2_mono (show (-1075 : Int) ≤ -1074 by norm_num)
    linarith
  have hy : |round64 (d * pow10 (-k)) * pow10 k - d| ≤ 1 / 2 := by
    have e2 : round64 (d * pow10 (-k)) * pow10 k - d = (round64 (d * pow10 (-k)) - d * pow10 (-k)) * pow10 k := by
      rw [sub_mul, mul_assoc, hpq, mul_one]
    rw [e2, abs_mul, abs_of_pos hq]
    have h3 : |round64 ((d : ℚ) * pow10 (-k)) - d * pow10 (-k)| ≤ pow10 (-k) / 2 := by linarith
    have := mul_le_mul_of_nonneg_right h3 (le_of_lt hq)
    have e3 : pow10 (-k) / 2 * pow10 k = 1 / 2 := by rw [div_mul_eq_mul_div, hpq]
    linarith
  have h0 : 0 ≤ round64 (d * pow10 (-k)) := le_round64 isF64_zero (by positivity)
  have hy0 : 0 ≤ round64 (d * pow10 (-k)) * pow10 k := mul_nonneg h0 (le_of_lt hq)
  unfold candidate
  simp only []
  have apart : ∀ D : Nat, decide (round64 (D * pow10 (-k)) = round64 (d * pow10 (-k))) = decide (D = d) := by
    intro D
    by_cases h : D = d
    · subst h; simp
    · simp only [h, decide_false, decide_eq_false_iff_not]
      intro hc
      exact h (decimal_apart hd hk hc.symm)
  simp only [apart]
  generalize round64 (d * pow10 (-k)) * pow10 k = y at *
  have hf1 : ((y.floor : Int) : ℚ) ≤ y := Rat.floor_le y
  have hf2 : y < (y.floor : Int) + 1 := by have := Rat.lt_floor_add_one y; push_cast at this; exact this
  have hf0 : 0 ≤ y.floor := by
    have : (0 : ℚ) < (y.floor : Int) + 1 := lt_of_le_of_lt hy0 hf2
    have : (0 : Int) < y.floor + 1 := by exact_mod_cast this
    omega
  have hlo : ((y.floor.toNat : Nat) : Int) = y.floor := Int.toNat_of_nonneg hf0
  rw [abs_le] at hy
  have g1 : (y.floor : ℚ) < d + 1 := by linarith [hy.2]
  have g2 : (d : ℚ) < y.floor + 2 := by linarith [hy.1]
  have g1' : y.floor < d + 1 := by exact_mod_cast g1
  have g2' : (d : Int) < y.floor + 2 := by exact_mod_cast g2
  by_cases c : y.floor.toNat = d
  · have c' : ¬ d + 1 = d := by omega
    simp [c]
  · have c' : y.floor.toNat + 1 = d := by omega
    simp [c, c']

/-- There is no shorter one. -/
theorem candidate_none {d : Nat} {k k' : Int} (hd : d < 10 ^ 15) (hk : k ≤ 300) (h : k' < k) (h10 : d % 10 ≠ 0) :
    candidate (round64 (d * pow10 (-k))) k' = none := by
  cases hc : candidate (round64 (d * pow10 (-k))) k' with
  | none => rfl
  | some c =>
    exfalso
    have := candidate_good hc
    obtain ⟨n, hn⟩ := Int.le.dest (show k' + 1 ≤ k by omega)
    have e : (c : ℚ) * pow10 (-k') = ((c * 10 ^ (n + 1) : Nat) : ℚ) * pow10 (-k) := by
      have : -k' = -k + ((n + 1 : Nat) : Int) := by push_cast; omega
      rw [this, pow10_add, pow10_nat]
      push_cast; ring
    rw [e] at this
    have := decimal_apart hd hk this.symm
    rw [pow_succ, ← Nat.mul_assoc] at this
    exact h10 (by rw [← this]; exact Nat.mul_mod_left ..)

theorem shortest_eq {d : Nat} {k : Int} (hd : d < 10 ^ 15) (hk : k ≤ 300) (h10 : d % 10 ≠ 0) :
    ∀ (n : Nat) (k' : Int), k' ≤ k → k < k' + n → shortest (round64 (d * pow10 (-k))) n k' = (d, k)
  | 0, k', h1, h2 => by omega
  | n + 1, k', h1, h2 => by
    rw [shortest]
    rcases Int.lt_or_eq_of_le h1 with h | rfl
    · rw [candidate_none hd hk h h10]
      exact shortest_eq hd hk h10 n (k' + 1) (by omega) (by push_cast at h2; omega)
    · rw [candidate_eq hd hk]

theorem readDigits_lt : ∀ (s : Str) (acc v : Nat), readDigits 10 acc s = some v → v < (acc + 1) * 10 ^ s.length
  | [], acc, v, h => by simp [readDigits] at h; simp; omega
  | c :: s, acc, v, h => by
    rw [readDigits] at h
    split at h
    · rename_i d hd
      split at h
      · have := readDigits_lt s _ v h
        refine lt_of_lt_of_le this ?_
        rw [List.length_cons, pow_succ, Nat.mul_comm (10 ^ s.length) 10, ← Nat.mul_assoc]
        exact Nat.mul_le_mul_right _ (by omega)
      · cases h
    · cases h

theorem showNat_long (n : Nat) : n < 10 ^ (showNat n).length := by
  have := readDigits_lt _ _ _ (readDigits_showNat n)
  simpa using this

/-- The text of a decimal of up to 15 digits: the decimal itself. -/
theorem showMag_decimal {d : Nat} {k : Int} (hd : d < 10 ^ 15) (hk : k ≤ 300) (h10 : d % 10 ≠ 0)
    (hn : d * 10 ^ (-k).toNat < 10 ^ 15) : showMag (round64 (d * pow10 (-k))) = showDec d k := by
  have h0 : round64 (d * pow10 (-k)) ≠ 0 := by
    intro hc
    have h2 : round64 ((0 : Nat) * pow10 (-k)) = 0 := by simpa using round64_zero
    have := decimal_apart (d := 0) (D := d) (by norm_num) hk (h2.trans hc.symm)
    subst this
    exact h10 rfl
  unfold showMag
  rw [if_neg h0]
  simp only []
  rw [shortest_eq hd hk h10]
  · by_cases hk0 : 0 ≤ k
    · omega
    · obtain ⟨n, rfl⟩ : ∃ n : Nat, k = -n := ⟨(-k).toNat, by omega⟩
      have e1 : (d : ℚ) * pow10 (-(-(n : Int))) = ((d * 10 ^ n : Nat) : ℚ) := by
        rw [neg_neg, pow10_nat]; push_cast; ring
      have e2 : round64 ((d * 10 ^ n : Nat) : ℚ) = ((d * 10 ^ n : Nat) : ℚ) := by
        refine round64_of_isF64 ⟨(d * 10 ^ n : Nat), 0, ?_, by norm_num, by simp [pow2]⟩
        rw [neg_neg, Int.toNat_natCast] at hn
        have : ((d * 10 ^ n : Nat) : Int) < 10 ^ 15 := by exact_mod_cast hn
        rw [abs_of_nonneg (by positivity)]
        exact le_trans (le_of_lt this) (by norm_num)
      rw [e1, e2]
      have e3 : ((d * 10 ^ n : Nat) : ℚ).floor.toNat = d * 10 ^ n := by
        have : ((d * 10 ^ n : Nat) : ℚ).floor = ((d * 10 ^ n : Nat) : Int) := Rat.floor_intCast ((d * 10 ^ n : Nat) : Int)
        rw [this]; rfl
      rw [e3]
      have h1 := showNat_long (d * 10 ^ n)
      have hd1 : 1 ≤ d := by omega
      have h2 : 10 ^ n ≤ d * 10 ^ n := Nat.le_mul_of_pos_left _ hd1
      have h3 := (Nat.pow_lt_pow_iff_right (a := 10) (by norm_num)).1 (lt_of_le_of_lt h2 h1)
      omega
  · push_cast; omega

end Verif.Fp64
