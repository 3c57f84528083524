import Verif.Basic.Fl
/-!
# Rounding errors
-/

namespace Verif.Fp64

/-- The error of rounding is at most half a unit in the last place. -/
theorem round64_err (x : ℚ) : |round64 x - x| ≤ pow2 (ulpExp x) / 2 := by
  have hp := pow2_pos (ulpExp x)
  have h := rne_half (x / pow2 (ulpExp x))
  have : |round64 x - x| = |x / pow2 (ulpExp x) - rne (x / pow2 (ulpExp x))| * pow2 (ulpExp x) := by
    rw [abs_sub_comm, round64]
    conv_rhs => rw [← abs_of_pos hp, ← abs_mul, abs_of_pos hp]
    congr 1
    field_simp
  rw [this]
  have := mul_le_mul_of_nonneg_right h (le_of_lt hp)
  linarith

/-- A multiple of the smallest positive number. -/
def Multiple (x : ℚ) : Prop := ∃ z : Int, x = z * pow2 (-1074)

theorem multiple_of_isF64 {x : ℚ} (h : IsF64 x) : Multiple x := by
  obtain ⟨m, e, -, he, rfl⟩ := h
  obtain ⟨n, hn⟩ := Int.le.dest he
  refine ⟨m * 2 ^ n, ?_⟩
  have : pow2 e = pow2 (-1074) * pow2 n := by rw [← pow2_add, hn]
  rw [this, pow2_nat]
  push_cast
  ring

theorem Multiple.add {x y : ℚ} (hx : Multiple x) (hy : Multiple y) : Multiple (x + y) := by
  obtain ⟨a, rfl⟩ := hx
  obtain ⟨b, rfl⟩ := hy
  exact ⟨a + b, by push_cast; ring⟩

theorem Multiple.neg {x : ℚ} (hx : Multiple x) : Multiple (-x) := by
  obtain ⟨a, rfl⟩ := hx
  exact ⟨-a, by push_cast; ring⟩

/-- Rounding a sum of numbers of the format has a relative error of at most 2^-53. -/
theorem round64_rel {x : ℚ} (h : Multiple x) : |round64 x - x| ≤ |x| * pow2 (-53) := by
  by_cases h0 : x = 0
  · subst h0; simp [round64_zero]
  by_cases hu : ulpExp x = expo x - 52
  · have h1 := round64_err x
    have h2 := (expo_spec h0).1
    have e : pow2 (ulpExp x) / 2 = pow2 (expo x) * pow2 (-53) := by
      have h3 : pow2 (ulpExp x) = pow2 (expo x) * pow2 (-53) * pow2 1 := by
        rw [← pow2_add, ← pow2_add, hu]; congr 1; omega
      rw [h3, pow2_one]; ring
    rw [e] at h1
    exact le_trans h1 (mul_le_mul_of_nonneg_right h2 (le_of_lt (pow2_pos _)))
  · have hu' : ulpExp x = -1074 := by unfold ulpExp at *; omega
    obtain ⟨z, hz⟩ := h
    have hp := pow2_pos (-1074)
    have : round64 x = x := by
      unfold round64
      rw [hu']
      have : x / pow2 (-1074) = (z : ℚ) := by rw [hz]; field_simp
      rw [this, rne_int, ← hz]
    rw [this, sub_self, abs_zero]
    exact mul_nonneg (abs_nonneg _) (le_of_lt (pow2_pos _))

end Verif.Fp64

namespace Verif.Fl
open Verif.Fp64

/-- The value of a sum: exact up to a relative error of 2^-53. -/
theorem add_err (a b : Fl) : |(Flt.add a b).val - (a.val + b.val)| ≤ |a.val + b.val| * pow2 (-53) :=
  round64_rel ((multiple_of_isF64 a.isF64).add (multiple_of_isF64 b.isF64))

theorem neg_val (a : Fl) : (Flt.neg a).val = -a.val := by
  show round64 (-a.val) = -a.val
  rw [round64_neg, a.ok]

/-- Adding and taking away again: the error. -/
theorem add_back_err (a d : Fl) :
    |(Flt.add (Flt.add a d) (Flt.neg d)).val - a.val| ≤ (|a.val| + |d.val|) * pow2 (-51) := by
  have h1 := add_err a d
  have h2 := add_err (Flt.add a d) (Flt.neg d)
  rw [neg_val] at h2
  generalize (Flt.add a d).val = s at *
  generalize (Flt.add (Flt.add a d) (Flt.neg d)).val = t at *
  have u : (0 : ℚ) < pow2 (-53) := pow2_pos _
  have u1 : pow2 (-53) ≤ 1 := pow2_mono (a := -53) (b := 0) (by decide)
  have e51 : pow2 (-51) = 4 * pow2 (-53) := by
    rw [show (-51 : Int) = 2 + -53 by norm_num, pow2_add]; rfl
  rw [e51]
  generalize pow2 (-53) = w at *
  have t1 : |a.val + d.val| ≤ |a.val| + |d.val| := abs_add_le _ _
  have t2 : |s - d.val| ≤ |s - (a.val + d.val)| + |a.val| := by
    have := abs_add_le (s - (a.val + d.val)) a.val
    have e : s - (a.val + d.val) + a.val = s - d.val := by ring
    rwa [e] at this
  have t3 : |t - a.val| ≤ |t - (s + -d.val)| + |s - (a.val + d.val)| := by
    have := abs_add_le (t - (s + -d.val)) (s - (a.val + d.val))
    have e : t - (s + -d.val) + (s - (a.val + d.val)) = t - a.val := by ring
    rwa [e] at this
  have e : s + -d.val = s - d.val := by ring
  rw [e] at h2 t3
  have a0 : 0 ≤ |a.val| := abs_nonneg _
  have d0 : 0 ≤ |d.val| := abs_nonneg _
  generalize |a.val| = A at *
  generalize |d.val| = D at *
  generalize |a.val + d.val| = S at *
  generalize |s - (a.val + d.val)| = E at *
  generalize |s - d.val| = G at *
  have h3 : E ≤ (A + D) * w := le_trans h1 (mul_le_mul_of_nonneg_right t1 (le_of_lt u))
  have h4 : E ≤ A + D := le_trans h3 (by nlinarith)
  have h5 : G * w ≤ (2 * A + D) * w := mul_le_mul_of_nonneg_right (by linarith) (le_of_lt u)
  nlinarith

end Verif.Fl
