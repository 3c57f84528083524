import Verif.Basic.Round
/-!
# Correctly rounded square root
-/

namespace Verif.Fp64

/-- How many bits after the binary point the square root is computed with. -/
def sqrtBits (x : ℚ) : Nat := 55 + (-(expo x)).toNat / 2

/-- A number that is rounded like the square root of `x`: the integer square
root of `4^k x`, in units of `2^-k`, and half a unit more when it is not exact. -/
def sqrtApprox (x : ℚ) : ℚ :=
  let k := sqrtBits x
  let s := Nat.sqrt (x * 4 ^ k).floor.toNat
  if (s : ℚ) * s = x * 4 ^ k then s / 2 ^ k else (2 * s + 1) / 2 ^ (k + 1)

/-- The square root, correctly rounded. -/
def sqrt64 (x : ℚ) : ℚ := round64 (sqrtApprox x)

theorem sqrtApprox_nonneg (x : ℚ) : 0 ≤ sqrtApprox x := by
  unfold sqrtApprox
  simp only []
  split <;> positivity

theorem isF64_pow2 {e : Int} (h : -1074 ≤ e) : IsF64 (pow2 e) := ⟨1, e, by norm_num, h, by norm_num⟩

/-- A number of the format that is at least `2^(54-k)` is a multiple of `2^(1-k)`. -/
theorem multiple_of_large {a : ℚ} (ha : IsF64 a) {k : Nat} (h : pow2 (54 - k) ≤ a) :
    ∃ z : Int, a * 2 ^ k = 2 * z := by
  obtain ⟨m, e, hm, he, rfl⟩ := ha
  have a1 : (m : ℚ) ≤ 2 ^ 53 := by
    have : m ≤ 2 ^ 53 := le_trans (le_abs_self m) hm
    exact_mod_cast this
  have a3 := mul_le_mul_of_nonneg_right a1 (le_of_lt (pow2_pos e))
  have a2 : (2 : ℚ) ^ 53 * pow2 e = pow2 (53 + e) := by
    rw [pow2_add]; norm_num [pow2]
  have h1 : pow2 (54 - k) ≤ pow2 (53 + e) := by rw [← a2]; linarith
  have h2 : (1 : Int) - k ≤ e := by
    by_contra hc
    have : pow2 (53 + e + 1) ≤ pow2 (54 - k) := pow2_mono (by omega)
    rw [pow2_add (53 + e) 1, pow2_one] at this
    have := pow2_pos (53 + e)
    linarith
  obtain ⟨n, hn⟩ := Int.le.dest h2
  refine ⟨m * 2 ^ n, ?_⟩
  have e1 : pow2 e * 2 ^ k = 2 * 2 ^ n := by
    have : pow2 e * pow2 k = pow2 1 * pow2 n := by
      rw [← pow2_add, ← pow2_add]; congr 1; omega
    rw [pow2_nat, pow2_nat, pow2_one] at this
    push_cast at this
    exact this
  push_cast
  rw [mul_assoc, e1]; ring

/-- Rounding is constant strictly between two neighbouring multiples of `2^-k`
that are at least `2^(54-k)`. -/
theorem round64_const {k : Nat} (hk : k ≤ 1128) {s : Nat} (hs : 2 ^ 54 ≤ s) {r q : ℚ} (hrq : r < q)
    (hr : (s : ℚ) < r * 2 ^ k) (hq : q * 2 ^ k < s + 1) : round64 q = round64 r := by
  by_contra hne
  have hab : round64 r < round64 q := lt_of_le_of_ne (round64_mono (le_of_lt hrq)) (fun h => hne h.symm)
  have hp : (0 : ℚ) < 2 ^ k := by positivity
  have hb : pow2 (54 - k) ≤ r := by
    have : pow2 (54 - k) * pow2 k = pow2 54 := by rw [← pow2_add]; congr 1; omega
    rw [pow2_nat] at this
    push_cast at this
    have h54 : pow2 54 = 2 ^ 54 := by norm_num [pow2]
    have hs' : (2 : ℚ) ^ 54 ≤ s := by exact_mod_cast hs
    have h3 : pow2 (54 - k) * 2 ^ k ≤ r * 2 ^ k := by rw [this, h54]; linarith
    exact le_of_mul_le_mul_right h3 hp
  have hF : IsF64 (pow2 (54 - k)) := isF64_pow2 (by omega)
  have h1 := le_round64 hF hb
  have h2 := le_round64 hF (le_trans hb (le_of_lt hrq))
  obtain ⟨z1, e1⟩ := multiple_of_large (round64_isF64 r) h1
  obtain ⟨z2, e2⟩ := multiple_of_large (round64_isF64 q) h2
  have n1 := round64_nearest r (round64_isF64 q)
  have n2 := round64_nearest q (round64_isF64 r)
  generalize round64 r = a at *
  generalize round64 q = b at *
  have m1 : r ≤ (a + b) / 2 := by
    rcases abs_cases (r - a) with ⟨e1, c1⟩ | ⟨e1, c1⟩ <;> rcases abs_cases (r - b) with ⟨e2, c2⟩ | ⟨e2, c2⟩ <;>
      rw [e1, e2] at n1 <;> linarith
  have m2 : (a + b) / 2 ≤ q := by
    rcases abs_cases (q - a) with ⟨e1, c1⟩ | ⟨e1, c1⟩ <;> rcases abs_cases (q - b) with ⟨e2, c2⟩ | ⟨e2, c2⟩ <;>
      rw [e1, e2] at n2 <;> linarith
  have hz : (a + b) / 2 * 2 ^ k = ((z1 + z2 : Int) : ℚ) := by
    push_cast
    have : (a + b) / 2 * 2 ^ k = (a * 2 ^ k + b * 2 ^ k) / 2 := by ring
    rw [this, e1, e2]; ring
  have l1 := mul_le_mul_of_nonneg_right m1 (le_of_lt hp)
  have l2 := mul_le_mul_of_nonneg_right m2 (le_of_lt hp)
  rw [hz] at l1 l2
  have c1 : ((s : Int) : ℚ) < ((z1 + z2 : Int) : ℚ) := by
    have : ((s : Int) : ℚ) = s := by simp
    rw [this]; linarith
  have c2 : ((z1 + z2 : Int) : ℚ) < ((s + 1 : Int) : ℚ) := by push_cast at l2 ⊢; linarith
  have c1' : (s : Int) < z1 + z2 := by exact_mod_cast c1
  have c2' : z1 + z2 < (s : Int) + 1 := by exact_mod_cast c2
  omega

/-- `sqrt64 x` is the square root of `x`, correctly rounded: a number below the
square root is not rounded to more, a number above it is not rounded to less. -/
theorem sqrt64_spec {x : ℚ} (hx : IsF64 x) (h0 : 0 < x) (q : ℚ) (hq : 0 ≤ q) :
    (q * q ≤ x → round64 q ≤ sqrt64 x) ∧ (x ≤ q * q → sqrt64 x ≤ round64 q) := by
  have hexp : -1074 ≤ expo x := by
    obtain ⟨m, e, hm, he, hxe⟩ := hx
    have hm1 : (1 : ℚ) ≤ m := by
      have : 0 < m := by
        by_contra hc
        have : (m : ℚ) ≤ 0 := by exact_mod_cast not_lt.1 hc
        have := mul_nonneg_of_nonpos_of_nonpos this (le_of_lt (neg_lt_zero.2 (pow2_pos e)))
        rw [hxe] at h0
        linarith
      exact_mod_cast this
    have h1 : pow2 (-1074) ≤ x := by
      refine le_trans (pow2_mono he) ?_
      rw [hxe]
      have := mul_le_mul_of_nonneg_right hm1 (le_of_lt (pow2_pos e))
      linarith
    have h2 := (expo_spec (ne_of_gt h0)).2
    rw [abs_of_pos h0] at h2
    have := pow2_lt (lt_of_le_of_lt h1 h2)
    omega
  have hk : sqrtBits x ≤ 1128 := by unfold sqrtBits; omega
  have hbits : (110 : Int) - expo x ≤ 2 * sqrtBits x + 1 ∧ (110 : Int) ≤ 2 * sqrtBits x := by
    unfold sqrtBits; omega
  have hlow := (expo_spec (ne_of_gt h0)).1
  rw [abs_of_pos h0] at hlow
  unfold sqrt64 sqrtApprox
  simp only []
  generalize sqrtBits x = k at *
  have hp : (0 : ℚ) < 2 ^ k := by positivity
  have hp4 : (4 : ℚ) ^ k = 2 ^ k * 2 ^ k := by rw [← mul_pow]; norm_num
  have hy0 : 0 ≤ x * 4 ^ k := by positivity
  have hfl1 : (((x * 4 ^ k).floor.toNat : Nat) : ℚ) ≤ x * 4 ^ k := by
    have h1 := Rat.floor_le (x * 4 ^ k)
    have h2 : 0 ≤ (x * 4 ^ k).floor := by
      have : 0 ≤ ⌊x * 4 ^ k⌋ := Int.floor_nonneg.2 hy0
      exact this
    have h3 := Int.toNat_of_nonneg h2
    have : (((x * 4 ^ k).floor.toNat : Nat) : ℚ) = (((x * 4 ^ k).floor : Int) : ℚ) := by exact_mod_cast h3
    linarith
  have hfl2 : x * 4 ^ k < ((x * 4 ^ k).floor.toNat : Nat) + 1 := by
    have h1 := Rat.lt_floor_add_one (x * 4 ^ k)
    push_cast at h1
    have h3 : (x * 4 ^ k).floor ≤ (((x * 4 ^ k).floor.toNat : Nat) : Int) := Int.self_le_toNat _
    have : (((x * 4 ^ k).floor : Int) : ℚ) ≤ ((x * 4 ^ k).floor.toNat : Nat) := by exact_mod_cast h3
    linarith
  generalize (x * 4 ^ k).floor.toNat = n at *
  have s1 : n.sqrt * n.sqrt ≤ n := Nat.sqrt_le n
  have s2 : n < (n.sqrt + 1) * (n.sqrt + 1) := Nat.lt_succ_sqrt n
  have hbig : 2 ^ 54 ≤ n.sqrt := by
    rw [Nat.le_sqrt]
    have h1 : pow2 109 ≤ x * 4 ^ k := by
      have e1 : (4 : ℚ) ^ k = pow2 (2 * k) := by
        have := pow2_nat (2 * k)
        push_cast at this
        rw [this, pow_mul]; norm_num
      have h2 : pow2 109 ≤ pow2 (expo x + 2 * k) := pow2_mono (by omega)
      rw [pow2_add] at h2
      rw [e1]
      have := mul_le_mul_of_nonneg_right hlow (le_of_lt (pow2_pos (2 * k)))
      linarith
    have h2 : pow2 109 = ((2 ^ 109 : Nat) : ℚ) := rfl
    rw [h2] at h1
    have h3 : ((2 ^ 109 : Nat) : ℚ) < ((n + 1 : Nat) : ℚ) := by push_cast at h1 ⊢; linarith
    have h4 : 2 ^ 109 < n + 1 := by exact_mod_cast h3
    norm_num at h4 ⊢
    omega
  generalize n.sqrt = s at *
  have s1' : (s : ℚ) * s ≤ x * 4 ^ k := by
    have : (s : ℚ) * s ≤ n := by exact_mod_cast s1
    linarith
  have s2' : x * 4 ^ k < (s + 1 : ℚ) * (s + 1) := by
    have h1 : n + 1 ≤ (s + 1) * (s + 1) := s2
    have : ((n : ℚ) + 1) ≤ (s + 1) * (s + 1) := by exact_mod_cast h1
    linarith
  have hs0 : (0 : ℚ) ≤ s := by positivity
  have sq : q * q * 4 ^ k = (q * 2 ^ k) * (q * 2 ^ k) := by rw [hp4]; ring
  have hqk : 0 ≤ q * 2 ^ k := by positivity
  split
  · rename_i he
    have hlt : ∀ a b : ℚ, 0 ≤ a → 0 ≤ b → a * a ≤ b * b → a ≤ b := fun a b ha hb h => by nlinarith
    constructor
    · intro h
      apply round64_mono
      rw [le_div_iff₀ hp]
      apply hlt _ _ hqk hs0
      rw [he, ← sq]
      exact mul_le_mul_of_nonneg_right h (by positivity)
    · intro h
      apply round64_mono
      rw [div_le_iff₀ hp]
      apply hlt _ _ hs0 hqk
      rw [he, ← sq]
      exact mul_le_mul_of_nonneg_right h (by positivity)
  · rename_i he
    have s1'' : (s : ℚ) * s < x * 4 ^ k := lt_of_le_of_ne s1' he
    have hr : (2 * (s : ℚ) + 1) / 2 ^ (k + 1) * 2 ^ k = s + 1 / 2 := by
      rw [pow_succ]; field_simp
    generalize (2 * (s : ℚ) + 1) / 2 ^ (k + 1) = r at *
    constructor
    · intro h
      have hq2 : q * 2 ^ k < s + 1 := by
        have h1 : q * q * 4 ^ k ≤ x * 4 ^ k := mul_le_mul_of_nonneg_right h (by positivity)
        rw [sq] at h1
        nlinarith
      by_cases c : q ≤ r
      · exact round64_mono c
      · exact le_of_eq (round64_const hk hbig (not_le.1 c) (by rw [hr]; linarith) hq2)
    · intro h
      have hq2 : (s : ℚ) < q * 2 ^ k := by
        have h1 : x * 4 ^ k ≤ q * q * 4 ^ k := mul_le_mul_of_nonneg_right h (by positivity)
        rw [sq] at h1
        nlinarith
      by_cases c : r ≤ q
      · exact round64_mono c
      · exact le_of_eq (round64_const hk hbig (not_le.1 c) hq2 (by rw [hr]; linarith))

end Verif.Fp64
