import Verif.Lemmas.Rounding
/-!
# Errors of sums, differences and radii
-/

namespace Verif.Fp64

theorem w_pos : (0 : ℚ) < pow2 (-53) := pow2_pos _

theorem w_small : pow2 (-53) ≤ 1 / 1024 := by
  have : pow2 (-53) ≤ pow2 (-10) := pow2_mono (by decide)
  have e : pow2 (-10) = 1 / 1024 := by rw [pow2_eq]; norm_num
  linarith

/-- Rounding any rational number: a relative error, or half of the smallest positive number. -/
theorem round64_abs (x : ℚ) : |round64 x - x| ≤ |x| * pow2 (-53) + pow2 (-1075) := by
  have hp := pow2_pos (-1075)
  have hx := mul_nonneg (abs_nonneg x) (le_of_lt w_pos)
  by_cases h0 : x = 0
  · subst h0; simp [round64_zero, le_of_lt hp]
  have h1 := round64_err x
  by_cases hu : ulpExp x = expo x - 52
  · have h2 := (expo_spec h0).1
    have e : pow2 (ulpExp x) / 2 = pow2 (expo x) * pow2 (-53) := by
      have h3 : pow2 (ulpExp x) = pow2 (expo x) * pow2 (-53) * pow2 1 := by
        rw [← pow2_add, ← pow2_add, hu]; congr 1; omega
      rw [h3, pow2_one]; ring
    rw [e] at h1
    have := mul_le_mul_of_nonneg_right h2 (le_of_lt (pow2_pos (-53)))
    linarith
  · have hu' : ulpExp x = -1074 := by unfold ulpExp at *; omega
    have e : pow2 (-1074) / 2 = pow2 (-1075) := by
      have h3 : pow2 (-1074) = pow2 (-1075) * pow2 1 := by rw [← pow2_add]; congr 1
      rw [h3, pow2_one]; ring
    rw [hu', e] at h1
    linarith

/-- Rounding a number that is not tiny: a relative error only. -/
theorem round64_rel_of_large {x : ℚ} (h : pow2 (-1022) ≤ x) : |round64 x - x| ≤ x * pow2 (-53) := by
  have h0 : 0 < x := lt_of_lt_of_le (pow2_pos _) h
  have h1 := round64_err x
  obtain ⟨h2, h3⟩ := expo_spec (ne_of_gt h0)
  rw [abs_of_pos h0] at h2 h3
  have h4 := pow2_lt (lt_of_le_of_lt h h3)
  have hu : ulpExp x = expo x - 52 := by unfold ulpExp; omega
  have e : pow2 (ulpExp x) / 2 = pow2 (expo x) * pow2 (-53) := by
    have h3 : pow2 (ulpExp x) = pow2 (expo x) * pow2 (-53) * pow2 1 := by
      rw [← pow2_add, ← pow2_add, hu]; congr 1; omega
    rw [h3, pow2_one]; ring
  rw [e] at h1
  exact le_trans h1 (mul_le_mul_of_nonneg_right h2 (le_of_lt (pow2_pos _)))

theorem sqrt64_zero : sqrt64 0 = 0 := by decide +kernel

/-- The square of the computed square root. -/
theorem sqrt64_sq {s : ℚ} (hs : IsF64 s) (h0 : 0 < s) :
    0 < sqrt64 s ∧ sqrt64 s * sqrt64 s ≤ s * ((1 + 2 * pow2 (-53)) * (1 + 2 * pow2 (-53))) ∧
      s * ((1 - 2 * pow2 (-53)) * (1 - 2 * pow2 (-53))) ≤ sqrt64 s * sqrt64 s := by
  have hmin : pow2 (-1074) ≤ s := by
    obtain ⟨z, hz⟩ := multiple_of_isF64 hs
    have hp := pow2_pos (-1074)
    have : (0 : ℚ) < z := by
      by_contra hc
      have := mul_nonneg_of_nonpos_of_nonpos (not_lt.1 hc) (le_of_lt (neg_lt_zero.2 hp))
      rw [hz] at h0
      linarith
    have hz1 : (1 : ℚ) ≤ z := by exact_mod_cast this
    rw [hz]
    have := mul_le_mul_of_nonneg_right hz1 (le_of_lt hp)
    linarith
  have spec := sqrt64_spec hs h0
  have hr : pow2 (-537) ≤ sqrt64 s := by
    have h1 := (spec (pow2 (-537)) (le_of_lt (pow2_pos _))).1 (by rw [← pow2_add]; exact hmin)
    rwa [round64_of_isF64 (isF64_pow2 (by decide))] at h1
  have hr0 : 0 < sqrt64 s := lt_of_lt_of_le (pow2_pos _) hr
  generalize sqrt64 s = r at *
  have w0 := w_pos
  have w1 := w_small
  have hbig : pow2 (-1022) ≤ pow2 (-537) / 2 := by
    have h3 : pow2 (-537) = pow2 (-538) * pow2 1 := by rw [← pow2_add]; congr 1
    rw [h3, pow2_one]
    have : pow2 (-1022) ≤ pow2 (-538) := pow2_mono (by decide)
    linarith
  have big : ∀ x : ℚ, pow2 (-1022) ≤ x → |round64 x - x| ≤ x * pow2 (-53) := fun x => round64_rel_of_large
  generalize pow2 (-53) = w at *
  have key1 : ¬ s ≤ r / (1 + 2 * w) * (r / (1 + 2 * w)) := by
    intro h
    have hq0 : 0 < r / (1 + 2 * w) := div_pos hr0 (by linarith)
    have hqe : r / (1 + 2 * w) * (1 + 2 * w) = r := by field_simp
    have h1 := (spec _ (le_of_lt hq0)).2 h
    generalize r / (1 + 2 * w) = q at *
    have hql : pow2 (-1022) ≤ q := by nlinarith
    have h2 := abs_le.1 (big q hql)
    nlinarith
  have key2 : ¬ r / (1 - 2 * w) * (r / (1 - 2 * w)) ≤ s := by
    intro h
    have hd : 0 < 1 - 2 * w := by linarith
    have hq0 : 0 < r / (1 - 2 * w) := div_pos hr0 hd
    have hqe : r / (1 - 2 * w) * (1 - 2 * w) = r := by field_simp
    have h1 := (spec _ (le_of_lt hq0)).1 h
    generalize r / (1 - 2 * w) = q at *
    have hql : pow2 (-1022) ≤ q := by nlinarith
    have h2 := abs_le.1 (big q hql)
    nlinarith
  refine ⟨hr0, ?_, ?_⟩
  · rw [not_le, div_mul_div_comm, div_lt_iff₀ (by nlinarith)] at key1
    exact le_of_lt key1
  · rw [not_le, div_mul_div_comm, lt_div_iff₀ (by nlinarith)] at key2
    exact le_of_lt key2

theorem t_facts : pow2 (-1075) * 4 ≤ pow2 (-530) * pow2 (-530) ∧ pow2 (-530) ≤ pow2 (-53) ∧ 0 < pow2 (-530) := by
  refine ⟨?_, pow2_mono (by decide), pow2_pos _⟩
  have h4 : pow2 2 = 4 := rfl
  rw [← pow2_add, ← h4, ← pow2_add]
  exact pow2_mono (by decide)

end Verif.Fp64

namespace Verif.Fl
open Verif.Fp64

theorem sub_err (a b : Fl) : |(Flt.sub a b).val - (a.val - b.val)| ≤ |a.val - b.val| * pow2 (-53) := by
  have h : Multiple (a.val - b.val) := by
    rw [sub_eq_add_neg]
    exact (multiple_of_isF64 a.isF64).add (multiple_of_isF64 b.isF64).neg
  exact round64_rel h

theorem add_within {A B : ℚ} {a b : Fl} (ha : |a.val| ≤ A) (hb : |b.val| ≤ B) :
    |(Flt.add a b).val - (a.val + b.val)| ≤ (A + B) * pow2 (-53) :=
  le_trans (add_err a b) (mul_le_mul_of_nonneg_right (le_trans (abs_add_le _ _) (add_le_add ha hb)) (le_of_lt w_pos))

theorem sub_within {A B : ℚ} {a b : Fl} (ha : |a.val| ≤ A) (hb : |b.val| ≤ B) :
    |(Flt.sub a b).val - (a.val - b.val)| ≤ (A + B) * pow2 (-53) :=
  le_trans (sub_err a b) (mul_le_mul_of_nonneg_right (le_trans (abs_sub _ _) (add_le_add ha hb)) (le_of_lt w_pos))

/-- Moving a sum: the offset may be added before or after. -/
theorem move_add {R : ℚ} {p c x : Fl} (hp : |p.val| ≤ R) (hc : |c.val| ≤ R) (hx : |x.val| ≤ R) :
    |(Flt.add (Flt.add p x) c).val - ((Flt.add p c).val + x.val)| ≤ R * 8 * pow2 (-53) := by
  have h1 := abs_le.1 (add_within hp hx)
  have h2 := abs_le.1 (add_within hp hc)
  have w0 := w_pos
  have w1 := w_small
  have R0 : 0 ≤ R := le_trans (abs_nonneg _) hp
  have hs : |(Flt.add p x).val| ≤ 3 * R := by
    have := abs_le.1 hp
    have := abs_le.1 hx
    exact abs_le.2 ⟨by nlinarith, by nlinarith⟩
  have h3 := abs_le.1 (add_within hs hc)
  exact abs_le.2 ⟨by nlinarith, by nlinarith⟩

/-- The same for a difference. -/
theorem move_sub {R : ℚ} {p c x : Fl} (hp : |p.val| ≤ R) (hc : |c.val| ≤ R) (hx : |x.val| ≤ R) :
    |(Flt.sub (Flt.add p x) c).val - ((Flt.sub p c).val + x.val)| ≤ R * 8 * pow2 (-53) := by
  have h1 := abs_le.1 (add_within hp hx)
  have h2 := abs_le.1 (sub_within hp hc)
  have w0 := w_pos
  have w1 := w_small
  have R0 : 0 ≤ R := le_trans (abs_nonneg _) hp
  have hs : |(Flt.add p x).val| ≤ 3 * R := by
    have := abs_le.1 hp
    have := abs_le.1 hx
    exact abs_le.2 ⟨by nlinarith, by nlinarith⟩
  have h3 := abs_le.1 (sub_within hs hc)
  exact abs_le.2 ⟨by nlinarith, by nlinarith⟩

/-- The distance as the code computes it. -/
def dist (dx dy : Fl) : Fl := Flt.sqrt (Flt.add (Flt.mul dx dx) (Flt.mul dy dy))

/-- The square of the computed distance is that of the true one, up to rounding. -/
theorem dist_sq (dx dy : Fl) : 0 ≤ (dist dx dy).val ∧
    (dist dx dy).val * (dist dx dy).val ≤
      (dx.val * dx.val + dy.val * dy.val) * ((1 + 4 * pow2 (-53)) * (1 + 4 * pow2 (-53))) + pow2 (-530) * pow2 (-530) ∧
    dx.val * dx.val + dy.val * dy.val ≤
      (dist dx dy).val * (dist dx dy).val * ((1 + 4 * pow2 (-53)) * (1 + 4 * pow2 (-53))) + pow2 (-530) * pow2 (-530) := by
  have hP := abs_le.1 (round64_abs (dx.val * dx.val))
  have hQ := abs_le.1 (round64_abs (dy.val * dy.val))
  have hP0 : 0 ≤ round64 (dx.val * dx.val) := le_round64 isF64_zero (mul_self_nonneg _)
  have hQ0 : 0 ≤ round64 (dy.val * dy.val) := le_round64 isF64_zero (mul_self_nonneg _)
  have hS := abs_le.1 (round64_rel ((multiple_of_isF64 (round64_isF64 (dx.val * dx.val))).add
    (multiple_of_isF64 (round64_isF64 (dy.val * dy.val)))))
  have hS0 : 0 ≤ round64 (round64 (dx.val * dx.val) + round64 (dy.val * dy.val)) :=
    le_round64 isF64_zero (add_nonneg hP0 hQ0)
  have hSF := round64_isF64 (round64 (dx.val * dx.val) + round64 (dy.val * dy.val))
  have e : (dist dx dy).val = sqrt64 (round64 (round64 (dx.val * dx.val) + round64 (dy.val * dy.val))) := rfl
  rw [abs_of_nonneg (mul_self_nonneg _)] at hP hQ
  rw [abs_of_nonneg (add_nonneg hP0 hQ0)] at hS
  rw [e]
  have w0 := w_pos
  have w1 := w_small
  obtain ⟨t1, -, t0⟩ := t_facts
  have e0 := pow2_pos (-1075)
  have n1 := mul_self_nonneg dx.val
  have n2 := mul_self_nonneg dy.val
  generalize round64 (round64 (dx.val * dx.val) + round64 (dy.val * dy.val)) = s at *
  generalize round64 (dx.val * dx.val) = P at *
  generalize round64 (dy.val * dy.val) = Q at *
  generalize dx.val * dx.val = a at *
  generalize dy.val * dy.val = b at *
  have up : s ≤ ((a + b) * (1 + pow2 (-53)) + 2 * pow2 (-1075)) * (1 + pow2 (-53)) := by nlinarith
  have down : ((a + b) * (1 - pow2 (-53)) - 2 * pow2 (-1075)) * (1 - pow2 (-53)) ≤ s := by nlinarith
  have hsq := fun h => sqrt64_sq hSF h
  have hn : 0 ≤ a + b := by linarith
  clear hP hQ hS
  generalize a + b = n at *
  generalize pow2 (-1075) = η at *
  generalize pow2 (-530) * pow2 (-530) = T at *
  generalize pow2 (-53) = w at *
  rcases hS0.lt_or_eq with h0 | h0
  · obtain ⟨r0, r1, r2⟩ := hsq h0
    generalize sqrt64 s = r at *
    generalize r * r = q at *
    refine ⟨le_of_lt r0, ?_, ?_⟩
    · have : s * ((1 + 2 * w) * (1 + 2 * w)) ≤
          ((n * (1 + w) + 2 * η) * (1 + w)) * ((1 + 2 * w) * (1 + 2 * w)) :=
        mul_le_mul_of_nonneg_right up (by positivity)
      have c1 : (1 + w) * (1 + w) * ((1 + 2 * w) * (1 + 2 * w)) ≤ (1 + 4 * w) * (1 + 4 * w) := by
        have : (1 + w) * (1 + 2 * w) ≤ 1 + 4 * w := by nlinarith
        have := mul_self_le_mul_self (by positivity) this
        nlinarith
      have c2 : (1 + w) * ((1 + 2 * w) * (1 + 2 * w)) ≤ 2 := by nlinarith [mul_pos w0 w0]
      nlinarith [mul_le_mul_of_nonneg_left c1 hn, mul_le_mul_of_nonneg_left c2 (le_of_lt e0)]
    · have m : n * ((1 - w) * (1 - w)) ≤ s + 2 * η := by nlinarith
      have c1 : 1 ≤ (1 - w) * (1 - w) * ((1 - 2 * w) * (1 - 2 * w)) * ((1 + 4 * w) * (1 + 4 * w)) := by
        have h : 1 ≤ (1 - w) * (1 - 2 * w) * (1 + 4 * w) := by nlinarith [mul_pos w0 w0, mul_pos w0 (mul_pos w0 w0)]
        have := mul_self_le_mul_self (by norm_num) h
        nlinarith
      have k : 0 ≤ (1 - 2 * w) * (1 - 2 * w) * ((1 + 4 * w) * (1 + 4 * w)) :=
        mul_nonneg (mul_nonneg (by linarith) (by linarith)) (by positivity)
      have d1 := mul_le_mul_of_nonneg_left c1 hn
      have d2 := mul_le_mul_of_nonneg_right m k
      have d3 := mul_le_mul_of_nonneg_right r2 (by positivity : 0 ≤ (1 + 4 * w) * (1 + 4 * w))
      have c2 : (1 - 2 * w) * (1 - 2 * w) * ((1 + 4 * w) * (1 + 4 * w)) ≤ 2 := by
        have h : (1 - 2 * w) * (1 + 4 * w) ≤ 5 / 4 := by nlinarith
        have h' : 0 ≤ (1 - 2 * w) * (1 + 4 * w) := mul_nonneg (by linarith) (by linarith)
        have := mul_self_le_mul_self h' h
        nlinarith
      have d4 := mul_le_mul_of_nonneg_left c2 (le_of_lt e0)
      nlinarith
  · rw [← h0, sqrt64_zero]
    rw [← h0] at down
    have hk : 0 ≤ n * ((1 + 4 * w) * (1 + 4 * w)) := by positivity
    have hT : 0 ≤ T := by linarith
    refine ⟨le_refl _, by linarith, ?_⟩
    have h1 : (n * (1 - w) - 2 * η) ≤ 0 := by
      by_contra hc
      have := mul_pos (not_le.1 hc) (by linarith : 0 < 1 - w)
      linarith
    nlinarith

/-- Distances of points that are close to each other are close: one direction. -/
theorem dist_le {dx dy dx' dy' : Fl} {a : ℚ} (hx : |dx'.val - dx.val| ≤ a) (hy : |dy'.val - dy.val| ≤ a) :
    (dist dx' dy').val ≤ ((dist dx dy).val * (1 + 4 * pow2 (-53)) + pow2 (-530) + 2 * a) * (1 + 4 * pow2 (-53)) +
      pow2 (-530) := by
  obtain ⟨r0, -, r2⟩ := dist_sq dx dy
  obtain ⟨q0, q1, -⟩ := dist_sq dx' dy'
  have w0 := w_pos
  obtain ⟨-, -, t0⟩ := t_facts
  have a0 : 0 ≤ a := le_trans (abs_nonneg _) hx
  generalize (dist dx dy).val = r at *
  generalize (dist dx' dy').val = q at *
  have hA : 0 ≤ 1 + 4 * pow2 (-53) := by linarith
  generalize 1 + 4 * pow2 (-53) = k at *
  generalize pow2 (-530) = t at *
  generalize dx.val = u at *
  generalize dy.val = v at *
  generalize dx'.val = u' at *
  generalize dy'.val = v' at *
  have hN : 0 ≤ r * k + t := by positivity
  have h1 : u * u + v * v ≤ (r * k + t) * (r * k + t) := by
    have : 0 ≤ r * k * t := by positivity
    nlinarith
  generalize r * k + t = N at *
  have hu : |u| ≤ N := abs_le_of_sq_le_sq (by nlinarith [mul_self_nonneg v]) hN
  have hv : |v| ≤ N := abs_le_of_sq_le_sq (by nlinarith [mul_self_nonneg u]) hN
  have hu' : u' * u' ≤ u * u + 2 * a * N + a * a := by
    have e : u' = u + (u' - u) := by ring
    have h2 : u * (u' - u) ≤ N * a := by
      refine le_trans (le_abs_self _) ?_
      rw [abs_mul]
      exact mul_le_mul hu hx (abs_nonneg _) hN
    have h3 : (u' - u) * (u' - u) ≤ a * a := by
      have := mul_self_le_mul_self (abs_nonneg _) hx
      rwa [abs_mul_abs_self] at this
    nlinarith
  have hv' : v' * v' ≤ v * v + 2 * a * N + a * a := by
    have h2 : v * (v' - v) ≤ N * a := by
      refine le_trans (le_abs_self _) ?_
      rw [abs_mul]
      exact mul_le_mul hv hy (abs_nonneg _) hN
    have h3 : (v' - v) * (v' - v) ≤ a * a := by
      have := mul_self_le_mul_self (abs_nonneg _) hy
      rwa [abs_mul_abs_self] at this
    nlinarith
  have h4 : u' * u' + v' * v' ≤ (N + 2 * a) * (N + 2 * a) := by nlinarith
  have h5 := mul_le_mul_of_nonneg_right h4 (by positivity : 0 ≤ k * k)
  have h6 : 0 ≤ (N + 2 * a) * k := by positivity
  have h7 : q * q ≤ ((N + 2 * a) * k + t) * ((N + 2 * a) * k + t) := by
    have : 0 ≤ (N + 2 * a) * k * t := by positivity
    nlinarith
  exact (mul_self_le_mul_self_iff q0 (by positivity)).2 h7

/-- How large a computed distance can be. -/
theorem dist_size {dx dy : Fl} {D : ℚ} (hx : |dx.val| ≤ D) (hy : |dy.val| ≤ D) :
    (dist dx dy).val ≤ D * (7 / 4) + pow2 (-530) := by
  obtain ⟨r0, r1, -⟩ := dist_sq dx dy
  have w0 := w_pos
  have w1 := w_small
  obtain ⟨-, -, t0⟩ := t_facts
  have D0 : 0 ≤ D := le_trans (abs_nonneg _) hx
  have h1 := mul_self_le_mul_self (abs_nonneg _) hx
  have h2 := mul_self_le_mul_self (abs_nonneg _) hy
  rw [abs_mul_abs_self] at h1 h2
  have a0 := mul_self_nonneg dx.val
  have b0 := mul_self_nonneg dy.val
  generalize (dist dx dy).val = r at *
  have k2 : (1 + 4 * pow2 (-53)) * (1 + 4 * pow2 (-53)) ≤ 3 / 2 := by nlinarith
  generalize (1 + 4 * pow2 (-53)) * (1 + 4 * pow2 (-53)) = k at *
  generalize pow2 (-530) = t at *
  generalize dx.val * dx.val = a at *
  generalize dy.val * dy.val = b at *
  have h3 : (a + b) * k ≤ 2 * (D * D) * (3 / 2) :=
    le_trans (mul_le_mul_of_nonneg_left k2 (by linarith)) (by nlinarith)
  refine (mul_self_le_mul_self_iff r0 (by positivity)).2 ?_
  nlinarith [mul_nonneg D0 (le_of_lt t0), mul_self_nonneg D]

/-- The difference of two moved numbers. -/
theorem move_diff {R : ℚ} {c e x : Fl} (hc : |c.val| ≤ R) (he : |e.val| ≤ R) (hx : |x.val| ≤ R) :
    |(Flt.sub (Flt.add c x) (Flt.add e x)).val - (Flt.sub c e).val| ≤ R * 12 * pow2 (-53) ∧
    |(Flt.sub c e).val| ≤ R * (5 / 2) ∧ |(Flt.sub (Flt.add c x) (Flt.add e x)).val| ≤ R * (5 / 2) := by
  have R0 : 0 ≤ R := le_trans (abs_nonneg _) hc
  have f2 : R * pow2 (-53) ≤ R * (1 / 1024) := mul_le_mul_of_nonneg_left w_small R0
  have f0 : 0 ≤ R * pow2 (-53) := mul_nonneg R0 (le_of_lt w_pos)
  have e1 := abs_le.1 (add_within hc hx)
  have e2 := abs_le.1 (add_within he hx)
  have c' := abs_le.1 hc
  have e' := abs_le.1 he
  have x' := abs_le.1 hx
  have s1 : |(Flt.add c x).val| ≤ 3 * R := abs_le.2 ⟨by linarith, by linarith⟩
  have s2 : |(Flt.add e x).val| ≤ 3 * R := abs_le.2 ⟨by linarith, by linarith⟩
  have e3 := abs_le.1 (sub_within hc he)
  have e4 := abs_le.1 (sub_within s1 s2)
  have f1 : |(Flt.sub (Flt.add c x) (Flt.add e x)).val - (Flt.sub c e).val| ≤ R * 12 * pow2 (-53) :=
    abs_le.2 ⟨by linarith, by linarith⟩
  have f1' := abs_le.1 f1
  exact ⟨f1, abs_le.2 ⟨by linarith, by linarith⟩, abs_le.2 ⟨by linarith, by linarith⟩⟩

/-- A circle that is moved: its radius is computed anew. -/
theorem move_dist {R : ℚ} {cx cy ex ey x y : Fl} (h1 : |cx.val| ≤ R) (h2 : |cy.val| ≤ R) (h3 : |ex.val| ≤ R)
    (h4 : |ey.val| ≤ R) (h5 : |x.val| ≤ R) (h6 : |y.val| ≤ R) :
    |(dist (Flt.sub (Flt.add cx x) (Flt.add ex x)) (Flt.sub (Flt.add cy y) (Flt.add ey y))).val -
      (dist (Flt.sub cx ex) (Flt.sub cy ey)).val| ≤ (R + 1) * 80 * pow2 (-53) ∧
    |(dist (Flt.sub cx ex) (Flt.sub cy ey)).val| ≤ 5 * R + 1 ∧
    |(dist (Flt.sub (Flt.add cx x) (Flt.add ex x)) (Flt.sub (Flt.add cy y) (Flt.add ey y))).val| ≤ 5 * R + 1 := by
  have R0 : 0 ≤ R := le_trans (abs_nonneg _) h1
  have w0 := w_pos
  have w1 := w_small
  obtain ⟨-, t1, t0⟩ := t_facts
  obtain ⟨x1, x2, x3⟩ := move_diff h1 h3 h5
  obtain ⟨y1, y2, y3⟩ := move_diff h2 h4 h6
  have d1 := dist_le x1 y1
  have d2 := dist_le (le_of_eq_of_le (abs_sub_comm _ _) x1) (le_of_eq_of_le (abs_sub_comm _ _) y1)
  have z1 := dist_size x2 y2
  have z2 := dist_size x3 y3
  have p1 := (dist_sq (Flt.sub cx ex) (Flt.sub cy ey)).1
  have p2 := (dist_sq (Flt.sub (Flt.add cx x) (Flt.add ex x)) (Flt.sub (Flt.add cy y) (Flt.add ey y))).1
  generalize (dist (Flt.sub cx ex) (Flt.sub cy ey)).val = r at *
  generalize (dist (Flt.sub (Flt.add cx x) (Flt.add ex x)) (Flt.sub (Flt.add cy y) (Flt.add ey y))).val = q at *
  clear x1 x2 x3 y1 y2 y3
  generalize pow2 (-530) = t at *
  generalize pow2 (-53) = w at *
  have step : ∀ r q : ℚ, 0 ≤ r → r ≤ R * (5 / 2) * (7 / 4) + t →
      q ≤ (r * (1 + 4 * w) + t + 2 * (R * 12 * w)) * (1 + 4 * w) + t → q - r ≤ (R + 1) * 80 * w := by
    intro r q r0 hr hq
    have ww : w * w ≤ w * (1 / 1024) := mul_le_mul_of_nonneg_left w1 (le_of_lt w0)
    have a1 : r * (w * w) ≤ r * (w * (1 / 1024)) := mul_le_mul_of_nonneg_left ww r0
    have a2 : R * (w * w) ≤ R * (w * (1 / 1024)) := mul_le_mul_of_nonneg_left ww R0
    have a3 : r * w ≤ (R * (5 / 2) * (7 / 4) + t) * w := mul_le_mul_of_nonneg_right hr (le_of_lt w0)
    have a4 : t * w ≤ t * (1 / 1024) := mul_le_mul_of_nonneg_left w1 (le_of_lt t0)
    have a5 : 0 ≤ R * w := by positivity
    nlinarith
  have b1 := step r q p1 z1 d1
  have b2 := step q r p2 z2 d2
  refine ⟨abs_le.2 ⟨by linarith, b1⟩, ?_, ?_⟩
  · rw [abs_of_nonneg p1]; linarith
  · rw [abs_of_nonneg p2]; linarith

end Verif.Fl
