import Verif.Lemmas.PlainNumbers
import Verif.Lemmas.Convert
import Verif.Spec.Coord
/-!
# Whole numbers of nanometres in binary64
-/

namespace Verif
open Spec Fp64

theorem showNat_front (n : Nat) : (showNat n).head? = some '0' → showNat n = str! "0" := by
  induction n using Nat.strong_induction_on with
  | _ n ih =>
    intro h
    by_cases hn : n < 10
    · have : ∀ n < 10, (showNat n).head? = some '0' → showNat n = str! "0" := by decide
      exact this n hn h
    · exfalso
      have e : n = 10 * (n / 10) + n % 10 := by omega
      rw [e, showNat_digit _ _ (by omega) (by omega), List.head?_append_of_ne_nil _ (showNat_ne_nil _)] at h
      have h2 := ih (n / 10) (by omega) h
      have h3 := readDigits_showNat (n / 10)
      rw [h2] at h3
      have h4 : readDigits 10 0 (str! "0") = some 0 := by decide
      rw [h4] at h3
      have := Option.some.inj h3
      omega

theorem decimal_of_read {w : Str} {n : Nat} (hw : w ≠ []) (h : readDigits 10 0 w = some n) : Decimal w n := by
  rw [← readBase_iff]
  unfold readBase
  rw [if_neg (by simpa using hw), h]

theorem digits6_pad (r : Nat) : Nm.digits6 r = padDigits 6 r := by
  simp [Nm.digits6, padDigits]

theorem readDigits_zeros : ∀ (k d : Nat), readDigits 10 d (List.replicate k '0') = some (d * 10 ^ k)
  | 0, d => by simp [readDigits]
  | k + 1, d => by
    have h0 : digitVal? '0' = some 0 := by decide
    rw [List.replicate_succ, readDigits, h0]
    simp only [Nat.add_zero]
    rw [if_pos (by norm_num), readDigits_zeros k, pow_succ]
    congr 1; ring

theorem stripZeros_last (s : Str) : (Nm.stripZeros s).getLast? ≠ some '0' := by
  unfold Nm.stripZeros
  rw [List.getLast?_reverse]
  intro h
  have := List.head?_dropWhile_not (p := fun c : Char => c == '0') (l := s.reverse)
  rw [h] at this
  simp at this

/-- The text of a number of nanometres is a plain number. -/
theorem showAbs_plain (n : Nat) (hn : n < 10 ^ 15) : ∃ i f d, PlainDigits i f d ∧ Nm.showAbs n = withPoint i f ∧
    (n : ℚ) / 10 ^ 6 = d / 10 ^ f.length ∧ (n = 0 ↔ d = 0) := by
  unfold Nm.showAbs
  by_cases hr : n % 1000000 = 0
  · refine ⟨showNat (n / 1000000), [], n / 1000000, ⟨?_, showNat_ne_nil _, showNat_front _, by simp, by omega, by simp⟩, ?_, ?_, by omega⟩
    · rw [List.append_nil]
      exact decimal_of_read (showNat_ne_nil _) (readDigits_showNat _)
    · simp [hr, withPoint]
    · obtain ⟨m, rfl⟩ : ∃ m, n = 1000000 * m := ⟨n / 1000000, by omega⟩
      rw [Nat.mul_div_cancel_left _ (by norm_num)]
      push_cast
      simp only [List.length_nil, pow_zero, div_one]
      rw [mul_comm, mul_div_assoc]
      norm_num
  · rw [if_neg hr]
    set f := Nm.stripZeros (Nm.digits6 (n % 1000000)) with hf
    have happ := Nm.stripZeros_append (Nm.digits6 (n % 1000000))
    rw [← hf] at happ
    have hlen6 : (Nm.digits6 (n % 1000000)).length = 6 := rfl
    rw [hlen6] at happ
    have hfl : f.length ≤ 6 := by
      have := congrArg List.length happ
      rw [List.length_append, List.length_replicate, hlen6] at this
      omega
    have hread : readDigits 10 0 (showNat (n / 1000000) ++ (f ++ List.replicate (6 - f.length) '0')) = some n := by
      rw [happ, Fp64.readDigits_append _ _ _ (readDigits_showNat _), digits6_pad, readDigits_pad]
      congr 1
      norm_num
      omega
    have hdec := decimal_of_read (by simp [showNat_ne_nil]) hread
    rw [← List.append_assoc] at hdec
    have hfront := decimal_front (i := showNat (n / 1000000) ++ f) (by simp [showNat_ne_nil]) hdec
    rw [List.length_replicate] at hfront
    set k := 6 - f.length with hk
    have hnk : n = n / 10 ^ k * 10 ^ k := by
      have h1 := decimal_read hfront
      have h2 := decimal_read hdec
      rw [Fp64.readDigits_append _ _ _ h1, readDigits_zeros] at h2
      exact (Option.some.inj h2).symm
    have hfne : f ≠ [] := by
      intro e
      rw [e] at hk
      rw [hk] at hnk
      simp only [List.length_nil, Nat.sub_zero] at hnk
      omega
    have hle : n / 10 ^ k ≤ n := Nat.div_le_self _ _
    refine ⟨showNat (n / 1000000), f, n / 10 ^ k, ⟨hfront, showNat_ne_nil _, showNat_front _, stripZeros_last _, by omega, by omega⟩, ?_, ?_, ?_⟩
    · simp [withPoint, hfne]
    · have h6 : 6 = f.length + k := by omega
      rw [h6, pow_add]
      have hq : (n : ℚ) = ((n / 10 ^ k : ℕ) : ℚ) * 10 ^ k := by exact_mod_cast hnk
      rw [hq]
      have : (10 : ℚ) ^ k ≠ 0 := by positivity
      have : (10 : ℚ) ^ f.length ≠ 0 := by positivity
      field_simp
    · constructor
      · rintro rfl
        simp
      · intro e
        rw [e] at hnk
        simpa using hnk

namespace Coord

theorem plain (c : Coord) : PlainNumber (Nm.toStr c.exact) c.value := by
  obtain ⟨n, h1, h2⟩ := c
  unfold Nm.toStr exact value
  dsimp only
  cases n with
  | ofNat m =>
    obtain ⟨i, f, d, hp, hs, hv, -⟩ := showAbs_plain m (by simp at h2; omega)
    simp only [hs]
    have : ((Int.ofNat m : Int) : ℚ) / 10 ^ 6 = d / 10 ^ f.length := by rw [← hv]; simp
    rw [this]
    exact .pos hp
  | negSucc m =>
    obtain ⟨i, f, d, hp, hs, hv, h0⟩ := showAbs_plain (m + 1) (by omega)
    simp only [hs]
    have : ((Int.negSucc m : Int) : ℚ) / 10 ^ 6 = -(d / 10 ^ f.length) := by
      rw [← hv]; push_cast; ring
    rw [this]
    exact .neg hp (by omega)

theorem value_abs (c : Coord) : |c.value| < 10 ^ 9 := by
  obtain ⟨n, h1, h2⟩ := c
  unfold value
  dsimp only
  have h3 : (n : ℚ) < 1000000000000000 := by exact_mod_cast h2
  have h4 : (-1000000000000000 : ℚ) < n := by exact_mod_cast h1
  rw [abs_lt]
  constructor
  · rw [lt_div_iff₀ (by norm_num)]; linarith
  · rw [div_lt_iff₀ (by norm_num)]; linarith

theorem round_abs (c : Coord) : |round64 c.value| ≤ pow2 30 := by
  have h := abs_lt.1 (value_abs c)
  have hp : IsF64 (pow2 30) := ⟨1, 30, by norm_num, by norm_num, by norm_num⟩
  have e : (10 : ℚ) ^ 9 ≤ pow2 30 := by rw [pow2_eq]; norm_num
  rw [abs_le]
  exact ⟨le_round64 (isF64_neg hp) (by linarith), round64_le hp (by linarith)⟩

theorem near_fin (c : Coord) : ∃ hb, c.near = .fin (Fl.of c.value) hb := by
  have hb : |(Fl.of c.value).val| < pow2 1024 := by
    refine lt_of_le_of_lt (round_abs c) ?_
    simp only [pow2_eq]
    exact zpow_lt_zpow_right₀ (by norm_num) (by norm_num)
  exact ⟨hb, F64.of_of hb⟩

theorem text (c : Coord) : Flt.toStr c.exact = Flt.toStr c.near := (F64.toStr_plain (plain c)).symm

/-- The origin. -/
def origin : Coord := ⟨0, by norm_num, by norm_num⟩

theorem exact_origin : origin.exact = Flt.zero := by
  apply Nm.ext_n
  rw [Nm.zero_n]; rfl

theorem near_origin : origin.near = Flt.zero := by
  show F64.of _ = F64.of _
  simp [value, origin]

theorem eq_of_near {a b : Coord} (h : a.near = b.near) : a = b := by
  have h1 : Flt.toStr a.exact = Flt.toStr b.exact := by rw [text, text, h]
  have h2 : a.exact = b.exact := by
    have := congrArg (Flt.ofStr (F := Nm)) h1
    rw [Flt.TextLaws.ofStr_toStr, Flt.TextLaws.ofStr_toStr] at this
    exact Option.some.inj this
  exact Subtype.ext (congrArg Nm.n h2)

theorem isZero_iff (c : Coord) : Flt.feq c.near Flt.zero = true ↔ c = origin := by
  rw [Flt.ZeroLaws.feq_zero, ← near_origin]
  exact ⟨eq_of_near, fun e => e ▸ rfl⟩

theorem round_zero (c : Coord) (h : round64 c.value = 0) : c.1 = 0 := by
  have : c = origin := by
    apply eq_of_near
    obtain ⟨h1, e1⟩ := near_fin c
    obtain ⟨h2, e2⟩ := near_fin origin
    rw [e1, e2]
    apply F64.fin_ext
    show round64 _ = round64 _
    rw [h]
    simp [value, origin, round64_zero]
  rw [this]; rfl

theorem pos_iff (c : Coord) : Flt.lt Flt.zero c.near = true ↔ 0 < c.1 := by
  obtain ⟨hb, e⟩ := near_fin c
  rw [e, F64.zero_eq]
  show decide ((round64 0 : ℚ) < round64 c.value) = true ↔ _
  rw [decide_eq_true_iff, round64_zero]
  constructor
  · intro h
    by_contra hn
    have : c.value ≤ 0 := by
      unfold value
      apply div_nonpos_of_nonpos_of_nonneg _ (by norm_num)
      exact_mod_cast not_lt.1 hn
    have := round64_mono this
    rw [round64_zero] at this
    linarith
  · intro h
    have : 0 ≤ c.value := by
      unfold value
      apply div_nonneg _ (by norm_num)
      exact_mod_cast le_of_lt h
    have h1 := round64_mono this
    rw [round64_zero] at h1
    refine lt_of_le_of_ne h1 (fun e => ?_)
    have := round_zero c e.symm
    omega

theorem round_err (c : Coord) : |round64 c.value - c.value| ≤ 1 / 8000000 := by
  have h := round64_abs c.value
  have h1 : |c.value| * pow2 (-53) ≤ 10 ^ 9 * pow2 (-53) :=
    mul_le_mul_of_nonneg_right (le_of_lt (value_abs c)) (le_of_lt (pow2_pos _))
  have h2 : (10 : ℚ) ^ 9 * pow2 (-53) ≤ 1 / 9000000 := by rw [pow2_eq]; norm_num
  have h3 : pow2 (-1075) ≤ pow2 (-53) := pow2_mono (by norm_num)
  have h4 : pow2 (-53) ≤ 1 / 9000000000 := by rw [pow2_eq]; norm_num
  have h5 : (1 : ℚ) / 9000000 + 1 / 9000000000 ≤ 1 / 8000000 := by norm_num
  linarith

theorem value_apart {a b : Coord} (h : a.1 < b.1) : 1 / 1000000 ≤ b.value - a.value := by
  unfold value
  rw [← sub_div, div_le_div_iff₀ (by norm_num) (by norm_num)]
  have : (a.1 : ℚ) + 1 ≤ b.1 := by exact_mod_cast h
  linarith

theorem round_apart {a b : Coord} (h : a.1 < b.1) : pow2 (-21) ≤ round64 b.value - round64 a.value := by
  have h1 := abs_le.1 (round_err a)
  have h2 := abs_le.1 (round_err b)
  have h3 := value_apart h
  have h4 : pow2 (-21) ≤ 1 / 2000000 := by rw [pow2_eq]; norm_num
  have h5 : (1 : ℚ) / 2000000 ≤ 1 / 1000000 - 1 / 8000000 - 1 / 8000000 := by norm_num
  linarith

theorem isF64_pow2 (e : Int) (h : -1074 ≤ e) : IsF64 (pow2 e) := ⟨1, e, by norm_num, h, by norm_num⟩

theorem pow2_strict {a b : Int} (h : a < b) : pow2 a < pow2 b := by
  simp only [pow2_eq]; exact zpow_lt_zpow_right₀ (by norm_num) h

theorem eps_fin (hb : |(Fl.of (pow2 (-52))).val| < pow2 1024) : (Flt.eps : F64) = F64.fin (Fl.of (pow2 (-52))) hb :=
  F64.of_of hb

theorem eps_val : (Fl.of (pow2 (-52))).val = pow2 (-52) := round64_of_isF64 (isF64_pow2 _ (by norm_num))

theorem abs_val (x : Fl) : (Fl.of |x.val|).val = |x.val| := by
  show round64 _ = _
  rcases abs_cases x.val with ⟨e, -⟩ | ⟨e, -⟩
  · rw [e]; exact x.ok
  · rw [e, round64_neg, x.ok]

theorem abs_fin (x : Fl) (h) (hb : |(Fl.of |x.val|).val| < pow2 1024) : Flt.abs (F64.fin x h) = F64.fin (Fl.of |x.val|) hb :=
  F64.of_of hb

theorem lt_fin (a b : Fl) (ha hb) : Flt.lt (F64.fin a ha) (F64.fin b hb) = decide (a.val < b.val) := rfl

theorem lt_eps_abs (x : Fl) (h) : Flt.lt Flt.eps (Flt.abs (F64.fin x h)) = decide (pow2 (-52) < |x.val|) := by
  have h1 : |(Fl.of (pow2 (-52))).val| < pow2 1024 := by
    rw [eps_val, abs_of_pos (pow2_pos _)]
    exact pow2_strict (by norm_num)
  have h2 : |(Fl.of |x.val|).val| < pow2 1024 := by
    rw [abs_val, abs_abs]; exact h
  rw [eps_fin h1, abs_fin x h h2, lt_fin, eps_val, abs_val]

theorem sub_small (a b : Coord) : |(Flt.sub (Fl.of a.value) (Fl.of b.value)).val| < pow2 1024 := by
  have hp := isF64_pow2 31 (by norm_num)
  have h31 : pow2 31 = pow2 30 + pow2 30 := by simp only [pow2_eq]; norm_num
  have h1 := abs_le.1 (round_abs a)
  have h2 := abs_le.1 (round_abs b)
  refine lt_of_le_of_lt ?_ (pow2_strict (show (31 : Int) < 1024 by norm_num))
  show |round64 (round64 a.value - round64 b.value)| ≤ _
  rw [abs_le]
  exact ⟨le_round64 (isF64_neg hp) (by linarith), round64_le hp (by linarith)⟩

theorem apart_iff (a b : Coord) : Flt.lt Flt.eps (Flt.abs (Flt.sub a.near b.near)) = true ↔ a.1 ≠ b.1 := by
  obtain ⟨ha, ea⟩ := near_fin a
  obtain ⟨hb, eb⟩ := near_fin b
  have hd : (Flt.sub (Fl.of a.value) (Fl.of b.value)).val = round64 (round64 a.value - round64 b.value) := rfl
  rw [ea, eb, F64.sub_fin _ _ _ _ (sub_small a b), lt_eps_abs, decide_eq_true_iff, hd]
  have h21 := isF64_pow2 (-21) (by norm_num)
  constructor
  · intro h e
    have : a = b := Subtype.ext e
    rw [this, sub_self, round64_zero, abs_zero] at h
    exact absurd h (not_lt.2 (le_of_lt (pow2_pos _)))
  · intro h
    refine lt_of_lt_of_le (pow2_strict (show (-52 : Int) < -21 by norm_num)) ?_
    rcases lt_or_gt_of_ne h with h | h
    · have := round_apart h
      have h2 : round64 (round64 a.value - round64 b.value) ≤ -pow2 (-21) := round64_le (isF64_neg h21) (by linarith)
      exact le_abs.2 (.inr (by linarith))
    · have := round_apart h
      exact le_abs.2 (.inl (le_round64 h21 (by linarith)))

theorem exact_injective : Function.Injective exact := fun _ _ e => Subtype.ext (congrArg Nm.n e)

/-- Exact numbers and `f64`s are written alike. -/
theorem alike : Alike exact near where
  text := text
  isZero c := by
    rw [Bool.eq_iff_iff, isZero_iff, Flt.ZeroLaws.feq_zero, ← exact_origin]
    exact ⟨fun e => Subtype.ext (congrArg Nm.n e), fun e => e ▸ rfl⟩
  pos c := by
    rw [Bool.eq_iff_iff, pos_iff]
    show decide ((Flt.zero : Nm).n < c.1) = true ↔ _
    rw [Nm.zero_n, decide_eq_true_iff]
  apart a b := by
    rw [Bool.eq_iff_iff, apart_iff]
    show decide ((0 : Int) < ((a.1 - b.1).natAbs : Int)) = true ↔ _
    rw [decide_eq_true_iff]
    omega

end Coord

end Verif
