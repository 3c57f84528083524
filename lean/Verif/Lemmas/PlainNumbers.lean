import Verif.Lemmas.Digits
import Verif.Lemmas.Numerals
import Verif.Spec.PlainNumbers
/-!
# Plain numbers read and write back
-/

namespace Verif.Fp64
open Verif Spec

theorem readDigits_div : ∀ (f : Str) (acc d : Nat), readDigits 10 acc f = some d → d / 10 ^ f.length = acc
  | [], acc, d, h => by
    simp only [readDigits, Option.some.injEq] at h
    subst h; simp
  | c :: f, acc, d, h => by
    simp only [readDigits] at h
    split at h
    · rename_i v hv
      split at h
      · rename_i hlt
        have := readDigits_div f _ d h
        rw [List.length_cons, pow_succ, ← Nat.div_div_eq_div_mul, this]
        omega
      · cases h
    · cases h

theorem digitChar_val {c : Char} {v : Nat} (h : digitVal? c = some v) (hv : v < 10) : digitChar v = c := by
  have h1 := (digit_iff c v).1 ⟨h, hv⟩
  have h2 : ∀ v < 10, digits[v]? = some (digitChar v) := by decide
  rw [h2 v hv] at h1
  exact Option.some.inj h1

theorem padDigits_read : ∀ (f : Str) (acc d : Nat), readDigits 10 acc f = some d → padDigits f.length d = f
  | [], _, _, _ => rfl
  | c :: f, acc, d, h => by
    have h' := h
    simp only [readDigits] at h
    split at h
    · rename_i v hv
      split at h
      · rename_i hlt
        have h1 := readDigits_div f _ d h
        have h2 := padDigits_read f _ d h
        rw [List.length_cons, padDigits, h1, h2, show (acc * 10 + v) % 10 = v by omega, digitChar_val hv hlt]
      · cases h
    · cases h

theorem decimal_read {w : Str} {n : Nat} (h : Decimal w n) : readDigits 10 0 w = some n := by
  have := (readBase_iff w n).2 h
  unfold readBase at this
  split at this
  · cases this
  · exact this

theorem decimal_pos {w : Str} {n : Nat} (h : Decimal w n) (h0 : w.head? ≠ some '0') : 0 < n := by
  induction h with
  | @one c d h =>
    rcases Nat.eq_zero_or_pos d with rfl | hd
    · exfalso
      apply h0
      have : digits[0]? = some '0' := by decide
      rw [this] at h
      simpa using h.symm
    · exact hd
  | @more w n c d hw h ih =>
    have hne : w ≠ [] := by
      obtain ⟨c, v, rfl, _⟩ := hw.head
      simp
    have := ih (by
      rw [List.head?_append_of_ne_nil _ hne] at h0
      exact h0)
    omega

theorem showNat_decimal {w : Str} {n : Nat} (h : Decimal w n) (hz : w.head? = some '0' → w = str! "0") : showNat n = w := by
  have hdc : ∀ {d : Nat} {c : Char}, digits[d]? = some c → d < 10 ∧ digitChar d = c := by
    intro d c h
    have := (digit_iff c d).2 h
    exact ⟨this.2, digitChar_val this.1 this.2⟩
  induction h with
  | @one c d h =>
    obtain ⟨hd, rfl⟩ := hdc h
    have : ∀ d < 10, showNat d = [digitChar d] := by decide
    exact this d hd
  | @more w n c d hw h ih =>
    obtain ⟨hd, rfl⟩ := hdc h
    have hne : w ≠ [] := by
      obtain ⟨c, v, rfl, _⟩ := hw.head
      simp
    have h0 : w.head? ≠ some '0' := by
      intro e
      have e2 := hz (by rw [List.head?_append_of_ne_nil _ hne]; exact e)
      have := congrArg List.length e2
      have hl : 0 < w.length := List.length_pos_iff.2 hne
      simp only [List.length_append, List.length_cons, List.length_nil] at this
      omega
    rw [showNat_digit n d (decimal_pos hw h0) hd, ih (fun e => absurd e h0)]

/-- The whole digits of digits. -/
theorem decimal_front {i f : Str} {d : Nat} (hi : i ≠ []) (h : Decimal (i ++ f) d) : Decimal i (d / 10 ^ f.length) := by
  have h1 := decimal_read h
  have hx : ∃ a, readDigits 10 0 i = some a := by
    generalize 0 = acc at h1
    clear h hi
    induction i generalizing acc with
    | nil => exact ⟨acc, rfl⟩
    | cons c i ih =>
      simp only [readDigits, List.cons_append] at h1 ⊢
      split at h1
      · split at h1
        · rename_i hd
          rw [if_pos hd]
          exact ih _ h1
        · cases h1
      · cases h1
  obtain ⟨a, ha⟩ := hx
  rw [readDigits_append _ _ _ ha] at h1
  rw [readDigits_div f a d h1, ← readBase_iff]
  unfold readBase
  rw [if_neg (by simpa using hi), ha]

theorem decimal_back {i f : Str} {d : Nat} (hi : i ≠ []) (h : Decimal (i ++ f) d) : padDigits f.length d = f := by
  have h1 := decimal_read h
  have h2 := decimal_read (decimal_front hi h)
  rw [readDigits_append _ _ _ h2] at h1
  exact padDigits_read f _ d h1

theorem last_digit {w : Str} {d : Nat} (h : Decimal w d) (h0 : w.getLast? ≠ some '0') : d % 10 ≠ 0 := by
  have key : ∀ {d : Nat} {c : Char}, digits[d]? = some c → c ≠ '0' → d < 10 ∧ d ≠ 0 := by
    intro d c h hc
    have hd := ((digit_iff c d).2 h).2
    refine ⟨hd, ?_⟩
    rintro rfl
    have : digits[0]? = some '0' := by decide
    rw [this] at h
    exact hc (Option.some.inj h).symm
  cases h with
  | @one c d h =>
    have := key h (by rintro rfl; exact h0 rfl)
    omega
  | @more w n c d hw h =>
    have := key h (by rintro rfl; exact h0 (by simp))
    omega

/-- Plain digits are the text of their value. -/
theorem showDec_plain {i f : Str} {d : Nat} (h : PlainDigits i f d) : showDec d f.length = withPoint i f := by
  cases hf : f with
  | nil =>
    have h1 := h.digits
    rw [hf, List.append_nil] at h1
    simp only [List.length_nil, withPoint, if_true]
    exact showNat_decimal h1 h.front
  | cons c t =>
    rw [← hf]
    have h1 := showNat_decimal (decimal_front h.whole h.digits) h.front
    have h2 := decimal_back h.whole h.digits
    have hl : f.length = t.length + 1 := by rw [hf]; rfl
    unfold withPoint
    rw [if_neg (by rw [hf]; simp)]
    rw [hl] at h1 h2 ⊢
    show showNat (d / 10 ^ (t.length + 1)) ++ '.' :: padDigits (t.length + 1) d = _
    rw [h1, h2]

theorem strip_zeros : ∀ (n : Nat), 0 < n → ∃ a k, n = a * 10 ^ k ∧ a % 10 ≠ 0 := by
  intro n
  induction n using Nat.strong_induction_on with
  | _ n ih =>
    intro hn
    by_cases h : n % 10 = 0
    · obtain ⟨a, k, ha, h2⟩ := ih (n / 10) (by omega) (by omega)
      refine ⟨a, k + 1, ?_, h2⟩
      rw [pow_succ, ← mul_assoc, ← ha]
      omega
    · exact ⟨n, 0, by simp, h⟩

theorem showMag_plain {i f : Str} {d : Nat} (h : PlainDigits i f d) :
    showMag (round64 (d * pow10 (-(f.length : Int)))) = withPoint i f := by
  rw [← showDec_plain h]
  by_cases hf : f = []
  · subst hf
    simp only [List.length_nil]
    rcases Nat.eq_zero_or_pos d with rfl | hd
    · simp [round64_zero, showMag]
      decide
    · obtain ⟨a, k, ha, h10⟩ := strip_zeros d hd
      have hlt := h.few
      cases k with
      | zero =>
        have := showMag_decimal (d := a) (k := 0) (by rw [ha] at hlt; simpa using hlt) (by norm_num) h10
          (by rw [ha] at hlt; simpa using hlt)
        have e : d = a := by simpa using ha
        rw [e]
        exact this
      | succ n =>
        have hk : 1 ≤ 10 ^ (n + 1) := Nat.one_le_pow _ _ (by norm_num)
        have hle : a ≤ d := by rw [ha]; exact Nat.le_mul_of_pos_right _ hk
        have := showMag_decimal (d := a) (k := Int.negSucc n) (by omega) (by omega) h10
          (by rw [ha] at hlt; simpa using hlt)
        rw [show showDec a (Int.negSucc n) = showDec d ((0 : Nat) : Int) by
          show showNat _ = showNat _
          rw [← ha]] at this
        rw [← this]
        congr 2
        rw [ha]
        rw [Int.neg_negSucc]
        show ((a * 10 ^ (n + 1) : ℕ) : ℚ) * pow10 0 = a * pow10 ((n + 1 : ℕ) : Int)
        rw [pow10_nat]
        simp [pow10]
  · have h10 := last_digit h.digits (by
      rw [List.getLast?_append]
      cases hl : f.getLast? with
      | none => exact absurd (List.getLast?_eq_none_iff.1 hl) hf
      | some c =>
        have := h.back
        rw [hl] at this
        simpa using this)
    refine showMag_decimal h.few (by have := h.short; omega) h10 ?_
    simpa using h.few

theorem readMag_plain {i f : Str} {d : Nat} (h : PlainDigits i f d) :
    readMag (withPoint i f) = some (d * pow10 (-(f.length : Int))) := by
  rw [← showDec_plain h]
  exact readMag_showDec d f.length

theorem round64_small {v : ℚ} (h0 : 0 ≤ v) (h : v < 10 ^ 15) : 0 ≤ round64 v ∧ round64 v < pow2 1024 := by
  have h1 := round64_mono h0
  rw [round64_zero] at h1
  have h2 : round64 v ≤ round64 (pow2 50) := round64_mono (le_of_lt (lt_trans h (by rw [pow2_eq]; norm_num)))
  rw [round64_of_isF64 (x := pow2 50) ⟨1, 50, by norm_num, by norm_num, by norm_num⟩] at h2
  refine ⟨h1, lt_of_le_of_lt h2 ?_⟩
  simp only [pow2_eq]
  exact zpow_lt_zpow_right₀ (by norm_num) (by norm_num)

end Verif.Fp64

namespace Verif.F64
open Verif Spec Fp64

theorem pow10_div (d : Nat) (n : Nat) : (d : ℚ) * pow10 (-(n : Int)) = d / 10 ^ n := by
  rw [pow10_eq, zpow_neg, zpow_natCast]; rfl

/-- The value of plain digits is below `10^15`. -/
theorem plain_small {i f : Str} {d : Nat} (h : PlainDigits i f d) : (d : ℚ) / 10 ^ f.length < 10 ^ 15 := by
  have h1 : (d : ℚ) < 10 ^ 15 := by exact_mod_cast h.few
  have h2 : (1 : ℚ) ≤ 10 ^ f.length := one_le_pow₀ (by norm_num)
  have h3 : (d : ℚ) / 10 ^ f.length ≤ d := div_le_self (by positivity) h2
  exact lt_of_le_of_lt h3 h1

theorem plain_chars {i f : Str} {d : Nat} (h : PlainDigits i f d) :
    splitSign (withPoint i f) = (false, withPoint i f) ∧
    ∀ w : Str, w.head?.any Char.isAlpha = true → (withPoint i f).map lower ≠ w := by
  rw [← showMag_plain h]
  exact ⟨splitSign_showMag _, fun w hw => showMag_word _ w hw⟩

theorem plain_words {i f : Str} {d : Nat} (h : PlainDigits i f d) : (withPoint i f).map lower ≠ str! "nan" ∧
    (withPoint i f).map lower ≠ str! "inf" ∧ (withPoint i f).map lower ≠ str! "infinity" :=
  ⟨(plain_chars h).2 _ (by decide), (plain_chars h).2 _ (by decide), (plain_chars h).2 _ (by decide)⟩

theorem of_plain {i f : Str} {d : Nat} (h : PlainDigits i f d) :
    ∃ a hb, of ((d : ℚ) / 10 ^ f.length) = .fin a hb ∧ a.val = round64 (d * pow10 (-(f.length : Int))) ∧ 0 ≤ a.val := by
  obtain ⟨h1, h2⟩ := round64_small (v := (d : ℚ) / 10 ^ f.length) (by positivity) (plain_small h)
  have hb : |(Fl.of ((d : ℚ) / 10 ^ f.length)).val| < pow2 1024 := by
    show |round64 _| < _
    rw [abs_of_nonneg h1]; exact h2
  exact ⟨_, hb, of_of hb, by rw [pow10_div]; rfl, h1⟩

/-- A plain number is read as the number nearest to its value. -/
theorem ofStr_plain {s : Str} {v : ℚ} (h : PlainNumber s v) : ofStr s = some (of v) := by
  cases h with
  | @pos i f d h =>
    simp only [ofStr, plain_chars h, plain_words h, or_self, if_false, readMag_plain h, Option.map_some,
      Bool.false_eq_true, pow10_div]
  | @neg i f d h h0 =>
    have hs : splitSign ('-' :: withPoint i f) = (true, withPoint i f) := rfl
    simp only [ofStr, hs, plain_words h, or_self, if_false, readMag_plain h, Option.map_some, if_true, pow10_div]

/-- The number nearest to the value of a plain number is written as this plain number. -/
theorem toStr_plain {s : Str} {v : ℚ} (h : PlainNumber s v) : toStr (of v) = s := by
  cases h with
  | @pos i f d h =>
    obtain ⟨a, hb, e, hv, h0⟩ := of_plain h
    rw [e]
    simp only [toStr, Fl.toStr]
    rw [if_neg (not_lt.2 h0), hv, showMag_plain h]
  | @neg i f d h hd =>
    obtain ⟨a, hb, e, hv, h0⟩ := of_plain h
    have hne : a.val ≠ 0 := by
      rw [hv]
      intro hc
      have h2 : round64 ((0 : Nat) * pow10 (-(f.length : Int))) = 0 := by simpa using round64_zero
      exact hd (decimal_apart (d := 0) (D := d) (by norm_num) (by have := h.short; omega) (h2.trans hc.symm))
    have hpos : 0 < a.val := lt_of_le_of_ne h0 (Ne.symm hne)
    have hv' : round64 ((d : ℚ) / 10 ^ f.length) = a.val := by rw [hv, pow10_div]
    have hn : round64 (-((d : ℚ) / 10 ^ f.length)) = (Flt.neg a).val := by
      rw [round64_neg, hv', neg_val]
    have hb' : |(Flt.neg a).val| < pow2 1024 := by rw [neg_val, abs_neg]; exact hb
    rw [of_fin hn hb']
    simp only [toStr, Fl.toStr, neg_val, neg_neg]
    rw [if_pos (by linarith), hv, showMag_plain h]

end Verif.F64
