import Verif.Basic.Num
/-!
# Printing and reading integers
-/

namespace Verif

theorem digitVal_digitChar : ∀ d : Nat, d < 36 → digitVal? (digitChar d) = some d := by
  decide

/-- `c` is a digit below `b`. -/
def IsDigit (b : Nat) (c : Char) : Prop := ∃ d, d < b ∧ c = digitChar d

theorem showBaseAux_acc_ne_nil (b : Nat) : ∀ fuel n acc, acc ≠ [] → showBaseAux b fuel n acc ≠ [] := by
  intro fuel
  induction fuel with
  | zero => intro n acc h; simpa [showBaseAux] using h
  | succ f ih =>
    intro n acc h
    unfold showBaseAux
    split
    · simp
    · exact ih _ _ (by simp)

theorem showBase_ne_nil (b n : Nat) : showBase b n ≠ [] := by
  unfold showBase showBaseAux
  split
  · simp
  · exact showBaseAux_acc_ne_nil _ _ _ _ (by simp)

theorem showBaseAux_digits {b : Nat} (hb : 0 < b) : ∀ fuel n acc,
    (∀ c ∈ acc, IsDigit b c) → ∀ c ∈ showBaseAux b fuel n acc, IsDigit b c := by
  intro fuel
  induction fuel with
  | zero => intro n acc h; simpa [showBaseAux] using h
  | succ f ih =>
    intro n acc h
    unfold showBaseAux
    split
    · intro c hc
      rcases List.mem_cons.1 hc with rfl | hc
      · exact ⟨n, by assumption, rfl⟩
      · exact h c hc
    · apply ih
      intro c hc
      rcases List.mem_cons.1 hc with rfl | hc
      · exact ⟨n % b, Nat.mod_lt _ hb, rfl⟩
      · exact h c hc

theorem showBase_digits {b : Nat} (hb : 0 < b) (n : Nat) : ∀ c ∈ showBase b n, IsDigit b c :=
  showBaseAux_digits hb _ _ _ (by simp)

theorem readDigits_digit {b : Nat} (hb : b ≤ 36) {d : Nat} (hd : d < b) (acc : Nat) (cs : Str) :
    readDigits b acc (digitChar d :: cs) = readDigits b (acc * b + d) cs := by
  simp [readDigits, digitVal_digitChar d (by omega), hd]

theorem readDigits_showBaseAux {b : Nat} (h2 : 2 ≤ b) (hb : b ≤ 36) : ∀ fuel n acc, n < fuel →
    readDigits b 0 (showBaseAux b fuel n acc) = readDigits b n acc := by
  intro fuel
  induction fuel with
  | zero => intro n acc h; omega
  | succ f ih =>
    intro n acc h
    unfold showBaseAux
    split
    · rename_i hlt
      rw [readDigits_digit hb hlt]; simp
    · rename_i hge
      have : n / b < n := Nat.div_lt_self (by omega) h2
      rw [ih _ _ (by omega), readDigits_digit hb (Nat.mod_lt _ (by omega))]
      congr 1
      have := Nat.div_add_mod n b
      rw [Nat.mul_comm]; exact this

theorem readBase_showBase {b : Nat} (h2 : 2 ≤ b) (hb : b ≤ 36) (n : Nat) :
    readBase b (showBase b n) = some n := by
  unfold readBase
  rw [if_neg (by simpa using showBase_ne_nil b n)]
  unfold showBase
  rw [readDigits_showBaseAux h2 hb _ _ _ (by omega)]
  rfl

theorem digitChar_ne_minus : ∀ d : Nat, d < 36 → digitChar d ≠ '-' ∧ digitChar d ≠ '+' := by decide

theorem readI64_showBase {b : Nat} (h2 : 2 ≤ b) (hb : b ≤ 36) (n : Nat) (hn : inI64 n) :
    readI64 b (showBase b n) = some (n : Int) := by
  have hr := readBase_showBase h2 hb n
  have hd := showBase_digits (b := b) (by omega) n
  unfold readI64
  split
  · rename_i cs heq
    obtain ⟨d, hd, hc⟩ := hd '-' (by simp [heq])
    exact absurd hc.symm (digitChar_ne_minus d (by omega)).1
  · rename_i cs heq
    obtain ⟨d, hd, hc⟩ := hd '+' (by simp [heq])
    exact absurd hc.symm (digitChar_ne_minus d (by omega)).2
  · rw [hr]
    simpa using hn

theorem readI64_neg (b : Nat) (cs : Str) (n : Nat) (hr : readBase b cs = some n)
    (h : inI64 (-(Int.ofNat n))) : readI64 b ('-' :: cs) = some (-(Int.ofNat n)) := by
  unfold readI64
  simp only [hr, Option.bind_some]
  rw [if_pos h]

theorem showInt_ofNat (n : Nat) : showInt (Int.ofNat n) = showBase 10 n := by
  rw [showInt, showNat]

theorem showInt_negSucc (n : Nat) : showInt (Int.negSucc n) = '-' :: showBase 10 (n + 1) := by
  rw [showInt, showNat]

theorem negSucc_eq' (n : Nat) : Int.negSucc n = -(Int.ofNat (n + 1)) := rfl

/-- Reading a printed integer gives it back. -/
theorem i64FromStr_showInt (i : Int) (h : inI64 i) : i64FromStr (showInt i) = some i := by
  cases i with
  | ofNat n =>
    rw [showInt_ofNat]
    exact readI64_showBase (b := 10) (by omega) (by omega) n h
  | negSucc n =>
    have hr := readBase_showBase (b := 10) (by omega) (by omega) (n + 1)
    rw [showInt_negSucc, negSucc_eq']
    rw [negSucc_eq'] at h
    exact readI64_neg 10 _ _ hr h

theorem readI64_hex (n : Int) (h0 : 0 ≤ n) (h : inI64 n) : readI64 16 (showHexI64 n) = some n := by
  cases n with
  | ofNat n =>
    have := readI64_showBase (b := 16) (by omega) (by omega) n (by simpa using h)
    simpa only [showHexI64, Int.ofNat_eq_natCast] using this
  | negSucc n => simp at h0

/-- Characters of printed integers. -/
def intChars : Str := str! "0123456789-"

theorem digit_mem_intChars : ∀ d : Nat, d < 10 → digitChar d ∈ intChars := by decide

theorem showNat_chars (n : Nat) : ∀ c ∈ showNat n, c ∈ intChars := by
  intro c hc
  obtain ⟨d, hd, rfl⟩ := showBase_digits (b := 10) (by omega) n c hc
  exact digit_mem_intChars d hd

theorem showInt_chars (i : Int) : ∀ c ∈ showInt i, c ∈ intChars := by
  cases i with
  | ofNat n => exact showNat_chars n
  | negSucc n =>
    intro c hc
    rcases List.mem_cons.1 hc with rfl | hc
    · decide
    · exact showNat_chars _ c hc

theorem showNat_ne_nil (n : Nat) : showNat n ≠ [] := showBase_ne_nil _ _

theorem showInt_ne_nil (i : Int) : showInt i ≠ [] := by
  cases i with
  | ofNat n => exact showNat_ne_nil n
  | negSucc n => simp [showInt]

theorem showBaseAux_acc (b : Nat) : ∀ fuel n acc, showBaseAux b fuel n acc = showBaseAux b fuel n [] ++ acc := by
  intro fuel
  induction fuel with
  | zero => intro n acc; rfl
  | succ fuel ih =>
    intro n acc
    rw [showBaseAux, showBaseAux]
    split
    · rfl
    · rw [ih _ (_ :: acc), ih _ [_], List.append_assoc]
      rfl

theorem showBaseAux_fuel (b : Nat) (hb : 2 ≤ b) : ∀ f g n acc, n < f → n < g → showBaseAux b f n acc = showBaseAux b g n acc := by
  intro f
  induction f with
  | zero => intro g n acc h; omega
  | succ f ih =>
    intro g n acc hf hg
    cases g with
    | zero => omega
    | succ g =>
      rw [showBaseAux, showBaseAux]
      split
      · rfl
      · have : n / b < n := Nat.div_lt_self (by omega) (by omega)
        exact ih g _ _ (by omega) (by omega)

/-- The digits of a number with more than one digit. -/
theorem showNat_digit (n d : Nat) (hn : 0 < n) (hd : d < 10) : showNat (10 * n + d) = showNat n ++ [digitChar d] := by
  unfold showNat showBase
  rw [showBaseAux, if_neg (by omega), showBaseAux_acc, show (10 * n + d) / 10 = n by omega, show (10 * n + d) % 10 = d by omega]
  rw [showBaseAux_fuel 10 (by omega) (10 * n + d) (n + 1) n [] (by omega) (by omega)]

end Verif
