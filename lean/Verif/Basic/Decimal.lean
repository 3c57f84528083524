import Verif.Basic.Round
import Verif.Lemmas.Num
/-!
# Decimal text of 64-bit floating point numbers

Reading: `f64::from_str` of the Rust standard library (grammar of its
documentation, correctly rounded).  Writing: `Display` of `f64`: the shortest
decimal that reads back as the same number, without an exponent.
-/

namespace Verif.Fp64
open Verif

/-- `10^k`. -/
def pow10 : Int → ℚ
  | .ofNat n => (10 ^ n : ℕ)
  | .negSucc n => 1 / (10 ^ (n + 1) : ℕ)

theorem pow10_eq (e : Int) : pow10 e = (10 : ℚ) ^ e := by
  cases e with
  | ofNat n => simp [pow10]
  | negSucc n => simp [pow10, zpow_negSucc]

theorem pow10_pos (e : Int) : 0 < pow10 e := by rw [pow10_eq]; positivity

theorem pow10_neg (e : Int) : pow10 (-e) = 1 / pow10 e := by
  simp [pow10_eq]

/-! ## Reading -/

/-- A decimal digit. -/
def isDig (c : Char) : Bool := (digitVal? c).any (· < 10)

/-- The value of a string of digits. -/
def digitsVal (s : Str) : Nat := (readDigits 10 0 s).getD 0

/-- The exponent after `e` or `E`: an optional sign, at least one digit. -/
def readExp (s : Str) : Option Int :=
  match s with
  | '-' :: t => if t ≠ [] ∧ t.all isDig then some (-(digitsVal t : Int)) else none
  | '+' :: t => if t ≠ [] ∧ t.all isDig then some (digitsVal t : Int) else none
  | t => if t ≠ [] ∧ t.all isDig then some (digitsVal t : Int) else none

/-- What comes after the digits: nothing, or an exponent. -/
def scaled (v : ℚ) : Str → Option ℚ
  | [] => some v
  | c :: t => if c = 'e' ∨ c = 'E' then (readExp t).map fun n => v * pow10 n else none

/-- An unsigned decimal number: digits with an optional point among them, at
least one digit, and an optional exponent. -/
def readMag (s : Str) : Option ℚ :=
  let i := s.takeWhile isDig
  match s.dropWhile isDig with
  | '.' :: r =>
    let f := r.takeWhile isDig
    if i = [] ∧ f = [] then none
    else scaled (digitsVal (i ++ f) * pow10 (-(f.length : Int))) (r.dropWhile isDig)
  | r => if i = [] then none else scaled (digitsVal i) r

/-- Sign (true for minus) and the rest. -/
def splitSign : Str → Bool × Str
  | '-' :: t => (true, t)
  | '+' :: t => (false, t)
  | t => (false, t)

/-! ## Writing -/

/-- The digits of `r` with leading zeros, `k` of them. -/
def padDigits : Nat → Nat → Str
  | 0, _ => []
  | k + 1, r => digitChar (r / 10 ^ k % 10) :: padDigits k r

/-- The decimal number `d / 10^k`. -/
def showDec (d : Nat) (k : Int) : Str :=
  match k with
  | .negSucc n => showNat (d * 10 ^ (n + 1))
  | .ofNat 0 => showNat d
  | .ofNat (n + 1) => showNat (d / 10 ^ (n + 1)) ++ '.' :: padDigits (n + 1) d

/-- The number of units of `10^-k` closest to `x` among those that read back as
`x`, if there is one. -/
def candidate (x : ℚ) (k : Int) : Option Nat :=
  let y := x * pow10 k
  let lo := y.floor.toNat
  let hi := lo + 1
  let good (d : Nat) : Bool := decide (round64 (d * pow10 (-k)) = x)
  if good lo && (!good hi || decide (y - lo ≤ hi - y)) then some lo
  else if good hi then some hi
  else none

/-- The first number of digits after the point, from `k` on, for which there is
a decimal that reads back. -/
def shortest (x : ℚ) : Nat → Int → Nat × Int
  | 0, k => ((x * pow10 k).floor.toNat, k)
  | n + 1, k =>
    match candidate x k with
    | some d => (d, k)
    | none => shortest x n (k + 1)

/-- The text of a nonnegative number of the format. -/
def showMag (x : ℚ) : Str :=
  if x = 0 then str! "0"
  else
    let len := (showNat x.floor.toNat).length
    let p := shortest x (len + 1074) (-(len : Int))
    showDec p.1 p.2

/-! ## Writing and reading back -/

theorem isDig_digitChar : ∀ d : Nat, d < 10 → isDig (digitChar d) = true := by decide

theorem isDig_showNat (n : Nat) : ∀ c ∈ showNat n, isDig c = true := by
  intro c hc
  obtain ⟨d, hd, rfl⟩ := showBase_digits (b := 10) (by omega) n c hc
  exact isDig_digitChar d hd

theorem isDig_padDigits : ∀ k r, ∀ c ∈ padDigits k r, isDig c = true
  | 0, _, c, h => by simp [padDigits] at h
  | k + 1, r, c, h => by
    simp only [padDigits, List.mem_cons] at h
    rcases h with rfl | h
    · exact isDig_digitChar _ (Nat.mod_lt _ (by omega))
    · exact isDig_padDigits k r c h

theorem padDigits_length : ∀ k r, (padDigits k r).length = k
  | 0, _ => rfl
  | k + 1, r => by simp [padDigits, padDigits_length k r]

theorem readDigits_append {a : Nat} : ∀ (s t : Str) (acc : Nat), readDigits 10 acc s = some a →
    readDigits 10 acc (s ++ t) = readDigits 10 a t
  | [], t, acc, h => by simp only [readDigits, Option.some.injEq] at h; subst h; rfl
  | c :: s, t, acc, h => by
    simp only [readDigits, List.cons_append] at h ⊢
    split at h
    · split at h
      · rename_i hd
        rw [if_pos hd]
        exact readDigits_append s t _ h
      · cases h
    · cases h

theorem readDigits_pad : ∀ (k r acc : Nat),
    readDigits 10 acc (padDigits k r) = some (acc * 10 ^ k + r % 10 ^ k)
  | 0, r, acc => by simp [padDigits, readDigits, Nat.mod_one]
  | k + 1, r, acc => by
    rw [padDigits, readDigits_digit (by omega) (Nat.mod_lt _ (by omega)), readDigits_pad k r]
    congr 1
    have h1 : r % 10 ^ (k + 1) = r % 10 ^ k + 10 ^ k * (r / 10 ^ k % 10) := by
      rw [pow_succ, Nat.mod_mul]
    rw [h1, pow_succ]
    ring

theorem readDigits_showNat (n : Nat) : readDigits 10 0 (showNat n) = some n := by
  have := readBase_showBase (b := 10) (by omega) (by omega) n
  unfold readBase at this
  split at this
  · cases this
  · exact this

theorem takeWhile_digits (s t : Str) (h : ∀ c ∈ s, isDig c = true) (ht : ∀ c ∈ t.head?, isDig c = false) :
    (s ++ t).takeWhile isDig = s ∧ (s ++ t).dropWhile isDig = t := by
  induction s with
  | nil =>
    cases t with
    | nil => simp
    | cons c t => simp [ht c (by simp)]
  | cons c s ih =>
    have hc := h c (by simp)
    have := ih (fun c hc => h c (by simp [hc]))
    simp [hc, this]

theorem readMag_showNat (n : Nat) : readMag (showNat n) = some (n : ℚ) := by
  obtain ⟨h1, h2⟩ := takeWhile_digits (showNat n) [] (isDig_showNat n) (by simp)
  simp only [List.append_nil] at h1 h2
  unfold readMag
  simp only [h1, h2, showNat_ne_nil, if_false, scaled, digitsVal, readDigits_showNat, Option.getD_some]

theorem readMag_showDec (d : Nat) (k : Int) : readMag (showDec d k) = some (d * pow10 (-k)) := by
  match k with
  | .negSucc n =>
    simp only [showDec, readMag_showNat]
    congr 1
    rw [Int.neg_negSucc, ← Int.ofNat_eq_natCast]
    simp [pow10]
  | .ofNat 0 => simp [showDec, readMag_showNat, pow10]
  | .ofNat (n + 1) =>
    simp only [showDec]
    obtain ⟨h1, h2⟩ := takeWhile_digits (showNat (d / 10 ^ (n + 1))) ('.' :: padDigits (n + 1) d)
      (isDig_showNat _) (by simp; decide)
    obtain ⟨h3, h4⟩ := takeWhile_digits (padDigits (n + 1) d) [] (isDig_padDigits _ _) (by simp)
    simp only [List.append_nil] at h3 h4
    unfold readMag
    simp only [h1, h2, h3, h4, showNat_ne_nil, false_and, if_false, scaled, padDigits_length]
    have hv : digitsVal (showNat (d / 10 ^ (n + 1)) ++ padDigits (n + 1) d) = d := by
      unfold digitsVal
      rw [readDigits_append _ _ _ (readDigits_showNat _), readDigits_pad]
      simp only [Option.getD_some]
      have := Nat.div_add_mod d (10 ^ (n + 1))
      rw [mul_comm] at this
      exact this
    rw [hv]
    rfl

theorem candidate_good {x : ℚ} {k : Int} {d : Nat} (h : candidate x k = some d) :
    round64 (d * pow10 (-k)) = x := by
  unfold candidate at h
  simp only [Bool.and_eq_true, decide_eq_true_eq] at h
  split at h
  · rename_i c
    cases h; exact c.1
  · split at h
    · rename_i c
      cases h; exact c
    · cases h

theorem exact_digits (N : Nat) (m e : Int) (he : -(N : Int) ≤ e) (h0 : 0 ≤ (m : ℚ) * pow2 e) :
    (((m : ℚ) * pow2 e * pow10 N).floor.toNat : ℚ) * pow10 (-(N : Int)) = m * pow2 e := by
  obtain ⟨n, hn⟩ := Int.le.dest he
  have key : (m : ℚ) * pow2 e * pow10 N = ((m * 2 ^ n * 5 ^ N : Int) : ℚ) := by
    have e1 : pow2 e = pow2 (-(N : Int)) * pow2 n := by rw [← pow2_add, hn]
    have e2 : pow10 N = pow2 N * (5 : ℚ) ^ N := by
      rw [pow10_eq, pow2_eq, show (10 : ℚ) = 2 * 5 by norm_num, mul_zpow]
      rfl
    have e3 : pow2 (-(N : Int)) * pow2 N = 1 := by
      rw [← pow2_add, neg_add_cancel]; rfl
    rw [e1, e2, pow2_nat n]
    push_cast
    calc (m : ℚ) * (pow2 (-(N : Int)) * 2 ^ n) * (pow2 N * 5 ^ N)
        = m * 2 ^ n * 5 ^ N * (pow2 (-(N : Int)) * pow2 N) := by ring
      _ = _ := by rw [e3, mul_one]
  have hnn : (0 : ℚ) ≤ (m : ℚ) * pow2 e * pow10 N := mul_nonneg h0 (le_of_lt (pow10_pos _))
  have hfl : ((m : ℚ) * pow2 e * pow10 N).floor = m * 2 ^ n * 5 ^ N := by
    rw [key]; exact Rat.floor_intCast _
  have hz : 0 ≤ m * 2 ^ n * 5 ^ N := by
    rw [key] at hnn; exact_mod_cast hnn
  rw [hfl]
  have : (((m * 2 ^ n * 5 ^ N : Int).toNat : Nat) : ℚ) = ((m * 2 ^ n * 5 ^ N : Int) : ℚ) := by
    have := Int.toNat_of_nonneg hz
    exact_mod_cast this
  rw [this, ← key, pow10_neg]
  have := pow10_pos N
  field_simp

/-- A number of the format has at most 1074 digits after the point. -/
theorem exact_1074 {x : ℚ} (hx : IsF64 x) (h0 : 0 ≤ x) (k : Int) (hk : k = 1074) :
    ((x * pow10 k).floor.toNat : ℚ) * pow10 (-k) = x := by
  obtain ⟨m, e, hm, he, rfl⟩ := hx
  have hk' : k = ((1074 : Nat) : Int) := hk
  rw [hk']
  have he' : -((1074 : Nat) : Int) ≤ e := he
  generalize (1074 : Nat) = N at *
  exact exact_digits N m e he' h0

theorem shortest_good {x : ℚ} (hx : IsF64 x) (h0 : 0 ≤ x) : ∀ (n : Nat) (k : Int), k + n = 1074 →
    round64 ((shortest x n k).1 * pow10 (-(shortest x n k).2)) = x
  | 0, k, hk => by
    simp only [shortest]
    rw [exact_1074 hx h0 k (by omega), round64_of_isF64 hx]
  | n + 1, k, hk => by
    simp only [shortest]
    split
    · rename_i d hd
      exact candidate_good hd
    · exact shortest_good hx h0 n (k + 1) (by omega)

/-- The text of a number of the format reads back as this number. -/
theorem readMag_showMag {x : ℚ} (hx : IsF64 x) (h0 : 0 ≤ x) : ∃ v, readMag (showMag x) = some v ∧ round64 v = x := by
  unfold showMag
  split
  · rename_i h
    subst h
    exact ⟨_, readMag_showNat 0, by simpa using round64_zero⟩
  · have := shortest_good hx h0 ((showNat x.floor.toNat).length + 1074) (-((showNat x.floor.toNat).length : Int))
      (by push_cast; omega)
    dsimp only
    revert this
    generalize shortest x _ _ = p
    intro this
    exact ⟨_, readMag_showDec _ _, this⟩

theorem showDec_ne_nil (d : Nat) (k : Int) : showDec d k ≠ [] := by
  unfold showDec
  split <;> simp [showNat_ne_nil]

theorem showMag_ne_nil (x : ℚ) : showMag x ≠ [] := by
  unfold showMag
  split
  · simp
  · exact showDec_ne_nil _ _

theorem showDec_chars (d : Nat) (k : Int) : ∀ c ∈ showDec d k, isDig c = true ∨ c = '.' := by
  intro c hc
  unfold showDec at hc
  split at hc
  · exact .inl (isDig_showNat _ c hc)
  · exact .inl (isDig_showNat _ c hc)
  · simp only [List.mem_append, List.mem_cons] at hc
    rcases hc with hc | rfl | hc
    · exact .inl (isDig_showNat _ c hc)
    · exact .inr rfl
    · exact .inl (isDig_padDigits _ _ c hc)

theorem showMag_chars (x : ℚ) : ∀ c ∈ showMag x, isDig c = true ∨ c = '.' := by
  unfold showMag
  split
  · intro c hc
    have : c = '0' := by simpa using hc
    subst this; exact .inl rfl
  · exact showDec_chars _ _

theorem isDig_iff (c : Char) : isDig c = true → c ∈ str! "0123456789" := by
  intro h
  unfold isDig digitVal? at h
  simp only [] at h
  have hn : 48 ≤ c.toNat ∧ c.toNat ≤ 57 := by
    by_cases h1 : 48 ≤ c.toNat ∧ c.toNat ≤ 57
    · exact h1
    · rw [if_neg h1] at h
      split at h
      · simp at h; omega
      · split at h
        · simp at h; omega
        · simp at h
  have : c = Char.ofNat c.toNat := (Char.ofNat_toNat c).symm
  rw [this]
  have : ∀ n, n ≤ 57 → 48 ≤ n → Char.ofNat n ∈ str! "0123456789" := by decide
  exact this _ hn.2 hn.1

theorem splitSign_showMag (x : ℚ) : splitSign (showMag x) = (false, showMag x) := by
  unfold splitSign
  split
  · rename_i t h
    have := showMag_chars x '-' (by rw [h]; simp)
    rcases this with h | h
    · exact absurd h (by decide)
    · exact absurd h (by decide)
  · rename_i t h
    have := showMag_chars x '+' (by rw [h]; simp)
    rcases this with h | h
    · exact absurd h (by decide)
    · exact absurd h (by decide)
  · rfl

end Verif.Fp64
