import Verif.Basic.Flt
import Verif.Lemmas.Num
import Mathlib.Tactic.Positivity
import Mathlib.Algebra.Order.Ring.Int
/-!
# A concrete number type

`Nm` is fixed-point arithmetic in millionths (a length in millimetres is an
integer number of nanometres).  It implements the `f64` interface and satisfies
every law class of `Verif.Basic.Flt`, so the law classes are consistent and the
model can be executed.  It is used in `example`s, and in C105 and C107 for
the exact numbers a file is compared with.
-/

namespace Verif

/-- The number `n / 10^6`. -/
structure Nm where
  n : Int
  deriving DecidableEq, Repr, Inhabited

namespace Nm

/-- Remove trailing zeros. -/
def stripZeros (s : Str) : Str := (s.reverse.dropWhile (· == '0')).reverse

/-- The six decimals of `r < 10^6`. -/
def digits6 (r : Nat) : Str :=
  [r / 100000 % 10, r / 10000 % 10, r / 1000 % 10, r / 100 % 10, r / 10 % 10, r % 10].map digitChar

/-- Decimal text of the absolute value. -/
def showAbs (n : Nat) : Str :=
  showNat (n / 1000000) ++
    (if n % 1000000 = 0 then [] else '.' :: stripZeros (digits6 (n % 1000000)))

/-- Decimal text. -/
def toStr (a : Nm) : Str :=
  match a.n with
  | Int.ofNat n => showAbs n
  | Int.negSucc n => '-' :: showAbs (n + 1)

/-- Digits after the point, as a number of millionths; further digits are cut. -/
def readFrac (ds : Str) : Option Nat :=
  if ds.all (fun c => (digitVal? c).any (· < 10)) then
    readDigits 10 0 (ds.take 6 ++ List.replicate (6 - ds.length) '0')
  else none

/-- Unsigned decimal number. -/
def readAbs (s : Str) : Option Nat :=
  match readBase 10 (s.takeWhile (· != '.')) with
  | none => none
  | some i =>
    match s.dropWhile (· != '.') with
    | [] => some (i * 1000000)
    | _ :: ds =>
      match readFrac ds with
      | none => none
      | some r => some (i * 1000000 + r)

/-- Signed decimal number. -/
def ofStr (s : Str) : Option Nm :=
  match s with
  | '-' :: t => (readAbs t).map fun n => ⟨-(Int.ofNat n)⟩
  | t => (readAbs t).map fun n => ⟨Int.ofNat n⟩

/-- The least `r` with `n ≤ r * r`, searched upwards from `r`. -/
def ceilSqrtFrom : Nat → Nat → Nat → Nat
  | 0, _, r => r
  | fuel + 1, n, r => if n ≤ r * r then r else ceilSqrtFrom fuel n (r + 1)

/-- Bitwise descent towards the greatest `r` with `r * r ≤ n` (up to 2^64). -/
def sqrtGo (n : Nat) : Nat → Nat → Nat
  | 0, r => r
  | k + 1, r => if (r + 2 ^ k) * (r + 2 ^ k) ≤ n then sqrtGo n k (r + 2 ^ k) else sqrtGo n k r

/-- Square root rounded upwards. -/
def ceilSqrt (n : Nat) : Nat := ceilSqrtFrom 4 n (sqrtGo n 64 0)

instance : Flt Nm where
  lit m k := ⟨if k ≤ 6 then m * 10 ^ (6 - k) else m / 10 ^ (k - 6)⟩
  ofInt i := ⟨i * 1000000⟩
  add a b := ⟨a.n + b.n⟩
  sub a b := ⟨a.n - b.n⟩
  mul a b := ⟨a.n * b.n / 1000000⟩
  neg a := ⟨-a.n⟩
  abs a := ⟨a.n.natAbs⟩
  sqrt a := ⟨ceilSqrt (a.n.toNat * 1000000)⟩
  half a := ⟨a.n / 2⟩
  feq a b := decide (a.n = b.n)
  lt a b := decide (a.n < b.n)
  le a b := decide (a.n ≤ b.n)
  fmin a b := if a.n ≤ b.n then a else b
  fmax a b := if a.n ≤ b.n then b else a
  eps := ⟨0⟩
  toStr := toStr
  ofStr := ofStr

theorem ext_n {a b : Nm} (h : a.n = b.n) : a = b := by cases a; cases b; simp_all

theorem zero_n : (Flt.zero : Nm).n = 0 := by simp [Flt.zero, Flt.lit]

theorem stripZeros_append (s : Str) :
    stripZeros s ++ List.replicate (s.length - (stripZeros s).length) '0' = s := by
  have key : ∀ l : Str, List.replicate (l.length - (l.dropWhile (· == '0')).length) '0'
      ++ l.dropWhile (· == '0') = l := by
    intro l
    induction l with
    | nil => simp
    | cons c l ih =>
      by_cases hc : c = '0'
      · subst hc
        have hle : (l.dropWhile (· == '0')).length ≤ l.length :=
          (List.dropWhile_sublist _).length_le
        rw [List.dropWhile_cons_of_pos (by simp)]
        rw [List.length_cons, Nat.succ_sub hle, List.replicate_succ]
        simp [ih]
      · simp [hc]
  have h := key s.reverse
  unfold stripZeros
  have h' := congrArg List.reverse h
  rw [List.reverse_append, List.reverse_reverse, List.reverse_replicate] at h'
  simpa using h'

theorem stripZeros_subset (s : Str) : ∀ c ∈ stripZeros s, c ∈ s := by
  intro c hc
  have := (List.dropWhile_sublist (· == '0') (l := s.reverse)).subset (a := c)
    (by simpa [stripZeros] using hc)
  simpa using this

theorem digit_not_point : ∀ d : Nat, d < 10 → digitChar d ≠ '.' ∧ digitChar d ∈ Flt.textChars ∧
    (digitVal? (digitChar d)).any (· < 10) = true := by decide

theorem digits6_digit (r : Nat) : ∀ c ∈ digits6 r, ∃ d, d < 10 ∧ c = digitChar d := by
  intro c hc
  simp only [digits6, List.mem_map] at hc
  obtain ⟨d, hd, rfl⟩ := hc
  refine ⟨d, ?_, rfl⟩
  simp only [List.mem_cons, List.not_mem_nil, or_false] at hd
  omega

theorem readDigits_digits6 (r : Nat) (h : r < 1000000) : readDigits 10 0 (digits6 r) = some r := by
  simp only [digits6, List.map_cons, List.map_nil]
  iterate 6 rw [readDigits_digit (by omega) (by omega)]
  simp only [readDigits]
  congr 1
  omega

theorem showNat_not_point (n : Nat) : ∀ c ∈ showNat n, (c != '.') = true := by
  intro c hc
  obtain ⟨d, hd, rfl⟩ := showBase_digits (b := 10) (by omega) n c hc
  simpa using (digit_not_point d hd).1

theorem takeWhile_all {p : Char → Bool} (l m : Str) (h : ∀ c ∈ l, p c = true) :
    (l ++ m).takeWhile p = l ++ m.takeWhile p ∧ (l ++ m).dropWhile p = m.dropWhile p := by
  induction l with
  | nil => simp
  | cons c l ih =>
    have hc := h c (by simp)
    have := ih (fun c hc => h c (by simp [hc]))
    simp [hc, this]

theorem readFrac_strip (r : Nat) (h : r < 1000000) :
    readFrac (stripZeros (digits6 r)) = some r := by
  unfold readFrac
  have hlen : (digits6 r).length = 6 := by simp [digits6]
  have happ := stripZeros_append (digits6 r)
  have hle : (stripZeros (digits6 r)).length ≤ 6 := by
    have := congrArg List.length happ
    simp at this
    omega
  rw [if_pos, List.take_of_length_le hle]
  · rw [hlen] at happ
    rw [happ, readDigits_digits6 r h]
  · rw [List.all_eq_true]
    intro c hc
    obtain ⟨d, hd, rfl⟩ := digits6_digit r c (stripZeros_subset _ c hc)
    exact (digit_not_point d hd).2.2

theorem readAbs_showAbs (n : Nat) : readAbs (showAbs n) = some n := by
  unfold readAbs showAbs
  obtain ⟨h1, h2⟩ := takeWhile_all (p := (· != '.')) (showNat (n / 1000000))
    (if n % 1000000 = 0 then [] else '.' :: stripZeros (digits6 (n % 1000000)))
    (showNat_not_point _)
  have hr : readBase 10 (showNat (n / 1000000)) = some (n / 1000000) :=
    readBase_showBase (by omega) (by omega) _
  rw [h1, h2]
  by_cases h : n % 1000000 = 0
  · simp [h, hr]
    omega
  · have e := readFrac_strip (n % 1000000) (Nat.mod_lt _ (by omega))
    simp [h, hr, e]
    omega

theorem showAbs_head (n : Nat) : ∀ t, showAbs n ≠ '-' :: t := by
  intro t h
  unfold showAbs at h
  cases hs : showNat (n / 1000000) with
  | nil => exact showNat_ne_nil _ hs
  | cons c cs =>
    rw [hs] at h
    simp only [List.cons_append, List.cons.injEq] at h
    obtain ⟨d, hd, hc⟩ := showBase_digits (b := 10) (by omega) (n / 1000000) c (by
      have : c ∈ showNat (n / 1000000) := by simp [hs]
      exact this)
    exact (digitChar_ne_minus d (by omega)).1 (hc ▸ h.1)

theorem ofStr_toStr (x : Nm) : ofStr (toStr x) = some x := by
  obtain ⟨n⟩ := x
  cases n with
  | ofNat n =>
    simp only [toStr]
    unfold ofStr
    split
    · rename_i t heq; exact absurd heq (showAbs_head n t)
    · rw [readAbs_showAbs]; rfl
  | negSucc n =>
    simp only [toStr, ofStr, readAbs_showAbs]
    rfl

theorem showAbs_chars (n : Nat) : ∀ c ∈ showAbs n, c ∈ Flt.textChars := by
  intro c hc
  rcases List.mem_append.1 hc with hc | hc
  · obtain ⟨d, hd, rfl⟩ := showBase_digits (b := 10) (by omega) (n / 1000000) c hc
    exact (digit_not_point d hd).2.1
  · split at hc
    · simp at hc
    · rcases List.mem_cons.1 hc with rfl | hc
      · decide
      · obtain ⟨d, hd, rfl⟩ := digits6_digit _ c (stripZeros_subset _ c hc)
        exact (digit_not_point d hd).2.1

theorem showAbs_ne_nil (n : Nat) : showAbs n ≠ [] := by
  unfold showAbs
  simp [showNat_ne_nil]

instance : Flt.TextLaws Nm where
  ofStr_toStr := ofStr_toStr
  toStr_ne_nil := by
    rintro ⟨n⟩
    cases n with
    | ofNat n => exact showAbs_ne_nil n
    | negSucc n => simp [Flt.toStr, toStr]
  toStr_chars := by
    rintro ⟨n⟩ c hc
    cases n with
    | ofNat n => exact showAbs_chars n c hc
    | negSucc n =>
      rcases List.mem_cons.1 hc with rfl | hc
      · decide
      · exact showAbs_chars _ c hc

instance : Flt.ExactLaws Nm where
  feq_iff a b := by
    simp only [Flt.feq, decide_eq_true_eq]
    exact ⟨ext_n, fun h => h ▸ rfl⟩
  le_refl a := by simp [Flt.le]
  le_trans a b c := by simp only [Flt.le, decide_eq_true_eq]; omega
  le_total a b := by simp only [Flt.le, decide_eq_true_eq]; omega
  le_antisymm a b := by
    simp only [Flt.le, decide_eq_true_eq]
    intro h1 h2
    exact ext_n (by omega)
  lt_eq a b := by
    simp only [Flt.lt, Flt.le]
    by_cases h : a.n < b.n
    · simp [h]
    · simp [h]; omega
  min_eq a b := by simp [Flt.fmin, Flt.le]
  max_eq a b := by simp [Flt.fmax, Flt.le]
  add_mono a b c := by simp only [Flt.le, Flt.add, decide_eq_true_eq]; omega
  sub_mono a b c := by simp only [Flt.le, Flt.sub, decide_eq_true_eq]; omega
  add_nonneg a b := by simp only [Flt.le, Flt.add, decide_eq_true_eq, zero_n]; omega
  sub_nonneg a b := by simp only [Flt.le, Flt.sub, decide_eq_true_eq, zero_n]; omega
  add_zero a := ext_n (by simp [Flt.add, zero_n])
  sub_self a := ext_n (by simp [Flt.sub, zero_n])
  abs_nonneg a := by simp only [Flt.le, Flt.abs, decide_eq_true_eq, zero_n]; omega
  abs_zero := ext_n (by simp [Flt.abs, zero_n])
  abs_sub_comm a b := ext_n (by simp only [Flt.abs, Flt.sub]; omega)
  half_nonneg a := by simp only [Flt.le, Flt.half, decide_eq_true_eq, zero_n]; omega
  eps_nonneg := by simp [Flt.le, Flt.eps, zero_n]
  sqrt_nonneg a _ := by simp only [Flt.le, Flt.sqrt, decide_eq_true_eq, zero_n]; omega
  sq_nonneg a b := by
    simp only [Flt.le, Flt.add, Flt.mul, decide_eq_true_eq, zero_n]
    have h1 : 0 ≤ a.n * a.n := mul_self_nonneg _
    have h2 : 0 ≤ b.n * b.n := mul_self_nonneg _
    omega
  lit_nonneg m k := by
    simp only [Flt.le, Flt.lit, decide_eq_true_eq, zero_n]
    split
    · positivity
    · positivity
  add_comm a b := ext_n (by simp only [Flt.add]; omega)
  add_assoc a b c := ext_n (by simp only [Flt.add]; omega)
  sub_eq a b := ext_n (by simp only [Flt.add, Flt.sub, Flt.neg]; omega)
  add_neg a := ext_n (by simp only [Flt.add, Flt.neg, zero_n]; omega)
  lit_pos m h := by
    simp only [Flt.lt, Flt.lit, decide_eq_true_eq, zero_n]
    rw [if_pos (by omega)]
    omega

instance : Flt.IntLaws Nm where
  ofInt_mono a b h := by simp only [Flt.le, Flt.ofInt, decide_eq_true_eq]; omega

end Nm

end Verif
