import Verif.Model.RefOrd
import Verif.Lemmas.Num
/-!
# C50: reference designators sort by letter and number
-/

namespace Verif

/-- A character is a decimal digit. -/
def Spec.DecDigit (c : Char) : Prop := '0' ≤ c ∧ c ≤ '9'

instance (c : Char) : Decidable (Spec.DecDigit c) := inferInstanceAs (Decidable (_ ∧ _))

theorem Spec.decDigit_digitChar : ∀ d : Nat, d < 10 → Spec.DecDigit (digitChar d) ∧ digitChar d ≠ ',' := by
  decide

theorem Spec.refDigits_eq (s : Str) :
    refDigits s = (s.takeWhile (· != ',')).filter (fun c => decide (DecDigit c)) := by
  induction s with
  | nil => rfl
  | cons c s ih =>
    unfold refDigits
    by_cases hc : c = ','
    · subst hc
      simp
    · rw [List.takeWhile_cons_of_pos (by simpa using hc)]
      simp only [hc, if_false, ih]
      by_cases hd : '0' ≤ c ∧ c ≤ '9'
      · rw [if_pos hd, List.filter_cons_of_pos (by exact decide_eq_true (p := Spec.DecDigit c) hd)]
      · rw [if_neg hd, List.filter_cons_of_neg (by intro h; exact hd (of_decide_eq_true (p := Spec.DecDigit c) h))]

theorem Spec.digits_prefix (p : Str) (n : Nat) (rest : Str) (hp : ∀ c ∈ p, ¬ DecDigit c ∧ c ≠ ',')
    (hr : rest = [] ∨ ∃ r, rest = ',' :: r) : refDigits (p ++ showNat n ++ rest) = showNat n := by
  have hn : ∀ c ∈ showNat n, DecDigit c ∧ c ≠ ',' := by
    intro c hc
    obtain ⟨d, hd, rfl⟩ := showBase_digits (b := 10) (by omega) n c hc
    exact Spec.decDigit_digitChar d hd
  have htake : ∀ (a b : Str), (∀ c ∈ a, c ≠ ',') →
      (a ++ b).takeWhile (· != ',') = a ++ b.takeWhile (· != ',') := by
    intro a b ha
    induction a with
    | nil => rfl
    | cons c a ih =>
      rw [List.forall_mem_cons] at ha
      rw [List.cons_append, List.takeWhile_cons_of_pos (by simpa using ha.1), ih ha.2, List.cons_append]
  rw [Spec.refDigits_eq, List.append_assoc, htake _ _ fun c hc => (hp c hc).2,
    htake _ _ fun c hc => (hn c hc).2, List.filter_append, List.filter_append]
  have h1 : p.filter (fun c => decide (DecDigit c)) = [] := by
    rw [List.filter_eq_nil_iff]; intro c hc; simpa using (hp c hc).1
  have h2 : (showNat n).filter (fun c => decide (DecDigit c)) = showNat n := by
    rw [List.filter_eq_self]; intro c hc; simpa using (hn c hc).1
  have h3 : (rest.takeWhile (· != ',')) = [] := by
    rcases hr with rfl | ⟨r, rfl⟩
    · rfl
    · simp
  rw [h1, h2, h3]
  simp

/-- A designator made of a prefix without digits and a number, possibly the first
of a comma separated list, is ordered by its first character and the number. -/
theorem C50_letter_and_number (c : Char) (p : Str) (n : Nat) (rest : Str)
    (hp : ∀ d ∈ c :: p, ¬ Spec.DecDigit d ∧ d ≠ ',') (hn : n < 2 ^ 63)
    (hr : rest = [] ∨ ∃ r, rest = ',' :: r) :
    referenceOrd (c :: p ++ showNat n ++ rest) = .ok (c, (n : Int)) := by
  have hd := Spec.digits_prefix (c :: p) n rest hp hr
  have hi : i64FromStr (showNat n) = some (n : Int) := by
    have : inI64 (n : Int) := by unfold inI64; omega
    exact i64FromStr_showInt (n : Int) this
  have : referenceOrd (c :: (p ++ showNat n ++ rest)) = .ok (c, (n : Int)) := by
    unfold referenceOrd
    have hd' : refDigits (c :: (p ++ showNat n ++ rest)) = showNat n := by simpa using hd
    simp only [hd', hi]
  simpa using this

example : (∀ d ∈ 'R' :: str! "N", ¬ Spec.DecDigit d ∧ d ≠ ',') ∧ (10 : Nat) < 2 ^ 63 ∧
    (str! ",R1" = [] ∨ ∃ r, str! ",R1" = ',' :: r) := by
  refine ⟨by decide, by decide, Or.inr ⟨_, rfl⟩⟩

/-- Lexicographic order on the results, the order used when sorting by them. -/
def Spec.RefLt (a b : Char × Int) : Prop := a.1 < b.1 ∨ a.1 = b.1 ∧ a.2 < b.2

/-- Designators with the same prefix are ordered as their numbers, whatever the
number of digits: `R2` before `R10`. -/
theorem C50_numeric_order (c : Char) (p : Str) (n m : Nat)
    (hp : ∀ d ∈ c :: p, ¬ Spec.DecDigit d ∧ d ≠ ',') (hn : n < 2 ^ 63) (hm : m < 2 ^ 63) :
    ∃ a b, referenceOrd (c :: p ++ showNat n) = .ok a ∧ referenceOrd (c :: p ++ showNat m) = .ok b ∧
      (Spec.RefLt a b ↔ n < m) ∧ (a = b ↔ n = m) := by
  have h1 := C50_letter_and_number c p n [] hp hn (Or.inl rfl)
  have h2 := C50_letter_and_number c p m [] hp hm (Or.inl rfl)
  rw [List.append_nil] at h1 h2
  refine ⟨_, _, h1, h2, ?_, ?_⟩
  · simp [Spec.RefLt]
  · simp only [Prod.mk.injEq, true_and]; omega

/-- It panics exactly on the empty string and never fails otherwise. -/
theorem C50_panics_only_on_empty (r : Str) :
    (r = [] → referenceOrd r = .panic) ∧ (r ≠ [] → ∃ v, referenceOrd r = .ok v) := by
  cases r with
  | nil => simp [referenceOrd]
  | cons c cs => simp [referenceOrd]

/-- The result depends only on the first character and the digits before the
first comma.  In particular different prefixes with the same first letter are
not told apart. -/
theorem C50_only_first_letter (c : Char) (a b : Str)
    (h : ((c :: a).takeWhile (· != ',')).filter (fun c => decide (Spec.DecDigit c)) =
      ((c :: b).takeWhile (· != ',')).filter (fun c => decide (Spec.DecDigit c))) :
    referenceOrd (c :: a) = referenceOrd (c :: b) := by
  unfold referenceOrd
  rw [Spec.refDigits_eq, Spec.refDigits_eq, h]

example : ((str! "RN1").takeWhile (· != ',')).filter (fun c => decide (Spec.DecDigit c)) =
    ((str! "R1,7").takeWhile (· != ',')).filter (fun c => decide (Spec.DecDigit c)) := by decide

/-- A number of 2^63 or more counts as 0. -/
theorem C50_too_large (c : Char) (p : Str) (n : Nat)
    (hp : ∀ d ∈ c :: p, ¬ Spec.DecDigit d ∧ d ≠ ',') (hn : 2 ^ 63 ≤ n) :
    referenceOrd (c :: p ++ showNat n) = .ok (c, 0) := by
  have hd := Spec.digits_prefix (c :: p) n [] hp (Or.inl rfl)
  have hi : i64FromStr (showNat n) = none := by
    unfold i64FromStr readI64
    have hr : readBase 10 (showNat n) = some n := readBase_showBase (by omega) (by omega) n
    have hds := showBase_digits (b := 10) (by omega) n
    split
    · rename_i cs heq
      obtain ⟨d, hd, hc⟩ := hds '-' (by show '-' ∈ showNat n; simp [heq])
      exact absurd hc.symm (digitChar_ne_minus d (by omega)).1
    · rename_i cs heq
      obtain ⟨d, hd, hc⟩ := hds '+' (by show '+' ∈ showNat n; simp [heq])
      exact absurd hc.symm (digitChar_ne_minus d (by omega)).2
    · rw [hr]
      have : ¬ inI64 (n : Int) := by unfold inI64; omega
      simp [this]
  rw [List.append_nil] at hd
  have : referenceOrd (c :: (p ++ showNat n)) = .ok (c, 0) := by
    unfold referenceOrd
    have hd' : refDigits (c :: (p ++ showNat n)) = showNat n := by simpa using hd
    simp only [hd', hi]
  simpa using this

example : referenceOrd (str! "R9223372036854775808") = .ok ('R', 0) := by decide +kernel

end Verif
