import Verif.Spec.Numerals
import Verif.Model.Schematic
import Verif.Lemmas.Num
/-!
# Reading integers, exactly
-/

namespace Verif
open Spec

theorem digit_iff (c : Char) (d : Nat) : (digitVal? c = some d ∧ d < 10) ↔ digits[d]? = some c := by
  constructor
  · rintro ⟨h, hd⟩
    unfold digitVal? at h
    have hc : c.toNat = 48 + d := by
      dsimp only at h
      split at h
      · cases h; omega
      · split at h
        · cases h; omega
        · split at h
          · cases h; omega
          · cases h
    have : c = Char.ofNat (48 + d) := by
      rw [← hc, Char.ofNat_toNat]
    subst this
    have : ∀ d < 10, digits[d]? = some (Char.ofNat (48 + d)) := by decide
    exact this d hd
  · intro h
    have hd : d < 10 := (List.getElem?_eq_some_iff.1 h).1
    have : ∀ d < 10, ∀ c, digits[d]? = some c → digitVal? c = some d := by
      intro d hd c hc
      have h2 : ∀ d < 10, (digits[d]?).bind digitVal? = some d := by decide
      have := h2 d hd
      rw [hc] at this
      exact this
    exact ⟨this d hd c h, hd⟩

theorem readDigits_append (b acc : Nat) (w : Str) (c : Char) : readDigits b acc (w ++ [c]) =
    (readDigits b acc w).bind fun n => (digitVal? c).bind fun d => if d < b then some (n * b + d) else none := by
  induction w generalizing acc with
  | nil => cases h : digitVal? c <;> simp [readDigits, h]
  | cons a w ih =>
    rw [List.cons_append, readDigits, readDigits]
    cases digitVal? a with
    | none => rfl
    | some d =>
      simp only
      split
      · exact ih _
      · rfl

theorem readBase_append (w : Str) (c : Char) (hw : w ≠ []) : readBase 10 (w ++ [c]) =
    (readBase 10 w).bind fun n => (digitVal? c).bind fun d => if d < 10 then some (n * 10 + d) else none := by
  unfold readBase
  rw [if_neg (by simp), if_neg (by simpa using hw), readDigits_append]

theorem readBase_iff (w : Str) (n : Nat) : readBase 10 w = some n ↔ Decimal w n := by
  constructor
  · generalize hk : w.length = k
    intro h
    induction k generalizing w n with
    | zero =>
      rw [List.length_eq_zero_iff] at hk
      subst hk
      cases h
    | succ k ih =>
      rcases List.eq_nil_or_concat w with rfl | ⟨v, c, rfl⟩
      · cases hk
      · rw [List.concat_eq_append] at h hk ⊢
        by_cases hv : v = []
        · subst hv
          have h1 : readBase 10 [c] = (digitVal? c).bind fun d => if d < 10 then some d else none := by
            unfold readBase readDigits
            simp only [List.isEmpty_cons, Bool.false_eq_true, if_false]
            cases digitVal? c <;> simp [readDigits]
          rw [List.nil_append, h1] at h
          obtain ⟨d, hd, h⟩ := Option.bind_eq_some_iff.1 h
          split at h
          · cases h
            exact .one ((digit_iff c n).1 ⟨hd, by assumption⟩)
          · cases h
        · rw [readBase_append v c hv] at h
          obtain ⟨m, hm, h⟩ := Option.bind_eq_some_iff.1 h
          obtain ⟨d, hd, h⟩ := Option.bind_eq_some_iff.1 h
          split at h
          · cases h
            rw [Nat.mul_comm]
            exact .more (ih v m (by simpa using hk) hm) ((digit_iff c d).1 ⟨hd, by assumption⟩)
          · cases h
  · intro h
    induction h with
    | @one c d h =>
      obtain ⟨h1, h2⟩ := (digit_iff c d).2 h
      simp [readBase, readDigits, h1, h2]
    | @more w n c d hw h ih =>
      obtain ⟨h1, h2⟩ := (digit_iff c d).2 h
      have hne : w ≠ [] := by
        rintro rfl
        cases ih
      rw [readBase_append w c hne, ih]
      simp [h1, h2, Nat.mul_comm]

theorem Spec.Decimal.head {w : Str} {n : Nat} (h : Decimal w n) : ∃ c v, w = c :: v ∧ c ∈ digits := by
  induction h with
  | @one c d h => exact ⟨c, [], rfl, List.mem_of_getElem? h⟩
  | more _ _ ih =>
    obtain ⟨c, v, rfl, hc⟩ := ih
    exact ⟨c, _, rfl, hc⟩

/-- The integers of the standard library. -/
theorem i64FromStr_iff (w : Str) (i : Int) : i64FromStr w = some i ↔ IntWord w i := by
  unfold i64FromStr readI64 IntWord
  have chk : ∀ (o : Option Nat) (f : Nat → Int), (o.bind fun n => if inI64 (f n) then some (f n) else none) = some i ↔
      inI64 i ∧ ∃ n, o = some n ∧ i = f n := by
    intro o f
    cases o with
    | none => simp
    | some n =>
      simp only [Option.bind_some, Option.some.injEq]
      constructor
      · intro h
        split at h
        · cases h; exact ⟨by assumption, n, rfl, rfl⟩
        · cases h
      · rintro ⟨h, m, rfl, rfl⟩
        rw [if_pos h]
  have hd : ∀ c ∈ digits, c ≠ '+' ∧ c ≠ '-' := by decide
  split
  · rename_i cs
    rw [chk _ fun n => -(Int.ofNat n)]
    constructor
    · rintro ⟨h, n, hn, rfl⟩
      exact ⟨h.1, h.2, cs, n, (readBase_iff _ _).1 hn, .inr (.inr ⟨rfl, rfl⟩)⟩
    · rintro ⟨h1, h2, v, n, hv, h | h | h⟩
      · obtain ⟨c, v', rfl, hc⟩ := hv.head
        exact absurd (List.cons.inj h.1).1.symm (hd c hc).2
      · cases h.1
      · obtain ⟨e, rfl⟩ := h
        cases e
        exact ⟨⟨h1, h2⟩, n, (readBase_iff _ _).2 hv, rfl⟩
  · rename_i cs
    rw [chk _ fun n => Int.ofNat n]
    constructor
    · rintro ⟨h, n, hn, rfl⟩
      exact ⟨h.1, h.2, cs, n, (readBase_iff _ _).1 hn, .inr (.inl ⟨rfl, rfl⟩)⟩
    · rintro ⟨h1, h2, v, n, hv, h | h | h⟩
      · obtain ⟨c, v', rfl, hc⟩ := hv.head
        exact absurd (List.cons.inj h.1).1.symm (hd c hc).1
      · obtain ⟨e, rfl⟩ := h
        cases e
        exact ⟨⟨h1, h2⟩, n, (readBase_iff _ _).2 hv, rfl⟩
      · cases h.1
  · rename_i hn hp
    rw [chk _ fun n => Int.ofNat n]
    constructor
    · rintro ⟨h, n, hn, rfl⟩
      exact ⟨h.1, h.2, w, n, (readBase_iff _ _).1 hn, .inl ⟨rfl, rfl⟩⟩
    · rintro ⟨h1, h2, v, n, hv, h | h | h⟩
      · obtain ⟨rfl, rfl⟩ := h
        exact ⟨⟨h1, h2⟩, n, (readBase_iff _ _).2 hv, rfl⟩
      · exact absurd h.1 (hp v)
      · exact absurd h.1 (hn v)

namespace Sch

theorem i64R_iff (w : Str) (i : Int) : i64R w = .ok i ↔ IntWord w i := by
  rw [← i64FromStr_iff]
  unfold i64R
  cases i64FromStr w <;> simp

theorem f64R_iff {F : Type} [Flt F] (w : Str) (x : F) : f64R w = .ok x ↔ FloatWord w x := by
  unfold f64R FloatWord
  cases (Flt.ofStr w : Option F) <;> simp

theorem boolFrom_iff {α : Type} [DecidableEq α] (w t f : α) (b : Bool) (h : t ≠ f) :
    boolFrom w t f = .ok b ↔ Choice t f w b := by
  unfold boolFrom Choice
  split
  · rename_i e
    subst e
    cases b <;> simp [h]
  · split
    · rename_i e
      subst e
      cases b <;> simp [*]
    · cases b <;> simp [*]

end Sch
end Verif
