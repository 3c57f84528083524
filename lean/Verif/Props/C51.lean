import Verif.Model.CheckFix
import Verif.Lemmas.Num
/-!
# C51: the allowed-character rule for names
-/

namespace Verif

/-- A character that may occur in names: an ASCII letter or digit, underscore,
minus or point. -/
def Spec.NameChar (c : Char) : Prop :=
  ('A' ≤ c ∧ c ≤ 'Z') ∨ ('a' ≤ c ∧ c ≤ 'z') ∨ ('0' ≤ c ∧ c ≤ '9') ∨ c = '_' ∨ c = '-' ∨ c = '.'

instance (c : Char) : Decidable (Spec.NameChar c) := inferInstanceAs (Decidable (_ ∨ _))

theorem Spec.nameChar_iff (c : Char) : Spec.NameChar c ↔ c ∈ allowedChars := by
  constructor
  · intro h
    have key : ∀ n, n < 128 → Spec.NameChar (Char.ofNat n) → Char.ofNat n ∈ allowedChars := by
      decide +kernel
    have hlt : c.toNat < 128 := by
      simp only [NameChar, Char.le_def, UInt32.le_iff_toNat_le] at h
      have hc : c.toNat = c.val.toNat := rfl
      have e1 : ('A' : Char).val.toNat = 65 := rfl
      have e2 : ('Z' : Char).val.toNat = 90 := rfl
      have e3 : ('a' : Char).val.toNat = 97 := rfl
      have e4 : ('z' : Char).val.toNat = 122 := rfl
      have e5 : ('0' : Char).val.toNat = 48 := rfl
      have e6 : ('9' : Char).val.toNat = 57 := rfl
      rcases h with h | h | h | h | h | h
      · omega
      · omega
      · omega
      · rw [h]; decide
      · rw [h]; decide
      · rw [h]; decide
    have := key c.toNat hlt
    rw [Char.ofNat_toNat] at this
    exact this h
  · intro h
    have key : ∀ c ∈ allowedChars, NameChar c := by decide +kernel
    exact key c h

/-- The findings for a name, from the violating characters and their positions. -/
def Spec.charFindings (s : Str) : List CheckFixData :=
  (s.zipIdx.filter fun x => !decide (Spec.NameChar x.1)).map fun x =>
    .item ⟨1, 7, s, str! "Invalid char '" ++ [x.1] ++ str! "' at " ++ showNat x.2 ++ str! " in '" ++ s ++ str! "'",
      false⟩

theorem Spec.invalidMsgs_eq (s : Str) : ∀ (cs : Str) (i : Nat),
    (invalidMsgs s i cs).map (fun x => CheckFixData.new 1 7 s x) =
      ((cs.zipIdx i).filter fun x => !decide (Spec.NameChar x.1)).map fun x =>
        .item ⟨1, 7, s, str! "Invalid char '" ++ [x.1] ++ str! "' at " ++ showNat x.2 ++ str! " in '" ++ s ++
          str! "'", false⟩
  | [], _ => rfl
  | c :: cs, i => by
    have ih := invalidMsgs_eq s cs (i + 1)
    rw [invalidMsgs, List.zipIdx_cons]
    by_cases h : c ∈ allowedChars
    · rw [if_pos h, List.filter_cons_of_neg (by simpa using (Spec.nameChar_iff c).2 h), ih]
    · rw [if_neg h, List.filter_cons_of_pos (by simpa [Spec.nameChar_iff] using h), List.map_cons, ih]
      rfl

/-- One finding per violating character, in order, naming the character, its
position and the text. -/
theorem C51_findings (s : Str) : allowed17Items s = Spec.charFindings s := by
  have h := Spec.invalidMsgs_eq s s 0
  unfold allowed17Items allowed17 Spec.charFindings
  cases hv : invalidMsgs s 0 s with
  | nil => rw [hv] at h; simpa using h
  | cons x l => rw [hv] at h; simpa using h

/-- A text is allowed exactly if all its characters are. -/
theorem C51_allowed (s : Str) : isAllowed17 s = true ↔ ∀ c ∈ s, Spec.NameChar c := by
  have key : ∀ (cs : Str) (i : Nat), invalidMsgs s i cs = [] ↔ ∀ c ∈ cs, Spec.NameChar c := by
    intro cs
    induction cs with
    | nil => simp [invalidMsgs]
    | cons c cs ih =>
      intro i
      rw [invalidMsgs, List.forall_mem_cons, ← ih (i + 1), Spec.nameChar_iff]
      by_cases h : c ∈ allowedChars <;> simp [h]
  rw [← key s 0]
  unfold isAllowed17 allowed17
  cases invalidMsgs s 0 s <;> simp

/-- Allowed means no finding, and the number of findings is the number of
violating characters. -/
theorem C51_count (s : Str) :
    (allowed17Items s).length = (s.filter fun c => !decide (Spec.NameChar c)).length ∧
    (isAllowed17 s = true ↔ allowed17Items s = []) := by
  have h1 : (allowed17Items s).length = (s.filter fun c => !decide (Spec.NameChar c)).length := by
    rw [C51_findings, Spec.charFindings, List.length_map]
    have : ∀ (cs : Str) (i : Nat), ((cs.zipIdx i).filter fun x => !decide (Spec.NameChar x.1)).length =
        (cs.filter fun c => !decide (Spec.NameChar c)).length := by
      intro cs
      induction cs with
      | nil => intro i; rfl
      | cons c cs ih =>
        intro i
        rw [List.zipIdx_cons]
        by_cases h : Spec.NameChar c <;> simp [h, ih (i + 1)]
    exact this s 0
  refine ⟨h1, ?_⟩
  rw [C51_allowed, ← List.length_eq_zero_iff, h1, List.length_eq_zero_iff, List.filter_eq_nil_iff]
  simp

example : isAllowed17 (str! "R_0402.a-B") = true ∧ (allowed17Items (str! "a b/é")).length = 3 := by
  decide +kernel

end Verif
