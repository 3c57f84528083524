import Verif.Lemmas.NumberTexts
/-!
# C106: what counts as a number, and which number it is

`F64` reads texts as the standard library does.  The texts it takes for numbers are the number texts
of `Spec.NumberTexts`, and what it makes of one is the nearest number of 53 bits, an even one if two
are equally near, and an infinity if that is too large.
-/

namespace Verif
open Flt Spec

/-- A text is read as `x` exactly if it is a number text and `x` stands for the number meant by it. -/
theorem C106_number (s : Str) (x : F64) : ofStr s = some x ↔ ∃ n, NumberText s n ∧ Held n x := by
  rw [ofStr_readNumber, Option.map_eq_some_iff]
  constructor
  · rintro ⟨n, h, rfl⟩
    exact ⟨n, (readNumber_iff s n).1 h, held_near n⟩
  · rintro ⟨n, h, hx⟩
    exact ⟨n, (readNumber_iff s n).2 h, (held_unique hx).symm⟩

/-- Every number text is read. -/
theorem C106_total (s : Str) : (ofStr s : Option F64) = none ↔ ¬ ∃ n, NumberText s n := by
  rw [ofStr_readNumber, Option.map_eq_none_iff, Option.eq_none_iff_forall_ne_some]
  constructor
  · rintro h ⟨n, hn⟩
    exact h n ((readNumber_iff s n).2 hn)
  · intro h n hn
    exact h ⟨n, (readNumber_iff s n).1 hn⟩

/-- A text means one number. -/
theorem C106_one_number {s : Str} {n n' : Number} (h : NumberText s n) (h' : NumberText s n') : n = n' := h.unique h'

/-- One `f64` stands for a number. -/
theorem C106_held (n : Number) (x : F64) : Held n x ↔ x = n.near := held_iff n x

/-- One number of 53 bits is the nearest. -/
theorem C106_nearest (v : ℚ) : ∃ r, NearestTo v r ∧ ∀ r', NearestTo v r' → r' = r :=
  ⟨_, nearest_round64 v, fun _ h => h.unique (nearest_round64 v)⟩

/-- Integers are number texts as well. -/
theorem C106_integer {w : Str} {i : Int} (h : IntWord w i) : NumberText w (.fin i) := by
  obtain ⟨_, _, v, n, hd, ⟨rfl, rfl⟩ | ⟨rfl, rfl⟩ | ⟨rfl, rfl⟩⟩ := h
  · exact .decimal .none (.plain (.whole hd))
  · exact .decimal .plus (.plain (.whole hd))
  · have := NumberText.decimal .minus (.plain (.whole hd))
    simpa using this

/-- Zeros behind the last digit after the point do not change the number, nor does a point behind the
last digit. -/
theorem C106_trailing {i f : Str} {d : Nat} (h : Decimal (i ++ f) d) (k : Nat) :
    ∃ n, NumberText (i ++ '.' :: f) n ∧ NumberText (i ++ '.' :: (f ++ List.replicate k '0')) n := by
  refine ⟨_, .decimal .none (.plain (.point h)), ?_⟩
  have hz : ∀ k, Decimal (i ++ (f ++ List.replicate k '0')) (d * 10 ^ k) := by
    intro k
    induction k with
    | zero => simpa using h
    | succ k ih =>
      rw [List.replicate_succ', ← List.append_assoc, ← List.append_assoc, pow_succ, ← Nat.mul_assoc, Nat.mul_comm _ 10]
      rw [← List.append_assoc] at ih
      exact .more (d := 0) ih rfl
  have := NumberText.decimal (s := i ++ '.' :: (f ++ List.replicate k '0')) .none (.plain (.point (hz k)))
  convert this using 2
  rw [List.length_append, List.length_replicate]
  push_cast
  field_simp
  ring

/-- Zeros in front do not change the number. -/
theorem C106_leading {i : Str} {d : Nat} (h : Decimal i d) (k : Nat) : Decimal (List.replicate k '0' ++ i) d := by
  induction h with
  | @one c d h =>
    induction k with
    | zero => exact .one h
    | succ k ih =>
      have hz : ∀ k, Decimal (List.replicate (k + 1) '0') 0 := by
        intro k
        induction k with
        | zero => exact .one (d := 0) rfl
        | succ k ih => rw [List.replicate_succ']; simpa using Decimal.more (d := 0) ih rfl
      simpa using Decimal.more (hz k) h
  | more _ h ih => rw [← List.append_assoc]; exact .more ih h

/-! ## Samples -/

/-- Read one by one, number texts can be told from other texts. -/
theorem C106_samples :
    NumberText (str! "-1.50e2") (.fin (-150)) ∧ NumberText (str! ".5") (.fin (1 / 2)) ∧ NumberText (str! "+5.") (.fin 5) ∧
    NumberText (str! "-Infinity") (.inf true) ∧ NumberText (str! "NaN") .nan ∧
    (∀ s ∈ [str! "", str! ".", str! "1e", str! "e1", str! "1 ", str! "--1", str! "1_0", str! "0x1", str! "1,5"],
      ¬ ∃ n, NumberText s n) := by
  simp only [← readNumber_iff]
  refine ⟨by decide +kernel, by decide +kernel, by decide +kernel, by decide, by decide, ?_⟩
  have : ∀ s ∈ [str! "", str! ".", str! "1e", str! "e1", str! "1 ", str! "--1", str! "1_0", str! "0x1", str! "1,5"],
      readNumber s = none := by decide
  rintro s hs ⟨n, hn⟩
  rw [this s hs] at hn
  cases hn

/-- A tie: half way between two numbers of 53 bits the even one is taken. -/
example : (ofStr (str! "9007199254740993") : Option F64) = ofStr (str! "9007199254740992") := by decide +kernel

/-- Numbers that are too large are infinite, others not. -/
example : (ofStr (str! "1e309") : Option F64) = some (.inf false) ∧ (ofStr (str! "-1e309") : Option F64) = some (.inf true) ∧
    (ofStr (str! "1e-400") : Option F64) = ofStr (str! "0") := by decide +kernel

end Verif
