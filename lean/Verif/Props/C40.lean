import Verif.Model.Layout.Data
import Verif.Lemmas.SplitPred
/-!
# C40: automatically named nets
-/

namespace Verif
open Lay

/-- The characters that separate the parts of an automatic net name. -/
def Spec.isSep (c : Char) : Prop := c = '-' ∨ c = '(' ∨ c = ')'

/-- A text that has none of the characters `-`, `(` and `)`. -/
def Spec.NoSep (s : Str) : Prop := ∀ c ∈ s, ¬ Spec.isSep c

open Spec

theorem Lay.sep_true {c : Char} : ((c == '-' || c == '(' || c == ')') = true) ↔ isSep c := by
  simp [isSep, or_assoc]

theorem Lay.sep_false {c : Char} : ((c == '-' || c == '(' || c == ')') = false) ↔ ¬ isSep c := by
  rw [← Lay.sep_true]; simp

theorem Lay.split_two {p : Char → Bool} {x a : Str} {l : List Str} (h : splitPred p x = a :: l)
    (hl : l ≠ []) : ∃ c b, x = a ++ c :: b ∧ p c = true ∧ splitPred p b = l ∧ ∀ c ∈ a, p c = false := by
  rcases splitPred_cases p x with h1 | ⟨a', c, b, rfl, hc, ha⟩
  · rw [splitPred_none p x h1] at h
    cases h; exact absurd rfl hl
  · rw [splitPred_cons p a' b c ha hc] at h
    cases h
    exact ⟨c, b, rfl, hc, rfl, ha⟩

theorem Lay.split_one {p : Char → Bool} {x a : Str} (h : splitPred p x = [a]) :
    x = a ∧ ∀ c ∈ a, p c = false := by
  rcases splitPred_cases p x with h1 | ⟨a', c, b, rfl, hc, ha⟩
  · rw [splitPred_none p x h1] at h
    cases h; exact ⟨rfl, h1⟩
  · rw [splitPred_cons p a' b c ha hc] at h
    cases h2 : splitPred p b with
    | nil => exact absurd h2 (splitPred_ne_nil p b)
    | cons y ys => rw [h2] at h; simp at h

/-- Exactly which names are recognised, and as what: the text `Net-(`, the
component, one separator, the pin, one separator, and any further text without
separators. -/
theorem C40_recognised_iff (name c d : Str) :
    isUnnamedNet name = some (c, d) ↔
    ∃ (s1 s2 : Char) (rest : Str), isSep s1 ∧ isSep s2 ∧ NoSep c ∧ NoSep d ∧ NoSep rest ∧
      name = str! "Net-(" ++ c ++ [s1] ++ d ++ [s2] ++ rest := by
  have pre : ∀ x, splitPred (fun c => c == '-' || c == '(' || c == ')') (str! "Net-(" ++ x) =
      str! "Net" :: [] :: splitPred (fun c => c == '-' || c == '(' || c == ')') x := by
    intro x
    have h1 := splitPred_cons (fun c => c == '-' || c == '(' || c == ')') (str! "Net") ('(' :: x) '-'
      (by decide) (by decide)
    have h2 := splitPred_cons (fun c => c == '-' || c == '(' || c == ')') [] x '('
      (by decide) (by decide)
    simp only [List.nil_append] at h2
    rw [h2] at h1
    exact h1
  constructor
  · intro h
    simp only [isUnnamedNet] at h
    split at h
    · rename_i hp
      simp only [startsWith, List.isPrefixOf_iff_prefix] at hp
      obtain ⟨x, rfl⟩ := hp
      rw [pre] at h
      split at h
      · rename_i u v c' d' rest heq
        simp only [Option.some.injEq, Prod.mk.injEq] at h
        obtain ⟨rfl, rfl⟩ := h
        simp only [List.cons.injEq] at heq
        obtain ⟨-, -, heq⟩ := heq
        obtain ⟨s1, b, rfl, hs1, hb, hc⟩ := Lay.split_two heq (by simp)
        obtain ⟨s2, b2, rfl, hs2, hb2, hd⟩ := Lay.split_two hb (by simp)
        obtain ⟨rfl, hr⟩ := Lay.split_one hb2
        exact ⟨s1, s2, b2, Lay.sep_true.1 hs1, Lay.sep_true.1 hs2,
          fun c h => Lay.sep_false.1 (hc c h), fun c h => Lay.sep_false.1 (hd c h),
          fun c h => Lay.sep_false.1 (hr c h), by simp⟩
      · simp at h
    · simp at h
  · rintro ⟨s1, s2, rest, h1, h2, hc, hd, hr, rfl⟩
    have hs : startsWith (str! "Net-(" ++ c ++ [s1] ++ d ++ [s2] ++ rest) (str! "Net-(") = true := by
      simp [startsWith, List.isPrefixOf]
    have e : str! "Net-(" ++ c ++ [s1] ++ d ++ [s2] ++ rest =
        str! "Net-(" ++ (c ++ s1 :: (d ++ s2 :: rest)) := by simp
    rw [isUnnamedNet, if_pos hs, e, pre,
      splitPred_cons _ c _ s1 (fun x h => Lay.sep_false.2 (hc x h)) (Lay.sep_true.2 h1),
      splitPred_cons _ d _ s2 (fun x h => Lay.sep_false.2 (hd x h)) (Lay.sep_true.2 h2),
      splitPred_none _ rest (fun x h => Lay.sep_false.2 (hr x h))]

example : isUnnamedNet (str! "Net-(C1-Pad2)") = some (str! "C1", str! "Pad2") := by decide +kernel

/-- Changing the component of an automatic name: it succeeds exactly on
automatic names; the pin is kept; the result has the standard form and, if the
new component has no separator, is recognised again. -/
theorem C40_set_component (name new : Str) :
    (∀ c d, isUnnamedNet name = some (c, d) →
      setUnnamedNet name new = .ok (str! "Net-(" ++ new ++ str! "-" ++ d ++ str! ")") ∧
      (NoSep new → isUnnamedNet (str! "Net-(" ++ new ++ str! "-" ++ d ++ str! ")") = some (new, d))) ∧
    (isUnnamedNet name = none → setUnnamedNet name new = .err .other) := by
  refine ⟨fun c d h => ⟨by simp [setUnnamedNet, h], fun hn => ?_⟩, fun h => by simp [setUnnamedNet, h]⟩
  obtain ⟨s1, s2, rest, h1, h2, hc, hd, hr, rfl⟩ := (C40_recognised_iff _ _ _).1 h
  rw [C40_recognised_iff]
  exact ⟨'-', ')', [], by simp [isSep], by simp [isSep], hn, hd, by simp [NoSep], by simp⟩

/-- For a name in the standard form the component is replaced and everything
else is kept; setting the component it already has changes nothing. -/
theorem C40_set_standard (c d new : Str) (hc : NoSep c) (hd : NoSep d) :
    setUnnamedNet (str! "Net-(" ++ c ++ str! "-" ++ d ++ str! ")") new =
      .ok (str! "Net-(" ++ new ++ str! "-" ++ d ++ str! ")") :=
  ((C40_set_component _ new).1 c d ((C40_recognised_iff _ _ _).2
    ⟨'-', ')', [], by simp [isSep], by simp [isSep], hc, hd, by simp [NoSep], by simp⟩)).1

example : NoSep (str! "C1") ∧ NoSep (str! "Pad2") := by
  constructor <;> · intro c hc; simp at hc; rcases hc with rfl | rfl | rfl | rfl <;> simp [isSep]

/-- Text after the closing parenthesis is accepted but dropped: for such names
more than the component changes. -/
theorem C40_trailing_text_dropped (c d rest : Str) (hc : NoSep c) (hd : NoSep d) (hr : NoSep rest)
    (hne : rest ≠ []) :
    isUnnamedNet (str! "Net-(" ++ c ++ str! "-" ++ d ++ str! ")" ++ rest) = some (c, d) ∧
    setUnnamedNet (str! "Net-(" ++ c ++ str! "-" ++ d ++ str! ")" ++ rest) c ≠
      .ok (str! "Net-(" ++ c ++ str! "-" ++ d ++ str! ")" ++ rest) := by
  have h := (C40_recognised_iff (str! "Net-(" ++ c ++ str! "-" ++ d ++ str! ")" ++ rest) c d).2
    ⟨'-', ')', rest, by simp [isSep], by simp [isSep], hc, hd, hr, rfl⟩
  refine ⟨h, ?_⟩
  rw [((C40_set_component _ c).1 c d h).1]
  intro he
  rw [Res.ok.injEq] at he
  have := congrArg List.length he
  simp at this
  exact hne this

end Verif
