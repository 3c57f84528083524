import Verif.Lemmas.LayPrinting
import Verif.Props.C35
import Verif.Props.C68
/-!
# C69: the text of a board file is laid out section by section
-/

namespace Verif
open Flt Lay Spec

variable {F : Type} [Flt F]

/-- The text of a board is the header, the elements one after the other, and a
closing parenthesis on a line of its own.  The text of an element depends on the
element only; what separates it from the one before depends on whether the
footprints end here and whether it is the first track. -/
theorem C69_text (q : Str → Bool) (level : Int) (l : Layout F) (h : PlainBoard l) :
    Lay.toText q level l =
      str! "(" ++ Fm.atomText q (str! "kicad_pcb") ++ headerText (Fm.atomText q) level l ++
      boardElements (Fm.atomText q) level false false l.elements ++ str! "\n)\n" :=
  Lay.toText_eq q level l h

/-- A footprint looks in a board as it does in a file of its own that starts one
level deeper: an empty line comes before it, and it is closed on a line that is
indented. -/
theorem C69_footprint_as_in_file (q : Str → Bool) (level : Int) (m : Fp.Module F) :
    ∃ content, Fp.toText q (level + 1) m = content ++ str! "\n)" ∧
      boardElementText (Fm.atomText q) level (.module_ m) =
        startLine 2 (level + 1) ++ content ++ startLine 1 (level + 1) ++ str! ")" := by
  refine ⟨_, C68_text q (level + 1) m, ?_⟩
  simp [boardElementText, section_]

/-- Elements that are separated in the same way: two footprints, two tracks, or
two known elements that are neither. -/
def Spec.SameSort (e e' : Elem F) : Prop :=
  ((∃ m, e = .module_ m) ∧ ∃ m, e' = .module_ m) ∨ ((∃ s, e = .segment s) ∧ ∃ s, e' = .segment s) ∨
  ((∀ m, e ≠ .module_ m) ∧ (∀ s, e ≠ .segment s) ∧ (∀ x, e ≠ .other x) ∧
   (∀ m, e' ≠ .module_ m) ∧ (∀ s, e' ≠ .segment s) ∧ (∀ x, e' ≠ .other x))

/-- The flags after a list of elements. -/
def Lay.flagsAfter (m s : Bool) : List (Elem F) → Bool × Bool
  | [] => (m, s)
  | e :: es => flagsAfter (afterModule m e) (seenSegment s e) es

theorem Lay.boardElements_append (sp : Str → Str) (level : Int) (a b : List (Elem F)) (m s : Bool) :
    boardElements sp level m s (a ++ b) = boardElements sp level m s a ++
      boardElements sp level (flagsAfter m s a).1 (flagsAfter m s a).2 b := by
  induction a generalizing m s with
  | nil => rfl
  | cons e a ih => simp [boardElements, flagsAfter, ih]

theorem Lay.sameSort_separator (level : Int) (m s : Bool) (e e' : Elem F) (h : SameSort e e') :
    separator level m s e = separator level m s e' ∧ afterModule m e = afterModule m e' ∧
      seenSegment s e = seenSegment s e' := by
  have hk : ∀ e : Elem F, (∀ m, e ≠ .module_ m) → (∀ s, e ≠ .segment s) → (∀ x, e ≠ .other x) →
      separator level m s e = (if m then startLine 1 level else []) ∧ afterModule m e = false ∧
        seenSegment s e = s := by
    intro e h1 h2 h3
    cases e with
    | module_ x => exact absurd rfl (h1 x)
    | segment x => exact absurd rfl (h2 x)
    | other x => exact absurd rfl (h3 x)
    | _ =>
      refine ⟨Eq.trans (b := [] ++ ((if m then startLine 1 level else []) ++ [])) ?_ (by simp), rfl, rfl⟩
      cases m <;> rfl
  rcases h with ⟨⟨a, rfl⟩, b, rfl⟩ | ⟨⟨a, rfl⟩, b, rfl⟩ | ⟨h1, h2, h3, h4, h5, h6⟩
  · exact ⟨rfl, rfl, rfl⟩
  · exact ⟨rfl, rfl, rfl⟩
  · obtain ⟨a1, a2, a3⟩ := hk e h1 h2 h3
    obtain ⟨b1, b2, b3⟩ := hk e' h4 h5 h6
    exact ⟨a1.trans b1.symm, a2.trans b2.symm, a3.trans b3.symm⟩

/-- Replacing an element by another one of the same sort changes the text of
this element and nothing before or after it. -/
theorem C69_edit_is_local (q : Str → Bool) (level : Int) (l : Layout F) (before after : List (Elem F))
    (e e' : Elem F) (hs : SameSort e e') (h : PlainBoard { l with elements := before ++ e :: after })
    (h' : PlainBoard { l with elements := before ++ e' :: after }) :
    ∃ a b : Str,
      Lay.toText q level { l with elements := before ++ e :: after } =
        a ++ boardElementText (Fm.atomText q) level e ++ b ∧
      Lay.toText q level { l with elements := before ++ e' :: after } =
        a ++ boardElementText (Fm.atomText q) level e' ++ b := by
  rw [C69_text q level _ h, C69_text q level _ h']
  simp only [boardElements_append, boardElements]
  obtain ⟨s1, s2, s3⟩ := Lay.sameSort_separator level (flagsAfter false false before).1
    (flagsAfter false false before).2 e e' hs
  have hh : headerText (Fm.atomText q) level { l with elements := before ++ e :: after } =
    headerText (Fm.atomText q) level { l with elements := before ++ e' :: after } := rfl
  rw [s1, s2, s3, hh]
  refine ⟨str! "(" ++ Fm.atomText q (str! "kicad_pcb") ++
      headerText (Fm.atomText q) level { l with elements := before ++ e' :: after } ++
      boardElements (Fm.atomText q) level false false before ++
      separator level (flagsAfter false false before).1 (flagsAfter false false before).2 e',
    boardElements (Fm.atomText q) level (afterModule (flagsAfter false false before).1 e')
      (seenSegment (flagsAfter false false before).2 e') after ++ str! "\n)\n", ?_, ?_⟩ <;> simp

theorem Spec.sampleLayout_plain : PlainBoard Spec.sampleLayout := by
  refine ⟨by decide, ?_⟩
  simp only [Spec.sampleLayout, List.forall_mem_cons]
  refine ⟨?_, ?_, ?_, ?_, ?_, ?_, ?_, ?_, by simp⟩
  all_goals refine ⟨fun x hx => ?_, fun z hz => ?_⟩
  all_goals first | (cases hx; done) | (cases hz; done) | skip
  · cases hz; decide
  · cases hx; simp [BoardItem, RegularL, Regular]

example : SameSort (F := Nm) (.net ⟨0, []⟩) (.net ⟨1, str! "GND"⟩) :=
  .inr (.inr ⟨by simp, by simp, by simp, by simp, by simp, by simp⟩)

/-- The tracks of the sample board start after an empty line and the footprint
before them is closed on a line of its own. -/
example : ∃ a b, Lay.toText Fm.stdQuote 0 Spec.sampleLayout =
    a ++ str! "\n\n  (module R\n    (attr smd) locked\n  )\n\n\n  (segment " ++ b := by
  rw [C69_text _ _ _ Spec.sampleLayout_plain]
  refine ⟨(Lay.toText Fm.stdQuote 0 Spec.sampleLayout).take 719, (Lay.toText Fm.stdQuote 0 Spec.sampleLayout).drop 772, ?_⟩
  decide +kernel

end Verif
