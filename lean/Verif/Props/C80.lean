import Verif.Props.C69
/-!
# C80: what the library does not know is written on one line, whatever its shape
-/

namespace Verif
open Flt Lay Spec

variable {F : Type} [Flt F]

/-- A tree without any list the formatter follows is written on one line: a
parenthesis, the elements with single blanks between them, a parenthesis.  Lists
may start with a list and may be empty. -/
theorem C80_tree_on_one_line (q : Str → Bool) (level : Int) (e : Sexp) (h : foreign e = true) :
    Fm.toText q level e = flat (Fm.atomText q) e := by
  have hi : Fm.Idle (Fm.St.new level) := ⟨rfl, fun _ _ => rfl⟩
  rw [Fm.toText, Fm.ser_foreign q e _ hi h]

theorem Spec.separator_foreign (level : Int) (m s : Bool) {x : Sexp} (hx : foreignEntry x = true) :
    separator (F := F) level m s (.other x) = [' '] ++ (if m then startLine 1 level else []) ∧
      afterModule m (.other x : Elem F) = false ∧ seenSegment s (.other x : Elem F) = s := by
  match x, hx with
  | .list (.str h :: l), hx =>
    simp only [foreignEntry, foreign, Bool.and_eq_true, Bool.not_eq_true', decide_eq_false_iff_not] at hx
    obtain ⟨⟨h1, h2⟩, h3, h4⟩ := hx
    have hm : h ≠ str! "module" := fun e => h3 (e ▸ by decide)
    have hsg : h ≠ str! "segment" := fun e => h3 (e ▸ by decide)
    have hpl : place [str! "kicad_pcb"] 0 h = none := by
      have hf : byRules footprintRules (str! "kicad_pcb") h = none := by
        simp [byRules, footprintRules, Rule.applies]
      have hb : byRules boardRules (str! "kicad_pcb") h = none := by
        simp [entryNames, boardRules, not_or] at h2
        simp [byRules, boardRules, Rule.applies, h2]
      simp [place, placeIn, hf, hb]
    refine ⟨?_, ?_, ?_⟩
    · simp [separator, gap, hpl, boardBreak, headOf, hm, hsg, Elem.ser]
    · simp [afterModule, headOf, hm]
    · simp [seenSegment, headOf, hsg]

/-- A section of a board that the library does not know takes one line of text
and nothing else in the file depends on it: it comes after a blank (after a line
break too when a footprint is before it), is written with single blanks between
its elements, and is followed by what would follow any other unknown section. -/
theorem C80_unknown_section (q : Str → Bool) (level : Int) (l : Layout F) (before after : List (Elem F))
    (hl : PlainBoard { l with elements := before ++ after }) :
    ∃ a b, ∀ x, foreignEntry x = true →
      Lay.toText q level { l with elements := before ++ .other x :: after } =
        a ++ [' '] ++ (if (flagsAfter false false before).1 then startLine 1 level else []) ++
          flat (Fm.atomText q) x ++ b := by
  refine ⟨str! "(" ++ Fm.atomText q (str! "kicad_pcb") ++ headerText (Fm.atomText q) level l ++
      boardElements (Fm.atomText q) level false false before,
    boardElements (Fm.atomText q) level false (flagsAfter false false before).2 after ++ str! "\n)\n", ?_⟩
  intro x hx
  have hp : PlainBoard { l with elements := before ++ .other x :: after } := by
    refine ⟨hl.1, fun e he => ?_⟩
    simp only [List.mem_append, List.mem_cons] at he
    rcases he with he | rfl | he
    · exact hl.2 e (List.mem_append_left _ he)
    · refine ⟨fun y hy => ?_, fun z hz => by cases hz⟩
      cases hy
      match x, hx with
      | .list (.str h :: l), hx => exact Or.inl hx
    · exact hl.2 e (List.mem_append_right _ he)
  obtain ⟨s1, s2, s3⟩ := separator_foreign (F := F) level (flagsAfter false false before).1
    (flagsAfter false false before).2 hx
  rw [C69_text q level _ hp]
  simp only [boardElements_append, boardElements, s1, s2, s3]
  have ht : boardElementText (Fm.atomText q) level (.other x : Elem F) = flat (Fm.atomText q) x := if_pos hx
  have hh : headerText (Fm.atomText q) level { l with elements := before ++ .other x :: after } =
      headerText (Fm.atomText q) level l := rfl
  rw [ht, hh]
  simp

/-- A section with unnamed and empty lists in it. -/
def Spec.sampleUnknown : Sexp :=
  .list [.str (str! "target"), .str (str! "plus"), .list [.list [.str (str! "at"), .str (str! "1")], .str (str! "x y")],
    .list [], .list [.str (str! "net"), .str (str! "1")]]

example : foreignEntry sampleUnknown = true ∧
    flat (Fm.atomText Fm.stdQuote) sampleUnknown = str! "(target plus ((at 1) \"x y\") () (net 1))" := by
  decide +kernel

example : ∃ a b, Lay.toText Fm.stdQuote 0
    { Spec.sampleLayout with elements := Spec.sampleLayout.elements ++ [.other sampleUnknown] } =
      a ++ str! " (target plus ((at 1) \"x y\") () (net 1))" ++ b := by
  obtain ⟨a, b, h⟩ := C80_unknown_section Fm.stdQuote 0 Spec.sampleLayout Spec.sampleLayout.elements []
    (by simpa using Spec.sampleLayout_plain)
  refine ⟨a ++ (if (flagsAfter (F := Nm) false false Spec.sampleLayout.elements).1 then [' '] ++ startLine 1 0 else []), b, ?_⟩
  have := h sampleUnknown (by decide +kernel)
  rw [this]
  have e1 : (flagsAfter (F := Nm) false false Spec.sampleLayout.elements).1 = false := rfl
  have e2 : flat (Fm.atomText Fm.stdQuote) sampleUnknown = str! "(target plus ((at 1) \"x y\") () (net 1))" := by
    decide +kernel
  simp [e1, e2]

end Verif
