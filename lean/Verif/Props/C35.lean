import Verif.Lemmas.LayRead
import Verif.Props.C19
/-!
# C35: a saved layout reads back as the same layout
-/

namespace Verif
open Flt Lay Spec

variable {F : Type} [Flt F] [TextLaws F] [ZeroLaws F]

theorem Spec.SavableLayout.shapes {l : Layout F} (h : SavableLayout l) :
    ∀ e ∈ l.elements, ∀ m, e = .module_ m → Fp.ShapesRead m := by
  rintro e he m rfl e' he' p rfl d hd
  exact ((h.2.2.2.2 _ he _ he').2.2.2.2.2 d hd).1

/-- Saving a layout and reading the text gives the layout back: version, host,
general settings, page, layers, setup and all elements in the same order.  For
every starting indentation and every quoting policy that quotes what needs
quotes; white space may follow the text. -/
theorem C35_layout_roundtrip (q : Str → Bool) (hq : QuotesWhenNeeded q) (level : Int)
    (l : Layout F) (h : SavableLayout l) (hc : CleanLayout l) (w : Str) (hw : Blank w) :
    Lay.parse (Lay.toText q level l ++ w) = .ok l := by
  have hb : Blank (str! "\n" ++ w) := by
    intro c hc
    rcases List.mem_append.1 hc with hc | hc
    · simp only [List.mem_singleton] at hc; subst hc; rfl
    · exact hw c hc
  rw [Lay.parse, Lay.toText, List.append_assoc,
    Sexp.Text.parse_toText_blank q level _ (Layout.ok_ser hq l hc h.shapes) _ hb]
  exact Layout.de_ser l h

/-- Two different such layouts are never saved as the same text. -/
theorem C35_saved_text_determines (q : Str → Bool) (hq : QuotesWhenNeeded q) (n n' : Int)
    (l l' : Layout F) (h : SavableLayout l) (hc : CleanLayout l) (h' : SavableLayout l')
    (hc' : CleanLayout l') (heq : Lay.toText q n l = Lay.toText q n' l') : l = l' := by
  have h1 := C35_layout_roundtrip q hq n l h hc [] Sexp.Text.blank_nil
  have h2 := C35_layout_roundtrip q hq n' l' h' hc' [] Sexp.Text.blank_nil
  rw [heq, h2] at h1
  exact (Res.ok.inj h1).symm

/-- A board with a net, a net class, a footprint, a track, a via, a zone with an
unknown entry and an unknown section. -/
def Spec.sampleLayout : Layout Nm :=
  ⟨4, ⟨str! "pcbnew", str! "(2015-05-31 BZR 5692)-product"⟩, ⟨3, 0, ⟨⟨1⟩, ⟨2⟩, ⟨3⟩, ⟨4⟩⟩, ⟨16⟩, 0, 1, 1, 1, 2⟩,
   str! "A4", ⟨[⟨str! "user_trace_width", str! "0.15", none⟩, ⟨str! "aux_axis_origin", str! "1", some (str! "2")⟩],
     [⟨str! "layerselection", str! "0x00030", none⟩]⟩,
   [⟨0, ⟨.front, .cu⟩, .signal, false⟩, ⟨-31, ⟨.back, .cu⟩, .power, true⟩],
   [.net ⟨0, []⟩, .net ⟨1, str! "GND"⟩,
    .netClass ⟨str! "Default", str! "the rest", ⟨1⟩, ⟨2⟩, ⟨3⟩, ⟨4⟩, ⟨5⟩, ⟨6⟩, some ⟨7⟩, none, [str! "GND"]⟩,
    .module_ ⟨str! "R", [.attr (str! "smd"), .locked]⟩,
    .segment ⟨⟨⟨1⟩, ⟨1⟩, .start⟩, ⟨⟨2⟩, ⟨1⟩, .end_⟩, ⟨1⟩, ⟨.front, .cu⟩, 1, some (str! "5A"), none⟩,
    .via ⟨true, false, ⟨⟨1⟩, ⟨2⟩, zero⟩, ⟨3⟩, ⟨1⟩, [⟨.front, .cu⟩, ⟨.back, .cu⟩], 1⟩,
    .zone ⟨1, str! "GND", ⟨.front, .cu⟩, str! "0", ⟨str! "edge", ⟨5⟩⟩, 7, ⟨some (str! "yes"), ⟨2⟩⟩, ⟨1⟩,
      some ⟨true, false, true⟩, ⟨true, true, 16, ⟨1⟩, ⟨2⟩, some (str! "fillet"), ⟨3⟩⟩,
      [[⟨⟨1⟩, ⟨1⟩, .xy⟩]], [[⟨⟨1⟩, ⟨1⟩, .xy⟩], []], some [], [.list [.str (str! "island"), .str (str! "1")]]⟩,
    .other (.list [.str (str! "target"), .str (str! "plus sign")])]⟩

theorem Spec.sampleLayout_savable : SavableLayout Spec.sampleLayout := by
  have hl : ∀ l : Fp.Layer, (∀ s, l.t ≠ .other s) → GoodLayer l := fun l h s hs => absurd hs (h s)
  refine ⟨by decide, by unfold GoodGeneral; decide, ?_, by decide, ?_⟩
  · simp only [Spec.sampleLayout, List.forall_mem_cons]
    exact ⟨⟨by decide, hl _ (by simp)⟩, ⟨by decide, hl _ (by simp)⟩, by simp⟩
  · simp only [Spec.sampleLayout, List.forall_mem_cons]
    refine ⟨by show inI64 0; decide, by show inI64 1; decide, trivial, ?_, ⟨hl _ (by simp), by decide⟩, ⟨?_, by decide⟩,
      ⟨by decide, hl _ (by simp), by decide, by decide, ?_⟩, ⟨_, _, rfl, by decide⟩, by simp⟩
    · simp only [GoodBoardElem, List.forall_mem_cons]
      exact ⟨trivial, trivial, by simp⟩
    · simp only [List.forall_mem_cons]
      exact ⟨hl _ (by simp), hl _ (by simp), by simp⟩
    · simp only [List.forall_mem_cons]
      refine ⟨?_, by simp⟩
      intro n r h
      simp only [Sexp.list.injEq, List.cons.injEq, Sexp.str.injEq] at h
      rw [← h.1]; decide

theorem Spec.sampleLayout_clean : CleanLayout Spec.sampleLayout := by
  refine ⟨by decide, ?_⟩
  simp only [Spec.sampleLayout, List.forall_mem_cons]
  refine ⟨⟨by decide, by simp [boardTrees]⟩, ⟨by decide, by simp [boardTrees]⟩,
    ⟨by decide, by simp [boardTrees]⟩, ⟨by decide, by simp [boardTrees]⟩,
    ⟨by decide, by simp [boardTrees]⟩, ⟨by decide, by simp [boardTrees]⟩, ⟨by decide, ?_⟩,
    ⟨by decide, ?_⟩, by simp⟩ <;> simp [boardTrees, CleanTree, CleanTrees, Clean, pairedAfter]

example : Lay.parse (Lay.toText Fm.stdQuote 0 Spec.sampleLayout ++ str! "\n\n") = .ok Spec.sampleLayout :=
  C35_layout_roundtrip _ Spec.stdQuote_quotes 0 _ Spec.sampleLayout_savable Spec.sampleLayout_clean _
    (by unfold Blank; decide)

end Verif
