import Verif.Lemmas.FpCodec
import Verif.Basic.Nm
/-!
# C19: a saved footprint reads back as the same footprint
-/

namespace Verif
open Flt Fp Spec

variable {F : Type} [Flt F] [TextLaws F] [ZeroLaws F]

/-- Saving a good footprint and reading the text gives the footprint back: same
name, same elements in the same order, with all attributes.  For every starting
indentation and every quoting policy that quotes what needs quotes; white space
(such as a final line end) may follow the text. -/
theorem C19_footprint_roundtrip (q : Str → Bool) (hq : QuotesWhenNeeded q) (level : Int)
    (m : Module F) (h : GoodModule m) (w : Str) (hw : Blank w) :
    Fp.parse (Fp.toText q level m ++ w) = .ok m := by
  rw [Fp.parse, Fp.toText, Sexp.Text.parse_toText_blank q level _ (Module.ok_good q hq m h) w hw]
  exact Module.de_ser m fun e he => (h.2 e he).1

/-- Two different good footprints are never saved as the same text. -/
theorem C19_saved_text_determines (q : Str → Bool) (hq : QuotesWhenNeeded q) (l l' : Int)
    (m m' : Module F) (h : GoodModule m) (h' : GoodModule m')
    (heq : Fp.toText q l m = Fp.toText q l' m') : m = m' := by
  have h1 := C19_footprint_roundtrip q hq l m h [] Sexp.Text.blank_nil
  have h2 := C19_footprint_roundtrip q hq l' m' h' [] Sexp.Text.blank_nil
  rw [heq, h2] at h1
  exact (Res.ok.inj h1).symm

theorem Spec.stdQuote_quotes : QuotesWhenNeeded Fm.stdQuote := by
  intro s hs
  simp only [Fm.stdQuote, Bool.or_eq_false_iff, List.any_eq_false, List.isEmpty_eq_false_iff] at hs
  refine ⟨hs.1, fun c hc => ?_⟩
  have := hs.2 c hc
  simp only [Bool.not_eq_true, Bool.or_eq_false_iff, beq_eq_false_iff_ne] at this
  exact ⟨this.1.1.1, this.1.1.2, this.1.2, this.2⟩

/-- A footprint with a text, a through-hole pad on a net, a line and a stamp. -/
def Spec.sampleModule : Module Nm :=
  ⟨str! "SOT 23", [.layer ⟨.front, .cu⟩, .tedit 0x5A3D, .attr (str! "smd"),
    .text ⟨str! "reference", str! "REF**", ⟨⟨1⟩, ⟨-2⟩, zero⟩, ⟨.front, .silkS⟩,
      ⟨⟨⟨⟨1⟩, ⟨1⟩, .xy⟩, ⟨1⟩, true⟩, some .mirror⟩, true⟩,
    .pad ⟨str! "1", .pth, .oval, ⟨⟨2⟩, ⟨3⟩, .size⟩, none, ⟨zero, zero, ⟨90⟩⟩,
      [⟨.both, .cu⟩, ⟨.none, .other (str! "Glue")⟩], some ⟨3, str! "GND"⟩, some 2,
      some ⟨some (str! "oval"), ⟨1000⟩, ⟨1000⟩, ⟨5⟩, zero⟩, some ⟨1⟩, none, none, some ⟨7⟩⟩,
    .line ⟨⟨⟨1⟩, ⟨1⟩, .start⟩, ⟨⟨2⟩, ⟨1⟩, .end_⟩, ⟨.front, .fab⟩, ⟨1⟩⟩,
    .locked]⟩

theorem Spec.sampleModule_good : GoodModule Spec.sampleModule := by
  refine ⟨by decide, ?_⟩
  have hl : ∀ l : Layer, (∀ s, l.t ≠ .other s) → GoodLayer l := fun l h s hs => absurd hs (h s)
  simp only [Spec.sampleModule, List.forall_mem_cons]
  refine ⟨⟨hl _ (by simp), by decide⟩, ⟨⟨by decide, by decide⟩, by decide⟩, ⟨trivial, by decide⟩,
    ⟨⟨hl _ (by simp), rfl, by decide⟩, by decide⟩, ⟨?_, by decide⟩,
    ⟨⟨hl _ (by simp), rfl, rfl⟩, by decide⟩, ⟨trivial, by decide⟩, by simp⟩
  refine ⟨rfl, rfl, ?_, ?_, ?_, ?_⟩
  · simp only [List.forall_mem_cons]
    refine ⟨hl _ (by simp), ?_, by simp⟩
    intro s hs
    simp only [LayerType.other.injEq] at hs
    subst hs
    decide
  · intro n hn; simp only [Option.some.injEq] at hn; subst hn; decide
  · intro n hn; simp only [Option.some.injEq] at hn; subst hn; decide
  · intro n hn; simp only [Option.some.injEq] at hn; subst hn
    exact ⟨.inr rfl, by decide, .inl rfl⟩

example : GoodModule Spec.sampleModule ∧ QuotesWhenNeeded Fm.stdQuote := ⟨Spec.sampleModule_good, Spec.stdQuote_quotes⟩

end Verif
