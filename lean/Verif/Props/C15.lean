import Verif.Props.C14
/-!
# C15: bold fields of a symbol

The claim that a library with a bold field can be saved and loaded again is false
for every such library.
-/

namespace Verif
open Lib Spec Flt

variable {F : Type} [Flt F] [TextLaws F]

/-- Every library with a bold field is saved as a text that the reader rejects. -/
theorem C15_bold_rejected (l : SymbolLib F) (h : FitsLib l) (hb : HasBold l) :
    ∃ t, l.show = .ok t ∧ (parseStr t : Res (SymbolLib F)) = .err .other := by
  refine ⟨_, l.show_eq fun s hs => (h s hs).1.2.2.2.1, ?_⟩
  rw [parse_show l h]
  have : (l.symbols.any fun s => s.fields.any (·.bold)) = true := by
    simpa [HasBold] using hb
  rw [this]
  rfl

/-- The sample library with its first field in bold. -/
def Spec.boldLib : SymbolLib Nm :=
  ⟨(sampleLib Nm).symbols.map fun s => { s with fields := s.fields.map fun f => { f with bold := decide (f.i = 0) } }⟩

example : FitsLib boldLib ∧ HasBold boldLib := by decide +kernel

/-- So saving and loading works exactly for the libraries without bold fields. -/
theorem C15_saved_loads_iff (l : SymbolLib F) (h : FitsLib l) :
    (∃ t, l.show = .ok t ∧ parseStr t = .ok l) ↔ ¬ HasBold l := by
  constructor
  · rintro ⟨t, h1, h2⟩ hb
    obtain ⟨u, h3, h4⟩ := C15_bold_rejected l h hb
    rw [h1] at h3
    cases h3
    rw [h2] at h4
    cases h4
  · exact C14_roundtrip l h

end Verif
