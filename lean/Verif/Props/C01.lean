import Verif.Lemmas.SchCodec
import Verif.Spec.Schematic
import Verif.Basic.Nm
/-!
# C01: a saved schematic reads back as the same schematic
-/

namespace Verif
open Sch Spec Flt

/-- A sample schematic with every kind of element. -/
def Spec.sampleSchematic (F : Type) [Flt F] : Schematic F :=
  { filename := some (str! "a.sch"),
    libraries := [str! "power", str! "device"],
    description := { Description.dflt with
      size := str! "A4", dimx := 11693, dimy := 8268, title := str! " My  board ", sheet := 1, sheetCount := 2 },
    elements := [.wire ⟨.bus, 1, 2, -3, 4⟩, .component (sampleComponent F), .connection ⟨5, 6⟩,
      .noConnect ⟨-7, 8⟩, .text ⟨.note, 1, 2, 0, 60, none, true, 10, str! "a \"note\""⟩,
      .text ⟨.global, 1, 2, 0, 60, some (str! "UnSpc"), false, 0, str! "NET 1"⟩,
      .other (str! "Entry Wire Line"), .component (Component.dflt : Component F)],
    sheets := [{ Sheet.dflt with
      unique := str! "5A", name := str! "sub sheet", filename := str! "sub.sch",
      labels := [⟨str! "IN", .input, .left, 1, 2, 60⟩, ⟨str! "a b", .biDi, .right, 3, 4, 60⟩] }],
    eelayer := str! "EELAYER 25 0" }

variable {F : Type} [Flt F] [TextLaws F]

/-- Saving a schematic that fits the file format and reading the text gives the
same libraries, description, elements and sheets, in the same order.  The file
name is not part of the file. -/
theorem C01_roundtrip (s : Schematic F) (h : FitsSchematic s) :
    parseStr s.show = .ok { s with filename := none } :=
  parse_show none s h

example : FitsSchematic (sampleSchematic Nm) := by decide +kernel

/-- Reading from a file records the name of the file. -/
theorem C01_roundtrip_named (s : Schematic F) (h : FitsSchematic s) (f : Str) :
    parse (some f) s.show = .ok { s with filename := some f } :=
  parse_show (some f) s h

/-- Two schematics that fit the format and are saved as the same text are the same. -/
theorem C01_text_determines (s t : Schematic F) (hs : FitsSchematic s) (ht : FitsSchematic t)
    (h : s.show = t.show) (hf : s.filename = t.filename) : s = t := by
  have h1 := C01_roundtrip s hs
  rw [h, C01_roundtrip t ht] at h1
  obtain ⟨a1, a2, a3, a4, a5, a6⟩ := s
  obtain ⟨b1, b2, b3, b4, b5, b6⟩ := t
  simp only at hf
  simp only [Res.ok.injEq, Schematic.mk.injEq] at h1 ⊢
  exact ⟨hf, h1.2.1.symm, h1.2.2.1.symm, h1.2.2.2.1.symm, h1.2.2.2.2.1.symm, h1.2.2.2.2.2.symm⟩

/-- A schematic made from scratch has no paper size, and that does not fit the format:
what is written for it is rejected. -/
theorem C01_fresh_rejected : (parseStr ({ (Schematic.dflt : Schematic Nm) with eelayer := str! "EELAYER 25 0" }).show :
    Res (Schematic Nm)) = .err .other := by decide +kernel

/-- A fresh sheet has no id, and that does not fit the format either. -/
theorem C01_fresh_sheet_rejected :
    (parseStr ({ sampleSchematic Nm with sheets := [Sheet.dflt] }).show : Res (Schematic Nm)) = .err .other := by decide +kernel

end Verif
