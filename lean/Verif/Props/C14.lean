import Verif.Lemmas.LibCodec
import Verif.Basic.Nm
/-!
# C14: a saved symbol library reads back as the same library
-/

namespace Verif
open Lib Spec Flt

/-- A sample library: two symbols, with aliases, pins of several kinds, a rectangle
and a line of another kind. -/
def Spec.sampleLib (F : Type) [Flt F] : SymbolLib F :=
  let fld (i : Int) (name value : Str) : Lib.Field F :=
    { i, value, x := zero, y := lit 25 1, dimension := 50, orientation := .vertical, visible := i < 2,
      hjustify := .left, vjustify := .center, italic := true, bold := false, name }
  { symbols := [
      { (Symbol.new (str! "~R") (str! "R") : Symbol F) with
        textOffset := lit 1 1, unitCount := 2, unitLocked := true, drawPinname := true,
        fields := [fld 0 (str! "Reference") (str! "R"), fld 1 (str! "Value") (str! "R  x "),
          fld 2 (str! "Footprint") [], fld 3 (str! "UserDocLink") [], fld 4 (str! "Part no") (str! "#1")],
        aliases := [str! "R_US", str! "RES"],
        draw := [.rectangle ⟨-40, -100, 40, 100, 0, 1, 10, .filledBackground⟩,
          .pin ⟨str! "~", str! "1", 0, 150, 50, .down, 50, 50, 1, 1, .passive, true, .line⟩,
          .pin ⟨str! "NC", str! "2", 0, -150, 50, .up, 50, 50, 1, 1, .notConnected, false, .invertedClock⟩,
          .other (str! "C 0 0 30 0 1 0 N")] },
      { (Symbol.new (str! "GND") (str! "#PWR") : Symbol F) with
        isPower := true, fields := [fld 0 (str! "Reference") (str! "#PWR"), fld 1 (str! "Value") (str! "GND")] }] }

variable {F : Type} [Flt F] [TextLaws F]

/-- Saving a library that fits the file format and has no bold field succeeds, and
reading the text gives the same symbols with the same fields, aliases, drawings and
settings, in the same order. -/
theorem C14_roundtrip (l : SymbolLib F) (h : FitsLib l) (hb : ¬ HasBold l) :
    ∃ t, l.show = .ok t ∧ parseStr t = .ok l := by
  refine ⟨_, l.show_eq fun s hs => (h s hs).1.2.2.2.1, ?_⟩
  rw [parse_show l h]
  have : (l.symbols.any fun s => s.fields.any (·.bold)) = false := by
    rw [Bool.eq_false_iff]
    simpa [HasBold] using hb
  rw [this]
  rfl

example : FitsLib (sampleLib Nm) ∧ ¬ HasBold (sampleLib Nm) := by decide +kernel

/-- Two libraries that fit the format, have no bold fields and are saved as the same
text are the same. -/
theorem C14_text_determines (l m : SymbolLib F) (hl : FitsLib l) (hm : FitsLib m) (bl : ¬ HasBold l)
    (bm : ¬ HasBold m) (h : l.show = m.show) : l = m := by
  obtain ⟨t, h1, h2⟩ := C14_roundtrip l hl bl
  obtain ⟨u, h3, h4⟩ := C14_roundtrip m hm bm
  rw [h, h3] at h1
  cases h1
  rw [h2] at h4
  exact Res.ok.inj h4

/-- Saving a library with a symbol that has fewer than two fields panics. -/
theorem C14_few_fields_panic (l : SymbolLib F) (h : ∃ s ∈ l.symbols, s.fields.length < 2) : l.show = .panic := by
  have key : ∀ x : List (Symbol F), (∃ s ∈ x, s.fields.length < 2) → showSymbols x = .panic := by
    intro x
    induction x with
    | nil => rintro ⟨s, hs, _⟩; cases hs
    | cons a x ih =>
      rintro ⟨s, hs, hlt⟩
      rw [showSymbols]
      by_cases ha : a.fields.length < 2
      · have : a.fields[1]? = none := by simp; omega
        simp [Symbol.show, this]
      · rw [a.show_eq (by omega), Res.bind_ok]
        rcases List.mem_cons.1 hs with rfl | hs
        · exact absurd hlt ha
        · rw [ih ⟨s, hs, hlt⟩]; rfl
  rw [SymbolLib.show, key _ h]
  rfl

example : ∃ s ∈ (⟨[Symbol.new (str! "A") (str! "U")]⟩ : SymbolLib Nm).symbols, s.fields.length < 2 := by decide

end Verif
