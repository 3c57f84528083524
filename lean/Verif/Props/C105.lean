import Verif.Lemmas.Coords
import Verif.Lemmas.ConvertGood
import Verif.Props.C01
import Verif.Props.C14
import Verif.Props.C35
/-!
# C105: numbers stay as they were written

All of this is about `f64` itself (`F64`), where most decimals have no exact counterpart.
-/

namespace Verif
open Flt Spec

/-! ## One number -/

/-- A number written plainly is read as the nearest `f64` and written again with the same characters. -/
theorem C105_number {s : Str} {v : ℚ} (h : PlainNumber s v) :
    ofStr s = some (F64.of v) ∧ toStr (F64.of v) = s :=
  ⟨F64.ofStr_plain h, F64.toStr_plain h⟩

/-- Numbers written plainly and differently are read as different numbers. -/
theorem C105_distinct {s t : Str} {v u : ℚ} (hs : PlainNumber s v) (ht : PlainNumber t u) (h : s ≠ t) :
    (ofStr s : Option F64) ≠ ofStr t := by
  rw [(C105_number hs).1, (C105_number ht).1]
  intro e
  have := congrArg toStr (Option.some.inj e)
  rw [(C105_number hs).2, (C105_number ht).2] at this
  exact h this

/-- With more digits this is not so: these sixteen are written differently. -/
theorem C105_sixteen_digits : ∃ (s : Str) (x : F64), s.length = 16 ∧ ofStr s = some x ∧ toStr x ≠ s :=
  ⟨str! "9007199254740993", F64.of 9007199254740993, by decide +kernel⟩

/-- Neither do sums stay plain: two whole numbers of nanometres whose sum, computed by `f64`, is not
written as their sum. -/
theorem C105_sums_not_plain : ∃ a b c : Coord, c.1 = a.1 + b.1 ∧ toStr (add a.near b.near) ≠ toStr c.near :=
  ⟨⟨100000, by decide⟩, ⟨200000, by decide⟩, ⟨300000, by decide⟩, by decide, by decide +kernel⟩

example : PlainNumber (str! "-0.127") (-(127 / 10 ^ 3)) := by
  have h : PlainDigits (str! "0") (str! "127") 127 := by
    refine ⟨?_, by simp, by simp, by decide, by norm_num, by simp⟩
    exact .more (w := str! "012") (n := 12) (d := 7) (.more (w := str! "01") (n := 1) (d := 2)
      (.more (w := str! "0") (n := 0) (d := 1) (.one (d := 0) rfl) rfl) rfl) rfl
  exact .neg h (by norm_num)

/-! ## Files

`Coord` is a whole number of nanometres, `exact` the exact number of millimetres and `near` the
nearest `f64`.  The text of the exact content is what the editor writes. -/

/-- A footprint with exact numbers: `f64` reads the nearest numbers, and saves what it read as the
same text. -/
theorem C105_footprint (q : Str → Bool) (hq : QuotesWhenNeeded q) (level : Int) (m : Fp.Module Coord)
    (h : GoodModule (m.conv Coord.exact)) (w : Str) (hw : Blank w) :
    Fp.parse (Fp.toText q level (m.conv Coord.exact) ++ w) = .ok (m.conv Coord.near) ∧
    Fp.toText q level (m.conv Coord.near) = Fp.toText q level (m.conv Coord.exact) := by
  have e := Coord.alike.footprint q level m
  rw [e]
  exact ⟨C19_footprint_roundtrip q hq level _ (Coord.alike.goodModule Coord.exact_injective h) w hw, rfl⟩

/-- A layout with exact numbers. -/
theorem C105_layout (q : Str → Bool) (hq : QuotesWhenNeeded q) (level : Int) (l : Lay.Layout Coord)
    (h : SavableLayout (l.conv Coord.exact)) (hc : CleanLayout l) (w : Str) (hw : Blank w) :
    Lay.parse (Lay.toText q level (l.conv Coord.exact) ++ w) = .ok (l.conv Coord.near) ∧
    Lay.toText q level (l.conv Coord.near) = Lay.toText q level (l.conv Coord.exact) := by
  have e := Coord.alike.layout q level l
  rw [e]
  exact ⟨C35_layout_roundtrip q hq level _ (Coord.alike.savable Coord.exact_injective h)
    (Alike.clean Coord.near hc) w hw, rfl⟩

/-- A schematic with exact numbers. -/
theorem C105_schematic (s : Sch.Schematic Coord) (h : FitsSchematic s) :
    Sch.parseStr (s.conv Coord.exact).show = .ok { s.conv Coord.near with filename := none } ∧
    (s.conv Coord.near).show = (s.conv Coord.exact).show := by
  have e := Coord.alike.schematic s
  rw [e]
  exact ⟨C01_roundtrip _ (Alike.fitsSchematic Coord.near h), rfl⟩

/-- A symbol library with exact numbers. -/
theorem C105_library (l : Lib.SymbolLib Coord) (h : FitsLib l) (hb : ¬ HasBold l) :
    ∃ t, (l.conv Coord.exact).show = .ok t ∧ Lib.parseStr t = .ok (l.conv Coord.near) ∧
      (l.conv Coord.near).show = .ok t := by
  obtain ⟨t, h1, h2⟩ := C14_roundtrip (l.conv Coord.near) (Alike.fitsLib Coord.near h) (Alike.hasBold Coord.near hb)
  exact ⟨t, by rw [Coord.alike.library l]; exact h1, h2, h1⟩

/-! ## Samples -/

/-- A number of nanometres, if it is small enough. -/
def Coord.clip (x : Nm) : Coord :=
  if h : -1000000000000000 < x.n ∧ x.n < 1000000000000000 then ⟨x.n, h⟩ else Coord.origin

example : Fp.parse (Fp.toText Fm.stdQuote 0 Spec.sampleModule) = .ok ((Spec.sampleModule.conv Coord.clip).conv Coord.near) := by
  have e : (Spec.sampleModule.conv Coord.clip).conv Coord.exact = Spec.sampleModule := by decide
  have := (C105_footprint Fm.stdQuote Spec.stdQuote_quotes 0 (Spec.sampleModule.conv Coord.clip)
    (by rw [e]; exact Spec.sampleModule_good) [] Sexp.Text.blank_nil).1
  rwa [e, List.append_nil] at this

example : Lay.parse (Lay.toText Fm.stdQuote 0 Spec.sampleLayout) = .ok ((Spec.sampleLayout.conv Coord.clip).conv Coord.near) := by
  have e : (Spec.sampleLayout.conv Coord.clip).conv Coord.exact = Spec.sampleLayout := rfl
  have := (C105_layout Fm.stdQuote Spec.stdQuote_quotes 0 (Spec.sampleLayout.conv Coord.clip)
    (by rw [e]; exact Spec.sampleLayout_savable) (Alike.clean Coord.clip Spec.sampleLayout_clean) [] Sexp.Text.blank_nil).1
  rwa [e, List.append_nil] at this

example : FitsSchematic ((Spec.sampleSchematic Nm).conv Coord.clip) := Alike.fitsSchematic Coord.clip (by decide +kernel)

example : FitsLib ((Spec.sampleLib Nm).conv Coord.clip) ∧ ¬ HasBold ((Spec.sampleLib Nm).conv Coord.clip) :=
  ⟨Alike.fitsLib Coord.clip (by decide +kernel), Alike.hasBold Coord.clip (by decide +kernel)⟩

end Verif
