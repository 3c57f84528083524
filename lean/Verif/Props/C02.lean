import Verif.Lemmas.SchReturns
import Verif.Props.C01
/-!
# C02: a schematic that was read survives a save/load cycle

The full claim is `parseStr t = .ok s → parseStr s.show = .ok s` for every text
`t`.  It is false: the reader accepts quoted component names, sheet ids and
paper sizes and named fields with low numbers, and the writer does not write
them back; and a carriage return that a line of the file has besides its line end is
lost.  What is proved is the exact condition under which it holds, for all texts
(`C02_resave_iff_partial`).
-/

namespace Verif
open Sch Spec Flt

variable {F : Type} [Flt F] [TextLaws F]

/-- A schematic that was read can be saved and read again exactly if its unquoted
parts are words, its field names are the ones written and no text that ends a line of the
file ends in a carriage return.  Missing from the full claim: sheets with 2^31 labels. -/
theorem C02_resave_iff_partial (t : Str) (s : Schematic F) (h : parseStr t = .ok s) (hc : CountableLabels s) :
    parseStr s.show = .ok s ↔ Writable s ∧ Ended s := by
  obtain ⟨h1, h2, h3⟩ := parseLines_read (fun l hm => lines_noLf t l hm) h
  constructor
  · intro hr
    have hw := parse_show_writable none s s h1 h3 hc hr
    refine ⟨hw, (s.strip_eq).1 ?_⟩
    have := parse_show_eq_strip none s s h1 h3 hw hc hr
    rw [← h2] at this
    exact this.symm
  · rintro ⟨hw, he⟩
    have := C01_roundtrip s ((fitsSchematic_iff s).2 ⟨h1, h3, hw, hc, he⟩)
    rw [this, ← h2]

/-- What is read after saving survives from then on exactly if no text that ends a line of the
file ends in a carriage return. -/
theorem C02_second_save_iff (t : Str) (s r : Schematic F) (h : parseStr t = .ok s)
    (hc : CountableLabels s) (hr : parseStr s.show = .ok r)
    (hcr : CountableLabels r) : parseStr r.show = .ok r ↔ Ended r := by
  obtain ⟨h1, _, h3⟩ := parseLines_read (fun l hm => lines_noLf t l hm) h
  rw [C02_resave_iff_partial s.show r hr hcr]
  exact ⟨fun hx => hx.2, fun hx => ⟨parse_show_writable none s r h1 h3 hc hr, hx⟩⟩

/-- In particular, from a file none of whose lines contains a carriage return besides its line
end: even when the schematic does not survive, what is read after saving does survive from then
on. -/
theorem C02_second_save_stable (t : Str) (s r : Schematic F) (h : parseStr t = .ok s)
    (ht : ∀ l ∈ lines t, '\r' ∉ l) (hc : CountableLabels s) (hr : parseStr s.show = .ok r)
    (hcr : CountableLabels r) : parseStr r.show = .ok r := by
  refine (C02_second_save_iff t s r h hc hr hcr).2 ?_
  obtain ⟨h1, _, h3⟩ := parseLines_read (fun l hm => lines_noLf t l hm) h
  obtain ⟨k1, _, k3⟩ := parseLines_read ht h
  have hs := s.lns_oneLine h1 h3.1 (ended_of_read s k1 k3.1)
  rw [parseStr, parse, s.show_eq, lines_unlines _ hs] at hr
  obtain ⟨m1, _, m3⟩ := parseLines_read (s.lns_noCr h1 k1 k3.1) hr
  exact ended_of_read r m1 m3.1

/-- A schematic that can be written changes in a save/load cycle only by the carriage returns
at line ends. -/
theorem C02_resave_loses_returns (t : Str) (s r : Schematic F) (h : parseStr t = .ok s) (hw : Writable s)
    (hc : CountableLabels s) (hr : parseStr s.show = .ok r) : r = s.strip := by
  obtain ⟨h1, h2, h3⟩ := parseLines_read (fun l hm => lines_noLf t l hm) h
  have := parse_show_eq_strip none s r h1 h3 hw hc hr
  rw [← h2] at this
  exact this

/-- A schematic file with one component whose field 2 has a name of its own. -/
def Spec.namedLowField : Str :=
  str! "EESchema Schematic File Version 2\nEELAYER 25 0\nEELAYER END\n$Descr A4 11693 8268\nencoding utf-8\nSheet 1 1\nTitle \"\"\nDate \"\"\nRev \"\"\nComp \"\"\nComment1 \"\"\nComment2 \"\"\nComment3 \"\"\nComment4 \"\"\n$EndDescr\n$Comp\nL R R1\nU 1 1 5A\nP 1 2\nF 0 \"R1\" H 1 2 60 0000 C CNN\nF 2 \"x\" H 1 2 60 0001 C CNN \"MPN\"\n\t1 1 2\n\t1 0 0 -1\n$EndComp\n$EndSCHEMATC\n"

/-- The same file with an ordinary name for field 2. -/
def Spec.ordinaryField : Str :=
  str! "EESchema Schematic File Version 2\nEELAYER 25 0\nEELAYER END\n$Descr A4 11693 8268\nencoding utf-8\nSheet 1 1\nTitle \"\"\nDate \"\"\nRev \"\"\nComp \"\"\nComment1 \"\"\nComment2 \"\"\nComment3 \"\"\nComment4 \"\"\n$EndDescr\n$Comp\nL R R1\nU 1 1 5A\nP 1 2\nF 0 \"R1\" H 1 2 60 0000 C CNN\nF 2 \"x\" H 1 2 60 0001 C CNN\nF 4 \"y\" H 1 2 60 0001 C CNN \"MPN\"\n\t1 1 2\n\t1 0 0 -1\n$EndComp\n$EndSCHEMATC\n"

/-- A schematic file in which one line has a carriage return besides its line end. -/
def Spec.strayReturn : Str :=
  str! "EESchema Schematic File Version 2\nEELAYER 25 0\nEELAYER END\n$Descr A4 11693 8268\nencoding utf-8\nSheet 1 1\nTitle \"\"\nDate \"\"\nRev \"\"\nComp \"\"\nComment1 \"\"\nComment2 \"\"\nComment3 \"\"\nComment4 \"\"\n$EndDescr\nBitmap a\r\r\n$EndSCHEMATC\n"

/-- A schematic file with a component name in quotes. -/
def Spec.quotedName : Str :=
  str! "EESchema Schematic File Version 2\nEELAYER 25 0\nEELAYER END\n$Descr A4 11693 8268\nencoding utf-8\nSheet 1 1\nTitle \"\"\nDate \"\"\nRev \"\"\nComp \"\"\nComment1 \"\"\nComment2 \"\"\nComment3 \"\"\nComment4 \"\"\n$EndDescr\n$Comp\nL \"R x\" R1\nU 1 1 5A\nP 1 2\n\t1 1 2\n\t1 0 0 -1\n$EndComp\n$EndSCHEMATC\n"

/-- The value of an accepted text. -/
def Spec.accepted {α : Type} (r : Res α) (P : α → Bool) : Bool :=
  match r with
  | .ok a => P a
  | _ => false

example : accepted (parseStr ordinaryField : Res (Schematic Nm)) (fun s =>
    decide (Writable s) && decide (CountableLabels s) && decide (Ended s) &&
      decide (∀ l ∈ lines ordinaryField, '\r' ∉ l)) = true := by
  decide +kernel

example : accepted (parseStr strayReturn : Res (Schematic Nm)) (fun s =>
    decide (Writable s) && decide (CountableLabels s) && decide (¬ Ended s)) = true := by
  decide +kernel

/-- The full claim fails: the name of a low numbered field is lost. -/
theorem C02_named_low_field_lost :
    ∃ (t : Str) (s r : Schematic Nm), parseStr t = .ok s ∧ parseStr s.show = .ok r ∧ r ≠ s := by
  have : accepted (parseStr namedLowField : Res (Schematic Nm)) (fun s =>
      accepted (parseStr s.show : Res (Schematic Nm)) fun r => decide (r ≠ s)) = true := by decide +kernel
  refine ⟨namedLowField, ?_⟩
  cases h : (parseStr namedLowField : Res (Schematic Nm)) with
  | ok s =>
    rw [h] at this
    simp only [accepted] at this
    cases h2 : (parseStr s.show : Res (Schematic Nm)) with
    | ok r => rw [h2] at this; exact ⟨s, r, rfl, h2, by simpa using this⟩
    | _ => rw [h2] at this; cases this
  | _ => rw [h] at this; cases this

/-- The full claim fails: a carriage return before the line end is lost. -/
theorem C02_return_lost :
    ∃ (t : Str) (s r : Schematic Nm), parseStr t = .ok s ∧ parseStr s.show = .ok r ∧ r ≠ s := by
  have : accepted (parseStr strayReturn : Res (Schematic Nm)) (fun s =>
      accepted (parseStr s.show : Res (Schematic Nm)) fun r => decide (r ≠ s)) = true := by decide +kernel
  refine ⟨strayReturn, ?_⟩
  cases h : (parseStr strayReturn : Res (Schematic Nm)) with
  | ok s =>
    rw [h] at this
    simp only [accepted] at this
    cases h2 : (parseStr s.show : Res (Schematic Nm)) with
    | ok r => rw [h2] at this; exact ⟨s, r, rfl, h2, by simpa using this⟩
    | _ => rw [h2] at this; cases this
  | _ => rw [h] at this; cases this

/-- The full claim fails: a component name read from quotes is saved without them, and the
name and reference change. -/
theorem C02_quoted_name_lost :
    ∃ (t : Str) (s r : Schematic Nm), parseStr t = .ok s ∧ parseStr s.show = .ok r ∧ r ≠ s := by
  have : accepted (parseStr quotedName : Res (Schematic Nm)) (fun s =>
      accepted (parseStr s.show : Res (Schematic Nm)) fun r => decide (r ≠ s)) = true := by decide +kernel
  refine ⟨quotedName, ?_⟩
  cases h : (parseStr quotedName : Res (Schematic Nm)) with
  | ok s =>
    rw [h] at this
    simp only [accepted] at this
    cases h2 : (parseStr s.show : Res (Schematic Nm)) with
    | ok r => rw [h2] at this; exact ⟨s, r, rfl, h2, by simpa using this⟩
    | _ => rw [h2] at this; cases this
  | _ => rw [h] at this; cases this

end Verif
