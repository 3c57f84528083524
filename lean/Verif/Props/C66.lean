import Verif.Lemmas.LibBack
import Verif.Props.C02
import Verif.Props.C14
/-!
# C66: which symbol libraries that were read survive a save/load cycle

The reader accepts libraries the writer cannot write: quoted names with blanks,
names for the low numbered fields, bold fields, symbols with a single field.
The exact condition is `WritableLib`.
-/

namespace Verif
open Lib Spec Flt

variable {F : Type} [Flt F] [TextLaws F]

theorem Lib.read_of_parse {t : Str} {l : SymbolLib F} (h : parseStr t = .ok l) : ∀ s ∈ l.symbols, ReadSymbol s :=
  parseLines_read (fun x hx => Sch.lines_noLf t x hx) h

theorem Lib.two_of_show {l : SymbolLib F} {u : Str} (hu : l.show = .ok u) :
    (∀ s ∈ l.symbols, 2 ≤ s.fields.length) ∧ u = unlines l.lns := by
  have h2 : ∀ s ∈ l.symbols, 2 ≤ s.fields.length := by
    intro s hs
    by_cases hlt : s.fields.length < 2
    · rw [C14_few_fields_panic l ⟨s, hs, hlt⟩] at hu
      cases hu
    · omega
  rw [l.show_eq h2] at hu
  cases hu
  exact ⟨h2, rfl⟩

/-- A symbol library that was read can be saved and reads back as the same library
exactly if every symbol has two fields, everything written without quotes is a word,
no field is bold, the low numbered fields have their fixed names, and no free text that
ends a line ends with a carriage return. -/
theorem C66_resave_iff (t : Str) (l : SymbolLib F) (h : parseStr t = .ok l) :
    (∃ u, l.show = .ok u ∧ parseStr u = .ok l) ↔ WritableLib l ∧ EndedLib l := by
  have hr := read_of_parse h
  constructor
  · rintro ⟨u, hu, hl⟩
    obtain ⟨h2, rfl⟩ := two_of_show hu
    have he := parse_show_self l hr hl
    have hf := parse_show_line l l hr he h2 hl
    exact ⟨fun s hs => (line_iff_writable s (hr s hs)).1 (hf s hs), he⟩
  · rintro ⟨hw, he⟩
    have hf := fun s hs => (line_iff_writable s (hr s hs)).2 (hw s hs)
    refine C14_roundtrip l (fun s hs => ⟨(hf s hs).1, he s hs⟩) ?_
    rintro ⟨s, hs, f, hff, hb⟩
    rw [(hf s hs).2 f hff] at hb
    cases hb

/-- Even when a library does not survive, what is read after saving it survives from
then on, exactly if it has no stray carriage returns at the ends of lines. -/
theorem C66_second_save_iff (t u : Str) (l r : SymbolLib F) (h : parseStr t = .ok l) (he : EndedLib l)
    (hu : l.show = .ok u) (hr : parseStr u = .ok r) :
    (∃ w, r.show = .ok w ∧ parseStr w = .ok r) ↔ EndedLib r := by
  obtain ⟨h2, rfl⟩ := two_of_show hu
  have hf := parse_show_line l r (read_of_parse h) he h2 hr
  rw [C66_resave_iff _ r hr]
  exact ⟨And.right, fun hx => ⟨fun s hs => (line_iff_writable s (read_of_parse hr s hs)).1 (hf s hs), hx⟩⟩

/-- When the lines of the file have no stray carriage returns, what is read after
saving always survives from then on. -/
theorem C66_second_save_stable (t u : Str) (l r : SymbolLib F) (h : parseStr t = .ok l)
    (ht : ∀ x ∈ lines t, '\r' ∉ x) (hu : l.show = .ok u) (hr : parseStr u = .ok r) :
    ∃ w, r.show = .ok w ∧ parseStr w = .ok r := by
  have hcr : ∀ s ∈ l.symbols, ReadSymbolBut '\r' s := parseLines_read ht h
  refine (C66_second_save_iff t u l r h (fun s hs => ended_of_read s (hcr s hs)) hu hr).2 ?_
  obtain ⟨_, rfl⟩ := two_of_show hu
  have hx : ∀ x ∈ lines (unlines l.lns), '\r' ∉ x := by
    rw [lines_unlines_strip _ (l.lns_noLf (read_of_parse h)), List.forall_mem_map]
    exact fun x hx hc => l.lns_noCr (read_of_parse h) hcr x hx (mem_stripCr hc)
  exact fun s hs => ended_of_read s ((parseLines_read hx hr : ∀ s ∈ r.symbols, ReadSymbolBut '\r' s) s hs)

/-- Saving a library that was read panics exactly if some symbol has less than two fields. -/
theorem C66_save_panics_iff (l : SymbolLib F) : l.show = .panic ↔ ∃ s ∈ l.symbols, s.fields.length < 2 := by
  constructor
  · intro h
    by_cases hx : ∃ s ∈ l.symbols, s.fields.length < 2
    · exact hx
    · rw [l.show_eq fun s hs => by
        by_cases hlt : s.fields.length < 2
        · exact absurd ⟨s, hs, hlt⟩ hx
        · omega] at h
      cases h
  · exact C14_few_fields_panic l

/-- A library file with one symbol; the parts that matter are parameters. -/
def Spec.oneSymbolFile (name fields : Str) : Str :=
  str! "EESchema-LIBRARY Version 2.3\n#encoding utf-8\n#\n# R\n#\nDEF " ++ name ++
  str! " R 0 10 Y N 1 F N\nF0 \"R\" 0 25 50 H V C CNN\n" ++ fields ++
  str! "$FPLIST\n R_*\n$ENDFPLIST\nALIAS RES\nDRAW\nC 0 0 30 0 1 0 N\nX ~ 1 0 150 50 D 50 50 1 1 P\nENDDRAW\nENDDEF\n#\n#End Library\n"

/-- The parts that make a library file that survives. -/
def Spec.goodFields : Str := str! "F1 \"10 k\" 0 0 50 V V C CNN\nF4 \"x\" 0 0 50 V I C CIN \"Part no\"\n"

example : accepted (parseStr (oneSymbolFile (str! "~R") goodFields) : Res (SymbolLib Nm)) (fun l =>
    decide (WritableLib l) && decide (EndedLib l) &&
    decide (∀ x ∈ lines (oneSymbolFile (str! "~R") goodFields), '\r' ∉ x)) = true := by
  decide +kernel

/-- The file is read, but saved and read again it is not what it was. -/
def Spec.Changes (t : Str) : Prop :=
  ∃ l : SymbolLib Nm, parseStr t = .ok l ∧ ¬ ∃ u, l.show = .ok u ∧ parseStr u = .ok l

theorem Lib.changes_of {t : Str}
    (h : accepted (parseStr t : Res (SymbolLib Nm)) (fun l => decide (¬ (WritableLib l ∧ EndedLib l))) = true) : Changes t := by
  cases hp : (parseStr t : Res (SymbolLib Nm)) with
  | ok l =>
    rw [hp] at h
    simp only [accepted, decide_eq_true_eq] at h
    exact ⟨l, hp, fun hx => h ((C66_resave_iff t l hp).1 hx)⟩
  | _ => rw [hp] at h; cases h

/-- The claim that every library that was read survives fails in each of the ways:
a quoted name with a blank, a named low field, a bold field, a symbol with one field,
an alias that ends with a carriage return. -/
theorem C66_not_all_survive :
    Changes (oneSymbolFile (str! "\"R x\"") goodFields) ∧
    Changes (oneSymbolFile (str! "R") (str! "F1 \"10 k\" 0 0 50 V V C CNN \"Other\"\n")) ∧
    Changes (oneSymbolFile (str! "R") (str! "F1 \"10 k\" 0 0 50 V V C CNB\n")) ∧
    Changes (oneSymbolFile (str! "R") []) ∧
    Changes (oneSymbolFile (str! "R") (goodFields ++ str! "ALIAS A\r\r\nDRAW\nENDDRAW\nENDDEF\n#\n#End Library\n")) :=
  ⟨changes_of (by decide +kernel), changes_of (by decide +kernel),
   changes_of (by decide +kernel), changes_of (by decide +kernel), changes_of (by decide +kernel)⟩

/-- A file with one symbol, among whose drawings is the end mark with two carriage
returns. -/
def Spec.smuggledSymbol : Str := oneSymbolFile (str! "R") (goodFields ++
  str! "DRAW\nENDDRAW\r\r\nENDDEF\n#\n# C\n#\nDEF C C 0 10 Y N 1 F N\nF0 \"C\" 0 25 50 H V C CNN\nF1 \"1 n\" 0 0 50 V V C CNN\nDRAW\nENDDRAW\nENDDEF\n#\n#End Library\n")

/-- Stray carriage returns can hide content: a file that is read as one symbol can be
saved as a file that is read as two. -/
theorem C66_returns_hide_symbols :
    ∃ (l r : SymbolLib Nm) (u : Str), parseStr smuggledSymbol = .ok l ∧ l.show = .ok u ∧ parseStr u = .ok r ∧
      l.symbols.length = 1 ∧ r.symbols.length = 2 := by
  have key : accepted (parseStr smuggledSymbol : Res (SymbolLib Nm)) (fun l => decide (l.symbols.length = 1) &&
      accepted l.show (fun u => accepted (parseStr u : Res (SymbolLib Nm)) (fun r => decide (r.symbols.length = 2)))) =
      true := by decide +kernel
  cases hp : (parseStr smuggledSymbol : Res (SymbolLib Nm)) with
  | ok l =>
    rw [hp] at key
    simp only [accepted, Bool.and_eq_true, decide_eq_true_eq] at key
    cases hu : l.show with
    | ok u =>
      rw [hu] at key
      simp only at key
      cases hr : (parseStr u : Res (SymbolLib Nm)) with
      | ok r =>
        rw [hr] at key
        simp only [decide_eq_true_eq] at key
        exact ⟨l, r, u, rfl, hu, hr, key.1, key.2⟩
      | _ => rw [hr] at key; cases key.2
    | _ => rw [hu] at key; cases key.2
  | _ => rw [hp] at key; cases key

end Verif
