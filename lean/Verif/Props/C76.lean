import Verif.Lemmas.SchSheetGrammar
import Verif.Basic.Nm
/-!
# C76 – the language of schematic files

A text is read as a schematic exactly if its lines follow the grammar of
`Spec/SchematicGrammar.lean`, and what is read is what the grammar says.
-/

namespace Verif
open Sch Spec

variable {F : Type} [Flt F]

theorem Sch.notLibs (layer : Str) : startsWith (str! "EELAYER " ++ layer) (str! "LIBS:") = false := rfl

theorem Sch.lines_iff (fn : Option Str) (ls : List Str) (s : Schematic F) : parseLines fn ls = .ok s ↔
    s.filename = fn ∧ SchematicLines ls { s with filename := none } := by
  unfold parseLines
  simp only [Schematic.dflt]
  constructor
  · intro hall
    obtain ⟨p, hp, h⟩ := Res.bind_eq_ok.1 hall
    clear hall
    obtain ⟨names, rest, rfl, h1, h2⟩ := libs_read p (⟨fn, [], .dflt, [], [], []⟩ : Schematic F)
    rw [Lib.assume_iff] at hp
    rw [h2] at h
    dsimp only at h
    subst hp
    cases rest with
    | nil => cases h
    | cons l rest =>
      rw [show here (l :: rest) = .ok l from rfl, Res.bind_ok] at h
      cases hl : startsWith l (str! "EELAYER ") with
      | false => rw [hl] at h; cases h
      | true =>
        obtain ⟨layer, rfl⟩ := List.isPrefixOf_iff_prefix.1 hl
        rw [hl] at h
        simp only [Bool.not_true, Bool.false_eq_true, if_false] at h
        obtain ⟨body, hb, hi⟩ := Res.bind_eq_ok.1 h
        clear h
        rw [Lib.assume_iff] at hb
        change rest = _ at hb
        subst hb
        rw [parseItems_eq] at hi
        obtain ⟨is, hk, h⟩ := Res.bind_eq_ok.1 hi
        clear hi
        rw [foldl_add] at h
        cases h
        refine ⟨rfl, layer, body, is.map Item.part, ?_, rfl, rfl, (content_iff ..).1 ⟨is, hk, rfl⟩, ?_, ?_, ?_⟩
        · simp
        · exact itemDescr_part is _
        · exact (itemElements_part is)
        · exact (itemSheets_part is)
  · rintro ⟨h0, layer, body, ps, rfl, h1, h2, hc, h3, h4, h5⟩
    obtain ⟨is, hi, rfl⟩ := (content_iff ..).2 hc
    rw [List.cons_append, (Lib.assume_iff ..).2 rfl, Res.bind_ok,
      libs_accept _ _ (by intro s r e; cases e; exact notLibs layer)]
    dsimp only
    rw [show ∀ (l : Str) r, here (l :: r) = .ok l from fun _ _ => rfl, Res.bind_ok,
      show startsWith (str! "EELAYER " ++ layer) (str! "EELAYER ") = true from
        List.isPrefixOf_iff_prefix.2 ⟨layer, rfl⟩]
    simp only [Bool.not_true, Bool.false_eq_true, if_false, next, List.drop_one, List.tail_cons]
    rw [(Lib.assume_iff ..).2 rfl, Res.bind_ok, parseItems_eq, show readItems body.length body = .ok is from hi,
      Res.bind_ok, foldl_add]
    rw [← itemDescr_part] at h3
    rw [← itemElements_part] at h4
    rw [← itemSheets_part] at h5
    obtain ⟨fn, libs, d, es, ss, ee⟩ := s
    simp only at h0 h1 h2 h3 h4 h5
    subst h0 h1 h3 h4 h5
    rfl

/-- A text is read as a schematic exactly if its lines are those of the schematic. -/
theorem C76_grammar (t : Str) (s : Schematic F) : Sch.parseStr t = .ok s ↔ SchematicLines (lines t) s := by
  rw [show Sch.parseStr (F := F) t = parseLines none (lines t) from rfl, Sch.lines_iff]
  constructor
  · rintro ⟨h, hl⟩
    rwa [← h] at hl
  · intro h
    have hn : s.filename = none := by obtain ⟨_, _, _, _, _, h, _⟩ := h; exact h
    refine ⟨hn, ?_⟩
    rwa [← hn]

/-- A file is read in the same way; the only difference is that its name is kept. -/
theorem C76_file (name t : Str) (s : Schematic F) : Sch.parse (some name) t = .ok s ↔
    s.filename = some name ∧ SchematicLines (lines t) { s with filename := none } :=
  Sch.lines_iff (some name) (lines t) s

/-- The grammar is unambiguous: no text describes two schematics. -/
theorem C76_unique (ls : List Str) (a b : Schematic F) (ha : SchematicLines ls a) (hb : SchematicLines ls b) : a = b := by
  have h : ∀ s : Schematic F, SchematicLines ls s → parseLines none ls = .ok s := by
    intro s h
    have hn : s.filename = none := by obtain ⟨_, _, _, _, _, h, _⟩ := h; exact h
    refine (Sch.lines_iff ..).2 ⟨hn, ?_⟩
    rwa [← hn]
  exact Res.ok.inj ((h a ha).symm.trans (h b hb))

/-! ## Examples -/

/-- A wire, whatever the spacing; an unknown kind counts as a wire. -/
example : WireLines [str! "Wire  Odd Line", str! "\t10 20\t30 -40 "] { type_ := .wire, x1 := 10, y1 := 20, x2 := 30, y2 := -40 } := by
  refine ⟨_, _, str! "Odd", str! "Line", str! "10", str! "20", str! "30", str! "-40", rfl,
    (splitWs_iff _ _).1 (by decide), (splitWs_iff _ _).1 (by decide), by simp, by simp, ?_, ?_, ?_, ?_⟩ <;>
    exact (i64R_iff _ _).1 (by decide +kernel)

/-- A small file, with a component whose lines come in an unusual order. -/
def Spec.smallSchematic : Str :=
  str! "EESchema Schematic File Version 2\nLIBS:power\nLIBS:device\nEELAYER 25 0\nEELAYER END\n$Comp x\nP 100 200\n\nU 1 1 5A\nL R R1\nsomething\n\t1 100 200\n\t1 0 0 -1\nL C C1\n$EndComp\nNoConn ~ 3 4\nodd line\n$EndSCHEMATC\n"

def Spec.smallSchematicValue : Schematic Nm :=
  { filename := none, libraries := [str! "power", str! "device"], description := .dflt,
    elements := [.component { name := str! "C", reference := str! "C1", u := str! "U 1 1 5A", x := 100, y := 200,
                              arPath := [], fields := [], rotation := ⟨1, 0, 0, -1⟩ },
                 .noConnect ⟨3, 4⟩, .other (str! "odd line")],
    sheets := [], eelayer := str! "EELAYER 25 0" }

theorem Spec.smallSchematic_lines : SchematicLines (lines smallSchematic) smallSchematicValue :=
  (C76_grammar smallSchematic smallSchematicValue).1 (by decide +kernel)

/-- Nothing follows the grammar if a wire has only three coordinates. -/
example (s : Schematic Nm) : ¬ SchematicLines (lines (str!
    "EESchema Schematic File Version 2\nEELAYER 25 0\nEELAYER END\nWire Wire Line\n1 2 3\n")) s := by
  rw [← C76_grammar]
  intro h
  have : (match (Sch.parseStr (str!
      "EESchema Schematic File Version 2\nEELAYER 25 0\nEELAYER END\nWire Wire Line\n1 2 3\n") :
      Res (Schematic Nm)) with | .ok _ => true | _ => false) = true := by rw [h]
  revert this
  decide +kernel

end Verif
