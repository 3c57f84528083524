import Verif.Lemmas.Spacing
import Verif.Model.TreeMsg
import Verif.Model.FpLibTable
import Verif.Basic.Nm
import Mathlib.Logic.Relation
import Mathlib.Data.List.Forall2
/-!
# C97: files laid out by hand

Users line up columns and indent trees by hand, and other programs pad numbers.  More or
fewer blanks between words must not change what is read, whether the file is good or not.
-/

namespace Verif
open Spec Flt

variable {F : Type} [Flt F]

/-- What it means for two lines to have the same normalised spacing: a blank that is not
between quotes can be doubled, in any line but a heading or comment. -/
theorem C97_doubled_blank (a b : Str) (h : a.count '"' % 2 = 0) (hE : a.head? ≠ some 'E') (hc : a.head? ≠ some '#') :
    tidyLine (a ++ ' ' :: ' ' :: b) = tidyLine (a ++ ' ' :: b) := by
  have key : ∀ t, tidyLine (a ++ ' ' :: t) = squeeze (a ++ ' ' :: t) := by
    intro t
    cases a with
    | nil => rfl
    | cons c a =>
      unfold tidyLine
      split
      · next e => exact absurd (congrArg some (List.cons.inj e).1) hE
      · next e => exact absurd (congrArg some (List.cons.inj e).1) hc
      · rfl
  rw [key, key, Spacing.squeeze_insert a b h]

/-- Schematics that differ only in the number of blanks between words are read alike: both
are refused with the same kind of error, or both panic, or the schematics read differ only in
the spacing of the lines that are kept as they are. -/
theorem C97_schematics (fn : Option Str) (t t' : Str) (h : SameButBlanks t t') :
    (Sch.parse fn t : Res (Sch.Schematic F)).map tidySchematic = (Sch.parse fn t').map tidySchematic := by
  unfold Sch.parse
  rw [← Spacing.sch_tidy, ← Spacing.sch_tidy, show (lines t).map tidyLine = _ from h]

/-- The same for symbol libraries. -/
theorem C97_libraries (t t' : Str) (h : SameButBlanks t t') :
    (Lib.parseStr t : Res (Lib.SymbolLib F)).map tidyLib = (Lib.parseStr t').map tidyLib := by
  unfold Lib.parseStr
  rw [← Spacing.lib_tidy, ← Spacing.lib_tidy, show (lines t).map tidyLine = _ from h]

/-- What is the same in a schematic laid out differently: everything but the spacing inside
the lines that are kept as they are. -/
theorem C97_schematic_contents (fn : Option Str) (t t' : Str) (h : SameButBlanks t t') (s : Sch.Schematic F)
    (hs : Sch.parse fn t = .ok s) :
    ∃ s' : Sch.Schematic F, Sch.parse fn t' = .ok s' ∧
      s'.filename = s.filename ∧ s'.description = s.description ∧ s'.sheets = s.sheets ∧ s'.eelayer = s.eelayer ∧
      s'.libraries.length = s.libraries.length ∧
      List.Forall₂ (fun e e' => match e, e' with
        | .component c, .component c' => c'.name = c.name ∧ c'.reference = c.reference ∧ c'.x = c.x ∧ c'.y = c.y ∧
            c'.fields = c.fields ∧ c'.rotation = c.rotation ∧ tidyLine c'.u = tidyLine c.u ∧
            c'.arPath.map tidyLine = c.arPath.map tidyLine
        | .wire w, .wire w' => w' = w
        | .connection p, .connection p' => p' = p
        | .noConnect p, .noConnect p' => p' = p
        | .text x, .text x' => tidyLine x'.text = tidyLine x.text ∧ { x' with text := x.text } = x
        | .other l, .other l' => tidyLine l' = tidyLine l
        | _, _ => False) s.elements s'.elements := by
  have hx := C97_schematics (F := F) fn t t' h
  rw [hs] at hx
  cases hs' : (Sch.parse fn t' : Res (Sch.Schematic F)) with
  | err e => rw [hs'] at hx; exact absurd hx (by simp [Res.map])
  | panic => rw [hs'] at hx; exact absurd hx (by simp [Res.map])
  | diverge => rw [hs'] at hx; exact absurd hx (by simp [Res.map])
  | ok s' =>
    rw [hs'] at hx
    simp only [Res.map_ok, Res.ok.injEq, tidySchematic, Sch.Schematic.mk.injEq] at hx
    obtain ⟨h1, h2, h3, h4, h5, h6⟩ := hx
    refine ⟨s', rfl, h1.symm, h3.symm, h5.symm, h6.symm, ?_, ?_⟩
    · simpa using (congrArg List.length h2).symm
    · clear hs hs' h1 h2 h3 h5 h6
      generalize s.elements = es at h4
      generalize s'.elements = es' at h4
      induction es generalizing es' with
      | nil =>
        cases es' with
        | nil => exact .nil
        | cons e es' => simp at h4
      | cons e es ih =>
        cases es' with
        | nil => simp at h4
        | cons e' es' =>
          simp only [List.map_cons, List.cons.injEq] at h4
          refine .cons ?_ (ih es' h4.2)
          have he := h4.1
          cases e <;> cases e' <;> simp only [tidyElement, reduceCtorEq, Sch.Element.component.injEq,
            Sch.Element.wire.injEq, Sch.Element.connection.injEq, Sch.Element.noConnect.injEq,
            Sch.Element.text.injEq, Sch.Element.other.injEq] at he ⊢
          · simp only [tidyComponent, Sch.Component.mk.injEq] at he
            obtain ⟨a1, a2, a3, a4, a5, a6, a7, a8⟩ := he
            exact ⟨a1.symm, a2.symm, a4.symm, a5.symm, a7.symm, a8.symm, a3.symm, a6.symm⟩
          · exact he.symm
          · exact he.symm
          · exact he.symm
          · next x x' =>
            cases x
            cases x'
            simp only [Sch.Text.mk.injEq] at he ⊢
            simp_all
          · exact he.symm

/-- What is the same in a library laid out differently. -/
theorem C97_library_contents (t t' : Str) (h : SameButBlanks t t') (l : Lib.SymbolLib F)
    (hl : Lib.parseStr t = .ok l) (plain : ∀ s ∈ l.symbols, ∀ d ∈ s.draw, ∀ x, d ≠ .other x) :
    Lib.parseStr t' = .ok l := by
  have hx := C97_libraries (F := F) t t' h
  rw [hl] at hx
  cases hs' : (Lib.parseStr t' : Res (Lib.SymbolLib F)) with
  | err e => rw [hs'] at hx; exact absurd hx (by simp [Res.map])
  | panic => rw [hs'] at hx; exact absurd hx (by simp [Res.map])
  | diverge => rw [hs'] at hx; exact absurd hx (by simp [Res.map])
  | ok l' =>
    rw [hs'] at hx
    obtain ⟨ss⟩ := l
    obtain ⟨ss'⟩ := l'
    simp only [Res.map_ok, Res.ok.injEq, tidyLib, Lib.SymbolLib.mk.injEq] at hx ⊢
    clear hl hs' h
    simp only at plain
    have draws : ∀ (ds ds' : List Lib.Draw), (∀ d ∈ ds, ∀ x, d ≠ .other x) → ds.map tidyDraw = ds'.map tidyDraw →
        ds' = ds := by
      intro ds
      induction ds with
      | nil => intro ds' _ h; simpa using h.symm
      | cons d ds ih =>
        intro ds' hp h
        cases ds' with
        | nil => simp at h
        | cons d' ds' =>
          simp only [List.map_cons, List.cons.injEq] at h
          rw [ih ds' (fun x hx => hp x (List.mem_cons_of_mem _ hx)) h.2]
          congr 1
          have hd := h.1
          have hn := hp d List.mem_cons_self
          cases d <;> cases d' <;> simp_all [tidyDraw]
    induction ss generalizing ss' with
    | nil => simpa using hx.symm
    | cons s ss ih =>
      cases ss' with
      | nil => simp at hx
      | cons s' ss' =>
        simp only [List.map_cons, List.cons.injEq] at hx
        rw [ih (fun x hx => plain x (List.mem_cons_of_mem _ hx)) ss' hx.2]
        congr 1
        have hd := hx.1
        cases s with
        | mk a1 a2 a3 a4 a5 a6 a7 a8 a9 a10 a11 =>
          cases s' with
          | mk b1 b2 b3 b4 b5 b6 b7 b8 b9 b10 b11 =>
            simp only [tidySymbol, Lib.Symbol.mk.injEq] at hd
            obtain ⟨e1, e2, e3, e4, e5, e6, e7, e8, e9, e10, e11⟩ := hd
            have := draws a11 b11 (plain _ List.mem_cons_self) e11
            simp_all

/-- Footprints, boards and library tables are read the same however they are indented and
broken into lines, whatever the outcome, and so are the messages. -/
theorem C97_trees (disp : Sexp → Str) (dbg : F → Str) (t t' : Str) (h : Relation.EqvGen Reflow t t') :
    (Fp.parse t : Res (Fp.Module F)) = Fp.parse t' ∧ (Lay.parse t : Res (Lay.Layout F)) = Lay.parse t' ∧
    Tbl.parse t = Tbl.parse t' ∧
    (Fp.Msg.parse disp dbg t : Answer (Fp.Module F)) = Fp.Msg.parse disp dbg t' ∧
    (Lay.Msg.parse disp dbg t : Answer (Lay.Layout F)) = Lay.Msg.parse disp dbg t' := by
  have key : parseSexp t = parseSexp t' := by
    induction h with
    | rel _ _ h => exact (Spacing.parseSexp_reflow h).symm
    | refl _ => rfl
    | symm _ _ _ ih => exact ih.symm
    | trans _ _ _ _ _ ih1 ih2 => exact ih1.trans ih2
  unfold Fp.parse Lay.parse Tbl.parse Fp.Msg.parse Lay.Msg.parse
  rw [key]
  exact ⟨rfl, rfl, rfl, rfl, rfl⟩

/-! ### Where spacing does matter -/

/-- Fixed lines must match letter by letter: a blank behind `DRAW` or a second blank in the
heading makes a good library unreadable. -/
theorem C97_fixed_lines :
    (Lib.parseStr (str! "EESchema-LIBRARY Version 2.3\n#encoding utf-8\n#\n#End Library\n") : Res (Lib.SymbolLib Nm)) =
      .ok ⟨[]⟩ ∧
    (Lib.parseStr (str! "EESchema-LIBRARY  Version 2.3\n#encoding utf-8\n#\n#End Library\n") : Res (Lib.SymbolLib Nm)) =
      .err .other ∧
    Sch.assumeLine (str! "DRAW") [str! "DRAW"] = .ok [] ∧
    Sch.assumeLine (str! "DRAW") [str! "DRAW "] = .err .other := by
  decide +kernel

/-- Tabs are not blanks everywhere: the quote-aware lines are split at blanks only. -/
theorem C97_tabs :
    splitWs (str! "Wire\tWire\tLine") = splitWs (str! "Wire Wire Line") ∧
    Sch.parseComponentL (str! "L GND U1") (Sch.Component.dflt (F := Nm)) ≠
      Sch.parseComponentL (str! "L\tGND U1") Sch.Component.dflt := by
  decide +kernel

/-- Inside quotes every blank counts. -/
theorem C97_quoted_blanks :
    splitQ (str! "F 1 \"a  b\"") = .ok [str! "F", str! "1", str! "a  b"] ∧
    splitQ (str! "F   1 \"a b\"") = .ok [str! "F", str! "1", str! "a b"] := by
  decide +kernel

/-- A component moved to wider columns. -/
example : SameButBlanks
    (str! "EESchema Schematic File Version 2\nEELAYER 25 0\nEELAYER END\n$Comp\nL R R1\nP 10 20\n$EndComp\n$EndSCHEMATC\n")
    (str! "EESchema Schematic File Version 2\nEELAYER 25 0\nEELAYER END\n$Comp\nL    R   R1\nP  10  20\n$EndComp\n$EndSCHEMATC\n") := by
  unfold SameButBlanks
  decide +kernel

/-- A footprint on one line and on three. -/
example : Relation.EqvGen Reflow (str! "(module a(layer F.Cu))") (str! "(module a\n(layer F.Cu)\n)") := by
  refine .trans _ (str! "(module a\n(layer F.Cu))") _ (.rel _ _ ?_) (.rel _ _ ?_)
  · exact .mk (str! "(module a") (str! "(layer F.Cu))") '\n' (by simp [TreeSpace]) (by decide)
      (.inr (by simp [TreeBreak]))
  · exact .mk (str! "(module a\n(layer F.Cu)") (str! ")") '\n' (by simp [TreeSpace]) (by decide)
      (.inr (by simp [TreeBreak]))

end Verif
