import Verif.Props.C02
import Verif.Props.C20
import Verif.Props.C57
import Verif.Props.C66
import Verif.Lemmas.LayBoardGrammar
/-!
# C86: exactly what fits the file format survives saving

The round trips of C01, C14, C19 and C35 are for objects that fit the file format.
Here the converse: an object that does not fit, however it was built, is not read back as
it was.
-/

namespace Verif
open Spec Flt

variable {F : Type} [Flt F]

/-! ### The counter of the sheet labels -/

theorem Sch.printLabels_eq (i : Nat) (ls : List Sch.SheetLabel) (hi : i ≤ 2147483647) :
    (i + ls.length ≤ 2147483647 → Sch.printLabels i ls = .ok (Sch.showLabels i ls)) ∧
    (¬ i + ls.length ≤ 2147483647 → Sch.printLabels i ls = .panic) := by
  induction ls generalizing i with
  | nil => exact ⟨fun _ => rfl, fun h => absurd hi h⟩
  | cons l ls ih =>
    rw [Sch.printLabels]
    by_cases h : i = 2147483647
    · rw [if_pos h]
      exact ⟨fun h' => by simp only [List.length_cons] at h'; omega, fun _ => rfl⟩
    · rw [if_neg h]
      obtain ⟨h1, h2⟩ := ih (i + 1) (by omega)
      simp only [List.length_cons]
      exact ⟨fun h' => by rw [h1 (by omega)]; rfl, fun h' => by rw [h2 (by omega)]; rfl⟩

theorem Sch.printSheets_eq (xs : List Sch.Sheet) :
    ((∀ x ∈ xs, x.labels.length < 2147483646) → Sch.printSheets xs = .ok (xs.map Sch.Sheet.show).flatten) ∧
    (¬ (∀ x ∈ xs, x.labels.length < 2147483646) → Sch.printSheets xs = .panic) := by
  induction xs with
  | nil => exact ⟨fun _ => rfl, fun h => absurd (by simp) h⟩
  | cons x xs ih =>
    obtain ⟨h1, h2⟩ := Sch.printLabels_eq 2 x.labels (by omega)
    rw [List.forall_mem_cons, Sch.printSheets]
    constructor
    · rintro ⟨h3, h4⟩
      rw [ih.1 h4, Sch.Sheet.print, h1 (by omega)]
      rfl
    · intro h
      by_cases h3 : x.labels.length < 2147483646
      · rw [ih.2 fun h4 => h ⟨h3, h4⟩, Sch.Sheet.print, h1 (by omega)]
        rfl
      · rw [Sch.Sheet.print, h2 (by omega)]
        rfl

/-- Printing a schematic panics exactly if a sheet has more labels than can be counted. -/
theorem C86_print (s : Sch.Schematic F) :
    (CountableLabels s → s.print = .ok s.show) ∧ (¬ CountableLabels s → s.print = .panic) := by
  obtain ⟨h1, h2⟩ := Sch.printSheets_eq s.sheets
  constructor
  · intro h
    rw [Sch.Schematic.print, h1 h]
    rfl
  · intro h
    rw [Sch.Schematic.print, h2 h]
    rfl

variable [TextLaws F]

/-- For what was read from a text (C02), including sheets with more labels than can be counted:
saving it gives a text, and that text is read as it, exactly if it is writable, its lines have no
stray carriage returns and its labels can be counted. -/
theorem C02_resave_iff (t : Str) (s : Sch.Schematic F) (h : Sch.parseStr t = .ok s) :
    (∃ u, s.print = .ok u ∧ Sch.parseStr u = .ok s) ↔ Writable s ∧ Ended s ∧ CountableLabels s := by
  by_cases hc : CountableLabels s
  · rw [(C86_print s).1 hc]
    have := C02_resave_iff_partial t s h hc
    constructor
    · rintro ⟨u, hu, hp⟩
      cases hu
      exact ⟨(this.1 hp).1, (this.1 hp).2, hc⟩
    · rintro ⟨h1, h2, _⟩
      exact ⟨_, rfl, this.2 ⟨h1, h2⟩⟩
  · rw [(C86_print s).2 hc]
    constructor
    · rintro ⟨u, hu, _⟩
      cases hu
    · rintro ⟨_, _, h1⟩
      exact absurd h1 hc

/-- A schematic, however built, is saved and read back as it was (apart from the file name,
which is not in the file) exactly if it fits the file format. -/
theorem C86_schematic (s : Sch.Schematic F) :
    (∃ u, s.print = .ok u ∧ Sch.parseStr u = .ok { s with filename := none }) ↔ FitsSchematic s := by
  constructor
  · rintro ⟨u, hu, hr⟩
    by_cases hc : CountableLabels s
    · rw [(C86_print s).1 hc] at hu
      cases hu
      obtain ⟨h1, h2⟩ := (C02_resave_iff_partial _ _ hr hc).1 hr
      obtain ⟨h3, _, h5⟩ := Sch.parseLines_read (fun l hm => Sch.lines_noLf s.show l hm) hr
      exact (Sch.fitsSchematic_iff _).2 ⟨h3, h5, h1, hc, h2⟩
    · rw [(C86_print s).2 hc] at hu
      cases hu
  · intro h
    exact ⟨_, (C86_print s).1 ((Sch.fitsSchematic_iff s).1 h).2.2.2.1, C01_roundtrip s h⟩

/-- A symbol library, however built, is saved and read back as it was exactly if it fits the file
format and no field is bold. -/
theorem C86_library (l : Lib.SymbolLib F) :
    (∃ u, l.show = .ok u ∧ Lib.parseStr u = .ok l) ↔ FitsLib l ∧ ¬ HasBold l := by
  constructor
  · rintro ⟨u, hu, hr⟩
    obtain ⟨h1, h2⟩ := (C66_resave_iff u l hr).1 ⟨u, hu, hr⟩
    have h3 := Lib.read_of_parse hr
    refine ⟨fun s hs => ⟨((Lib.line_iff_writable s (h3 s hs)).2 (h1 s hs)).1, h2 s hs⟩, ?_⟩
    rintro ⟨s, hs, f, hf, hb⟩
    rw [((Lib.line_iff_writable s (h3 s hs)).2 (h1 s hs)).2 f hf] at hb
    cases hb
  · rintro ⟨h1, h2⟩
    exact C14_roundtrip l h1 h2

variable [ZeroLaws F]

/-- A footprint whose strings survive quoting, however built, is saved and read back as it was
exactly if all its elements can be saved. -/
theorem C86_module (q : Str → Bool) (hq : QuotesWhenNeeded q) (level : Int) (m : Fp.Module F) (hn : Clean m.name)
    (hs : ∀ e ∈ m.elements, ∀ s ∈ strings e, Clean s) :
    Fp.parse (Fp.toText q level m) = .ok m ↔ ∀ e ∈ m.elements, GoodElem e := by
  constructor
  · intro h
    have h1 := (C20_resave_partial q hq level _ m h hn hs).1 h
    simp only [Fp.parse, Res.bind_eq_ok] at h
    obtain ⟨tree, _, hr⟩ := h
    exact Fp.Module.good_of_de hr h1
  · intro h
    have := C19_footprint_roundtrip q hq level m ⟨hn, fun e he => ⟨h e he, hs e he⟩⟩ [] Sexp.Text.blank_nil
    rwa [List.append_nil] at this

/-- A tree that is read as an outline of a zone. -/
def Spec.OutlineTree (F : Type) [Flt F] (s : Sexp) : Prop :=
  ∃ n ∈ outlineSections, ∃ p : List (Fp.Xy F), Named n PtsTree s p

/-- A board element that is saved without loss. -/
def Spec.LosslessElem : Lay.Elem F → Prop
  | .zone z => inI64 z.net ∧ GoodLayer z.layer ∧ z.priority ≤ maxI64 ∧ inI64 z.fill.arcSegments ∧
      ∀ s ∈ z.other, ¬ OutlineTree F s
  | e => GoodBoardElem e

/-- A layout that is saved without loss. -/
def Spec.LosslessLayout (l : Lay.Layout F) : Prop :=
  inI64 l.version ∧ GoodGeneral l.general ∧ (∀ x ∈ l.layers, inI64 x.num ∧ GoodLayer x.layer) ∧
  (∀ s ∈ l.setup.elements, s.name ≠ str! "pcbplotparams") ∧ ∀ e ∈ l.elements, LosslessElem e

omit [TextLaws F] [ZeroLaws F] in
theorem Lay.notOutline_iff (s : Sexp) : notOutline F s ↔ ¬ OutlineTree F s := by
  unfold notOutline OutlineTree outlineSections
  simp only [ne_eq, single_iff (Fp.pts_iff (F := F)), List.mem_cons, List.not_mem_nil, or_false, exists_eq_or_imp,
    exists_eq_left, not_or, not_exists]

omit [TextLaws F] [ZeroLaws F] in
theorem Lay.good_iff (e : Lay.Elem F) : e.good ↔ LosslessElem e := by
  cases e with
  | zone z => simp only [Elem.good, LosslessElem, Lay.notOutline_iff]
  | _ => exact Iff.rfl

/-- A layout whose strings survive quoting, however built, is saved and read back as it was
exactly if all its parts can be saved. -/
theorem C86_layout (q : Str → Bool) (hq : QuotesWhenNeeded q) (level : Int) (l : Lay.Layout F) (hc : CleanLayout l) :
    Lay.parse (Lay.toText q level l) = .ok l ↔ LosslessLayout l := by
  constructor
  · intro h
    have h1 := (C57_resave_partial q hq level _ l h hc).1 h
    simp only [Lay.parse, Res.bind_eq_ok] at h
    obtain ⟨tree, _, hr⟩ := h
    obtain ⟨a1, a2, a3, a4, a5⟩ := Lay.Layout.savable_of_de hr h1
    exact ⟨a1, a2, a3, a4, fun e he => (Lay.good_iff e).1 (a5 e he)⟩
  · rintro ⟨a1, a2, a3, a4, a5⟩
    have hs : ∀ e ∈ l.elements, ∀ m, e = .module_ m → Fp.ShapesRead m := by
      rintro e he m rfl e' he' p rfl d hd
      have h1 : ∀ e ∈ m.elements, GoodElem e := a5 _ he
      exact ((h1 _ he').2.2.2.2.2 d hd).1
    have hnl : Blank (str! "\n") := by unfold Blank; decide
    rw [Lay.parse, Lay.toText, Sexp.Text.parse_toText_blank q level _ (Lay.Layout.ok_ser hq l hc hs) _ hnl]
    exact Lay.Layout.de_ser' l a1 a2 a3 a4 fun e he => (Lay.good_iff e).2 (a5 e he)

/-! ### Cases on both sides -/

example : FitsSchematic (sampleSchematic Nm) ∧ ¬ FitsSchematic (Sch.Schematic.dflt : Sch.Schematic Nm) := by
  constructor <;> decide +kernel

example : (FitsLib (sampleLib Nm) ∧ ¬ HasBold (sampleLib Nm)) ∧
    ¬ FitsLib (⟨[Lib.Symbol.new (str! "R") (str! "R")]⟩ : Lib.SymbolLib Nm) := by
  refine ⟨?_, ?_⟩ <;> decide +kernel

example : GoodModule Spec.sampleModule ∧ Clean (str! "a") ∧ ¬ ∀ e ∈ [(.tedit (-1) : Fp.Elem Nm)], GoodElem e := by
  refine ⟨sampleModule_good, by decide, fun h => ?_⟩
  exact absurd (h _ List.mem_cons_self).1 (by decide)

/-- Broken outlines do not hurt: a zone with a `polygon` that has no points keeps it. -/
example : ¬ OutlineTree Nm (.list [.str (str! "polygon"), .str (str! "x")]) := by
  rintro ⟨n, _, p, v, h, h'⟩
  cases h
  obtain ⟨es, h, _⟩ := h'
  cases h

end Verif
