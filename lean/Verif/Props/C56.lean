import Verif.Props.C02
import Verif.Props.C07
import Verif.Props.C14
/-!
# C56: values may be any text without quotes
-/

namespace Verif
open Sch Spec Flt

variable {F : Type} [Flt F] [TextLaws F]

/-- Whatever quotable text is put into a field of a component is read back, with everything else. -/
theorem C56_component_field (s : Schematic F) (pre post : List (Element F)) (c c' : Component F)
    (a b : List (Sch.Field F)) (f : Sch.Field F) (v : Str) (hs : FitsSchematic s)
    (he : s.elements = pre ++ .component c :: post) (hc : c.fields = a ++ f :: b) (hv : Quotable v)
    (hc' : c' = { c with fields := a ++ { f with value := v } :: b }) :
    parseStr (withComponent s pre post c').show = .ok { withComponent s pre post c' with filename := none } := by
  have hel : ∀ e ∈ s.elements, FitsElement e := hs.2.2.2.2.1
  rw [he] at hel
  have h0 : FitsComponent c := hel (.component c) (by simp)
  refine C01_roundtrip _ (fits_withComponent s pre post c' hs ?_ ?_)
  · intro e hm
    refine hel e ?_
    rcases List.mem_append.1 hm with hm | hm
    · exact List.mem_append_left _ hm
    · exact List.mem_append_right _ (List.mem_cons_of_mem _ hm)
  · subst hc'
    obtain ⟨h1, h2, h3, h4, h5, h6, h7, h8, h9⟩ := h0
    refine ⟨h1, h2, h3, h4, h5, h6, h7, ?_, h9⟩
    rw [hc] at h8
    intro g hg
    rcases List.mem_append.1 hg with hg | hg
    · exact h8 g (List.mem_append_left _ hg)
    · rcases List.mem_cons.1 hg with rfl | hg
      · obtain ⟨k1, k2, k3, _, k5, k6⟩ := h8 f (by simp)
        exact ⟨k1, k2, k3, hv, k5, k6⟩
      · exact h8 g (List.mem_append_right _ (List.mem_cons_of_mem _ hg))

example : Quotable (str! "  a  b ") ∧ Quotable [] ∧ Quotable (str! "\\ / $Comp é") := by decide

/-- The eight texts of the title block. -/
def Spec.titleEntries (d : Description) : List Str :=
  [d.title, d.date, d.rev, d.comp, d.comment1, d.comment2, d.comment3, d.comment4]

/-- Whatever quotable texts are put into the title block are read back, with everything else. -/
theorem C56_title_block (s : Schematic F) (d : Description) (hs : FitsSchematic s)
    (h1 : d.size = s.description.size) (h2 : d.dimx = s.description.dimx) (h3 : d.dimy = s.description.dimy)
    (h4 : d.sheet = s.description.sheet) (h5 : d.sheetCount = s.description.sheetCount)
    (hv : ∀ v ∈ titleEntries d, Quotable v) :
    parseStr ({ s with description := d } : Schematic F).show =
      .ok { s with description := d, filename := none } := by
  obtain ⟨k1, k2, k3, k4, k5, k6⟩ := hs
  obtain ⟨l1, l2, l3, _, _, _, _, _, _, _, _, l4, l5⟩ := k4
  have hd : FitsDescription d := by
    refine ⟨by rwa [h1], by rwa [h2], by rwa [h3], hv _ ?_, hv _ ?_, hv _ ?_, hv _ ?_, hv _ ?_, hv _ ?_, hv _ ?_,
      hv _ ?_, by rwa [h4], by rwa [h5]⟩ <;> simp [titleEntries]
  exact C01_roundtrip _ ⟨k1, k2, k3, hd, k5, k6⟩

example : FitsSchematic (sampleSchematic Nm) ∧
    ∀ v ∈ titleEntries ({ (sampleSchematic Nm).description with
      comment4 := str! "  x ", title := [] } : Description), Quotable v := by decide +kernel

/-- Whatever quotable text is put into a field of a symbol is read back, with everything else. -/
theorem C56_symbol_field (l : Lib.SymbolLib F) (pre post : List (Lib.Symbol F)) (s : Lib.Symbol F)
    (a b : List (Lib.Field F)) (f : Lib.Field F) (v : Str) (hl : FitsLib l) (hb : ¬ HasBold l)
    (he : l.symbols = pre ++ s :: post) (hf : s.fields = a ++ f :: b) (hv : Quotable v) :
    ∃ t, Lib.SymbolLib.show ⟨pre ++ { s with fields := a ++ { f with value := v } :: b } :: post⟩ = .ok t ∧
      Lib.parseStr t = .ok ⟨pre ++ { s with fields := a ++ { f with value := v } :: b } :: post⟩ := by
  refine C14_roundtrip _ ?_ ?_
  · intro x hx
    rcases List.mem_append.1 hx with hx | hx
    · exact hl x (by rw [he]; exact List.mem_append_left _ hx)
    · rcases List.mem_cons.1 hx with rfl | hx
      · obtain ⟨⟨h1, h2, h3, h4, h5, h6, h7⟩, h8⟩ := hl s (by rw [he]; simp)
        rw [hf] at h4 h5
        refine ⟨⟨h1, h2, h3, by simpa using h4, ?_, h6, h7⟩, h8⟩
        intro g hg
        rcases List.mem_append.1 hg with hg | hg
        · exact h5 g (List.mem_append_left _ hg)
        · rcases List.mem_cons.1 hg with rfl | hg
          · obtain ⟨k1, k2, k3, _, k5, k6⟩ := h5 f (by simp)
            exact ⟨k1, k2, k3, hv, k5, k6⟩
          · exact h5 g (List.mem_append_right _ (List.mem_cons_of_mem _ hg))
      · exact hl x (by rw [he]; exact List.mem_append_right _ (List.mem_cons_of_mem _ hx))
  · rintro ⟨x, hx, g, hg, hgb⟩
    apply hb
    rcases List.mem_append.1 hx with hx | hx
    · exact ⟨x, by rw [he]; exact List.mem_append_left _ hx, g, hg, hgb⟩
    · rcases List.mem_cons.1 hx with rfl | hx
      · refine ⟨s, by rw [he]; simp, ?_⟩
        rw [hf]
        rcases List.mem_append.1 hg with hg | hg
        · exact ⟨g, List.mem_append_left _ hg, hgb⟩
        · rcases List.mem_cons.1 hg with rfl | hg
          · exact ⟨f, by simp, hgb⟩
          · exact ⟨g, List.mem_append_right _ (List.mem_cons_of_mem _ hg), hgb⟩
      · exact ⟨x, by rw [he]; exact List.mem_append_right _ (List.mem_cons_of_mem _ hx), g, hg, hgb⟩

omit [TextLaws F] in
/-- No field value, title block text or sheet name read from any text contains a
double quote. -/
theorem C56_read_unquoted (t : Str) (s : Schematic F) (h : parseStr t = .ok s) :
    (∀ c, Element.component c ∈ s.elements → ∀ f ∈ c.fields, Quotable f.value ∧ Quotable f.name) ∧
    (∀ v ∈ titleEntries s.description, Quotable v) ∧
    ∀ x ∈ s.sheets, Quotable x.name ∧ Quotable x.filename := by
  obtain ⟨⟨_, hd, he, hs⟩, _⟩ := parseLines_read (ch := '\n') (fun l hm => lines_noLf t l hm) h
  refine ⟨?_, ?_, ?_⟩
  · intro c hc f hf
    have hr : ReadComponent c := he _ hc
    obtain ⟨_, _, _, _, _, _, _, h8, _⟩ := hr
    exact ⟨(h8 f hf).2.2.1, (h8 f hf).2.2.2⟩
  · obtain ⟨_, _, _, h1, h2, h3, h4, h5, h6, h7, h8, _⟩ := hd
    intro v hv
    simp only [titleEntries, List.mem_cons, List.not_mem_nil, or_false] at hv
    rcases hv with rfl | rfl | rfl | rfl | rfl | rfl | rfl | rfl <;> assumption
  · intro x hx
    obtain ⟨_, _, _, _, _, h6, _, h8, _⟩ := hs x hx
    exact ⟨h6, h8⟩

omit [TextLaws F] in
/-- A value with a double quote is not read back: whatever the reader makes of the
saved text, it is not the schematic that was saved. -/
theorem C56_quote_lost (s : Schematic F) (g : Option Str) (c : Component F) (f : Sch.Field F)
    (hc : Element.component c ∈ s.elements) (hf : f ∈ c.fields) (hq : '"' ∈ f.value) :
    parseStr s.show ≠ .ok { s with filename := g } := by
  intro h
  exact ((C56_read_unquoted _ _ h).1 c hc f hf).1.2 hq

/-- The sample schematic with a double quote in a value. -/
def Spec.quotedValue : Schematic Nm :=
  { sampleSchematic Nm with elements := [.component { sampleComponent Nm with
      fields := [sampleField Nm 0 (str! "Reference") (str! "R\"1")] }] }

example : ∃ c, Element.component c ∈ quotedValue.elements ∧ ∃ f ∈ c.fields, '"' ∈ f.value :=
  ⟨_, List.mem_singleton.2 rfl, _, List.mem_singleton.2 rfl, by decide⟩

/-! ### Symbol libraries -/

omit [TextLaws F] in
theorem Lib.parseField_value {l : Str} {f : Lib.Field F} (h : Lib.parseField l = .ok f) : '"' ∉ f.value := by
  unfold Lib.parseField at h
  obtain ⟨v, hv, h⟩ := Res.bind_eq_ok.1 h
  split at h
  · cases h
  obtain ⟨v0, _, h⟩ := Res.bind_eq_ok.1 h
  obtain ⟨i, _, h⟩ := Res.bind_eq_ok.1 h
  have key : ∀ name, (do
      let value ← idx v 1
      let x ← f64R (← idx v 2)
      let y ← f64R (← idx v 3)
      let dimension ← i64R (← idx v 4)
      let orientation ← Orientation.new (← charAt (← idx v 5) 0)
      let visible ← boolFrom (← idx v 6) (str! "V") (str! "I")
      let hjustify ← Justify.new (← charAt (← idx v 7) 0)
      let vjustify ← Justify.new (← charAt (← idx v 8) 0)
      let italic ← boolFrom (← charAt (← idx v 8) 1) 'I' 'N'
      let bold ← boolFrom (← charAt (← idx v 8) 2) 'B' 'N'
      Res.ok ({ i, value, x, y, dimension, orientation, visible, hjustify, vjustify, italic, bold, name } : Lib.Field F)) =
        .ok f → '"' ∉ f.value := by
    intro name h
    obtain ⟨value, h2, h⟩ := Res.bind_eq_ok.1 h
    have hw' : v[1]? = some value := by
      unfold Sch.idx at h2
      split at h2
      · cases h2; assumption
      · cases h2
    have hq := (splitInt_parts hv 1 value hw' (fun k' hk => by cases hk)).1
    simp only [Res.bind_eq_ok] at h
    obtain ⟨_, _, x, _, _, _, y, _, _, _, sz, _, _, _, _, _, o, _, _, _, vis, _, _, _, _, _, hj, _, _, _,
      _, _, vj, _, _, _, _, _, it, _, _, _, _, _, bo, _, h⟩ := h
    cases h
    exact hq
  split at h
  · obtain ⟨name, hn, h⟩ := Res.bind_eq_ok.1 h
    exact key name h
  split at h
  · exact key _ h
  split at h
  · exact key _ h
  split at h
  · exact key _ h
  split at h
  · exact key _ h
  · cases h

omit [TextLaws F] in
theorem Lib.parseFields_value (p : List Str) : ∀ (acc r : List (Lib.Field F)) (p' : List Str),
    (∀ f ∈ acc, '"' ∉ f.value) → Lib.parseFields acc p = .ok (r, p') → ∀ f ∈ r, '"' ∉ f.value := by
  induction p with
  | nil => intro acc r p' _ h; cases h
  | cons s rest ih =>
    intro acc r p' ha h
    rw [Lib.parseFields] at h
    obtain ⟨c, _, h⟩ := Res.bind_eq_ok.1 h
    split at h
    · obtain ⟨f, hf, h⟩ := Res.bind_eq_ok.1 h
      refine ih _ r p' ?_ h
      intro g hg
      rcases List.mem_append.1 hg with hg | hg
      · exact ha g hg
      · rw [List.mem_singleton.1 hg]; exact parseField_value hf
    · cases h; exact ha

omit [TextLaws F] in
theorem Lib.parseSymbols_value : ∀ (n : Nat) (acc r : List (Lib.Symbol F)) (p : List Str),
    (∀ s ∈ acc, ∀ f ∈ s.fields, '"' ∉ f.value) → Lib.parseSymbols n acc p = .ok r →
    ∀ s ∈ r, ∀ f ∈ s.fields, '"' ∉ f.value
  | _, acc, r, [], ha, h => by
    rw [Lib.parseSymbols] at h
    cases h; exact ha
  | 0, _, _, _ :: _, _, h => by cases h
  | n + 1, acc, r, l :: rest, ha, h => by
    rw [Lib.parseSymbols] at h
    split at h
    · cases h; exact ha
    · obtain ⟨⟨s, p⟩, hs, h⟩ := Res.bind_eq_ok.1 h
      refine parseSymbols_value n _ r p ?_ h
      intro x hx
      rcases List.mem_append.1 hx with hx | hx
      · exact ha x hx
      · rw [List.mem_singleton.1 hx]
        unfold Lib.parseSymbol at hs
        obtain ⟨p1, h1, hs⟩ := Res.bind_eq_ok.1 hs
        obtain ⟨l, _, hs⟩ := Res.bind_eq_ok.1 hs
        obtain ⟨s0, _, hs⟩ := Res.bind_eq_ok.1 hs
        obtain ⟨⟨fs, p2⟩, h2, hs⟩ := Res.bind_eq_ok.1 hs
        obtain ⟨hh, _, hs⟩ := Res.bind_eq_ok.1 hs
        obtain ⟨⟨as, p3⟩, h3, hs⟩ := Res.bind_eq_ok.1 hs
        obtain ⟨p4, h4, hs⟩ := Res.bind_eq_ok.1 hs
        obtain ⟨⟨ds, p5⟩, h5, hs⟩ := Res.bind_eq_ok.1 hs
        obtain ⟨p6, h6, hs⟩ := Res.bind_eq_ok.1 hs
        obtain ⟨p7, h7, hs⟩ := Res.bind_eq_ok.1 hs
        cases hs
        exact parseFields_value _ [] fs p2 (by simp) h2

omit [TextLaws F] in
/-- No field value of a symbol read from any text contains a double quote, so a library with such a
value is never read back. -/
theorem C56_symbol_read_unquoted (t : Str) (l : Lib.SymbolLib F) (h : Lib.parseStr t = .ok l) :
    ∀ s ∈ l.symbols, ∀ f ∈ s.fields, '"' ∉ f.value := by
  unfold Lib.parseStr Lib.parseLines at h
  obtain ⟨p1, h1, h⟩ := Res.bind_eq_ok.1 h
  obtain ⟨p2, h2, h⟩ := Res.bind_eq_ok.1 h
  obtain ⟨p3, h3, h⟩ := Res.bind_eq_ok.1 h
  obtain ⟨v, hv, h⟩ := Res.bind_eq_ok.1 h
  cases h
  exact Lib.parseSymbols_value _ [] v _ (by simp) hv

end Verif
