import Verif.Lemmas.SchBack
/-!
# Schematics without carriage returns
-/

set_option linter.unusedSectionVars false
set_option linter.unusedSimpArgs false

namespace Verif.Sch
open Verif Flt Spec

variable {F : Type} [Flt F] [TextLaws F]

theorem Field.noCr (f : Field F) (hf : ReadField f) (h : ReadFieldBut '\r' f) : '\r' ∉ f.show := by
  refine (f.words hf).but (by decide) ?_
  obtain ⟨_, _, hv, hn⟩ := h
  unfold Field.toks
  intro w hw
  rw [List.mem_append] at hw
  rcases hw with hw | hw
  · simp only [List.mem_cons, List.not_mem_nil, or_false] at hw
    rcases hw with rfl | rfl | rfl | rfl | rfl | rfl | rfl | rfl | rfl | rfl
    · decide
    · exact noCr_showInt _
    · exact hv.1
    · cases f.orientation <;> decide
    · exact noCr_toStr _
    · exact noCr_toStr _
    · exact noCr_showInt _
    · cases f.visible <;> decide
    · cases f.hjustify <;> decide
    · cases f.vjustify <;> cases f.italic <;> cases f.bold <;> decide
  · split at hw
    · rw [List.mem_singleton] at hw; subst hw; exact hn.1
    · cases hw

theorem Component.lns_noCr (c : Component F) (hr : ReadComponent c) (h : ReadComponentBut '\r' c) :
    ∀ l ∈ c.lns, '\r' ∉ l := by
  have hf0 := hr.2.2.2.2.2.2.2.1
  obtain ⟨hn, hr, hu, _, _, _, ha, hf, _⟩ := h
  have hp := fun (x : Int) => noCr_padRight (noCr_showInt x) 4
  have h4 : '\r' ∉ padRight 4 (str! "1") := by decide
  unfold Component.lns Component.tailLines
  simp only [List.forall_mem_cons, List.forall_mem_append, List.forall_mem_map]
  refine ⟨by decide, ?_, hu, ?_, fun l hl => (ha l hl).1, fun f hm => f.noCr (hf0 f hm) (hf f hm), ?_, ?_, by decide,
    by simp⟩
  · simp [Component.lLine, hn.1, hr.1]
  · simp [Component.pLine, noCr_showInt]
  · simp [Component.oneLineOf, hp, h4]
  · simp [Rotation.line, hp]

theorem labelLines_noCr (i : Nat) (l : List SheetLabel) (h0 : ∀ a ∈ l, FitsLabel a)
    (h : ∀ a ∈ l, ReadLabelBut '\r' a) : ∀ s ∈ labelLines i l, '\r' ∉ s := by
  induction l generalizing i with
  | nil => simp [labelLines]
  | cons a l ih =>
    rw [List.forall_mem_cons] at h h0
    unfold labelLines
    rw [List.forall_mem_cons]
    refine ⟨(SheetLabel.words i a h0.1).but (by decide) ?_, ih _ h0.2 h.2⟩
    have h1 : '\r' ∉ a.form.show := by cases a.form <;> decide
    have h2 : '\r' ∉ a.side.show := by cases a.side <;> decide
    simp [noCr_showNat, noCr_showInt, h.1.1.1, h1, h2]

theorem Sheet.lns_noCr (s : Sheet) (hr : ReadSheet s) (h : ReadSheetBut '\r' s) : ∀ l ∈ s.lns, '\r' ∉ l := by
  have hl0 := hr.2.2.2.2.2.2.2.2.2
  obtain ⟨_, _, _, _, hu, hn, _, hf, _, hl⟩ := h
  unfold Sheet.lns
  simp only [List.forall_mem_cons, List.forall_mem_append]
  refine ⟨by decide, ?_, ?_, ?_, ?_, labelLines_noCr 2 _ hl0 hl, by decide, by simp⟩
  · simp [Sheet.sLine, noCr_showInt]
  · simp [Sheet.uLine, hu.1]
  · simp [Sheet.f0Line, hn.1, noCr_showInt]
  · simp [Sheet.f1Line, hf.1, noCr_showInt]

theorem Element.lns_noCr (e : Element F) (hr : ReadElement e) (h : ReadElementBut '\r' e) :
    ∀ l ∈ e.lns, '\r' ∉ l := by
  cases e with
  | component c => exact c.lns_noCr hr h
  | wire w =>
    have ht : '\r' ∉ str! "Wire " ++ w.type_.show ++ str! " Line" := by cases w.type_ <;> decide
    simp only [Element.lns, Wire.lns, List.forall_mem_cons]
    refine ⟨ht, ?_, by simp⟩
    simp [noCr_showInt]
  | connection p => simp [Element.lns, connLine, noCr_showInt]
  | noConnect p => simp [Element.lns, noConnLine, noCr_showInt]
  | text t =>
    obtain ⟨_, _, _, _, _, ht, hs⟩ := h
    have hp := fun (x : Int) => noCr_padRight (noCr_showInt x) 4
    have h1 : '\r' ∉ t.t.show := by cases t.t <;> decide
    have h2 : '\r' ∉ (if t.italic then str! "Italic" else str! "~") := by cases t.italic <;> decide
    simp only [Element.lns, Text.lns, List.forall_mem_cons]
    refine ⟨?_, ht, by simp⟩
    cases hc : t.shape with
    | none =>
      simp only [Text.head, hc, List.mem_append, hp, noCr_showInt, h1, h2, or_false]
      decide
    | some s =>
      rw [hc] at hs
      have : Solid s := by
        cases ht : t.t <;> rw [ht] at hs <;> first | exact hs | exact hs.elim
      have : '\r' ∉ s := fun hm => absurd (this.2 _ hm) (by decide)
      simp only [Text.head, hc, List.mem_append, hp, noCr_showInt, h1, h2, this, or_false, false_or]
      decide
  | other s => simpa [Element.lns] using h.1

theorem Description.lns_noCr (d : Description) (h : ReadDescriptionBut '\r' d) : ∀ l ∈ d.lns, '\r' ∉ l := by
  obtain ⟨h1, _, _, h2, h3, h4, h5, h6, h7, h8, h9, _⟩ := h
  simp [Description.lns, Description.descrLine, Description.sheetLine, qLine, noCr_showInt, h1.1, h2.1, h3.1, h4.1,
    h5.1, h6.1, h7.1, h8.1, h9.1]

/-- A schematic read from lines without carriage returns is written without any. -/
theorem Schematic.lns_noCr (s : Schematic F) (hr : ReadSchematic s) (h : ReadSchematicBut '\r' s)
    (he : '\r' ∉ s.eelayer) : ∀ l ∈ s.lns, '\r' ∉ l := by
  obtain ⟨_, _, hes0, hsh0⟩ := hr
  obtain ⟨hl, hd, hes, hsh⟩ := h
  simp only [Schematic.lns, List.forall_mem_cons, List.forall_mem_append, List.forall_mem_map]
  refine ⟨by decide, fun l hm => ?_, he, by decide, s.description.lns_noCr hd, ?_, ?_, by decide, by simp⟩
  · have := hl l hm
    simp [this]
  · intro l hm
    obtain ⟨e, h1, h2⟩ := List.mem_flatMap.1 hm
    exact e.lns_noCr (hes0 e h1) (hes e h1) l h2
  · intro l hm
    obtain ⟨e, h1, h2⟩ := List.mem_flatMap.1 hm
    exact e.lns_noCr (hsh0 e h1) (hsh e h1) l h2

theorem endsLine_of_noCr {s : Str} (h : '\r' ∉ s) : EndsLine s := fun hc => h (List.mem_of_getLast? hc)

theorem ended_of_read (s : Schematic F) (h : ReadSchematicBut '\r' s) (he : '\r' ∉ s.eelayer) : Ended s := by
  obtain ⟨hl, _, hes, hsh⟩ := h
  refine ⟨fun l hm => endsLine_of_noCr (hl l hm), endsLine_of_noCr he, fun e hm => ?_,
    fun e hm => endsLine_of_noCr (hsh e hm).2.2.2.2.1.1⟩
  have := hes e hm
  cases e with
  | component c =>
    exact ⟨endsLine_of_noCr this.2.1.1, endsLine_of_noCr this.2.2.1,
      fun a ha => endsLine_of_noCr (this.2.2.2.2.2.2.1 a ha).1⟩
  | text t => exact endsLine_of_noCr this.2.2.2.2.2.1
  | other s => exact endsLine_of_noCr this.1
  | _ => exact trivial

end Verif.Sch
