import Verif.Spec.SchematicEdits
import Verif.Props.C01
import Verif.Props.C05
/-!
# C61: editing a schematic, then saving and reading it
-/

set_option linter.unusedSectionVars false

namespace Verif
open Sch Spec Flt

variable {F : Type} [Flt F]

theorem Sch.fits_map {c : Component F} (h : FitsComponent c) (g : Sch.Field F → Sch.Field F)
    (hg : ∀ f, FitsField f → FitsField (g f)) :
    FitsComponent ({ c with fields := c.fields.map g } : Component F) := by
  obtain ⟨h1, h2, h3, h4, h5, h6, h7, h8, h9⟩ := h
  refine ⟨h1, h2, h3, h4, h5, h6, h7, fun f hf => ?_, h9⟩
  obtain ⟨f', hf', rfl⟩ := List.mem_map.1 hf
  exact hg f' (h8 f' hf')

theorem Sch.fits_snoc {c : Component F} (h : FitsComponent c) (f : Sch.Field F) (hf : FitsField f) :
    FitsComponent ({ c with fields := c.fields ++ [f] } : Component F) := by
  obtain ⟨h1, h2, h3, h4, h5, h6, h7, h8, h9⟩ := h
  refine ⟨h1, h2, h3, h4, h5, h6, h7, fun g hg => ?_, h9⟩
  rcases List.mem_append.1 hg with hg | hg
  · exact h8 g hg
  · rw [List.mem_singleton.1 hg]; exact hf

theorem Sch.fits_value {f : Sch.Field F} (h : FitsField f) (v : Str) (hv : Quotable v) :
    FitsField ({ f with value := v } : Sch.Field F) := ⟨h.1, h.2.1, h.2.2.1, hv, h.2.2.2.2.1, h.2.2.2.2.2⟩

theorem Sch.fits_updated {f : Sch.Field F} (h : FitsField f) (n v : Str) (hv : Quotable v) :
    FitsField (f.updated n v) := by
  obtain ⟨s1, s2, s3, s4, s5, s6, s7, s8, s9, s10, s11, s12, s13, s14⟩ := Spec.setTo_updated n v f
  obtain ⟨h1, h2, h3, h4, h5, h6⟩ := h
  refine ⟨by rw [s1]; exact h1, by rw [s1]; exact h2, by rw [s6]; exact h3, ?_, by rw [s2]; exact h5,
    by rw [s1, s2]; exact h6⟩
  by_cases hn : f.name = n
  · rw [s11 hn]; exact hv
  · rw [s12 hn]; exact h4

theorem Sch.extensible_map {c : Component F} (h : Extensible c) (g : Sch.Field F → Sch.Field F)
    (hg : ∀ f, (g f).i = f.i) (c' : Component F) (hc : c'.fields = c.fields.map g) : Extensible c' := by
  obtain ⟨f, hf, h3⟩ := h
  exact ⟨g f, by rw [hc]; exact List.mem_map.2 ⟨f, hf, rfl⟩, by rw [hg]; exact h3⟩

/-- The largest field number. -/
theorem Sch.available {c : Component F} {i : Int} (h : c.getAvailableFieldNum = .ok i) :
    i = maxFieldNum c.fields + 1 ∧ maxFieldNum c.fields ≠ 9223372036854775807 := by
  unfold Component.getAvailableFieldNum at h
  by_cases h' : maxFieldNum c.fields = 9223372036854775807
  · simp [h'] at h
  · simp only [h', if_false, Res.ok.injEq] at h
    exact ⟨h.symm, h'⟩

theorem Sch.compEdit_fits (e : CompEdit F) (he : e.Fits) (c c' : Component F) (h : FitsComponent c)
    (hx : Extensible c) (hr : e.run c = .ok c') : FitsComponent c' ∧ Extensible c' := by
  cases e with
  | updateReference r =>
    cases hr
    have hq : ∀ f : Sch.Field F, FitsField f → FitsField (if f.i = 0 then { f with value := r } else f) := by
      intro f hf; split
      · exact Sch.fits_value hf r he.1.2.1
      · exact hf
    obtain ⟨h1, h2, h3, h4, h5, h6, h7, h8, h9⟩ := Sch.fits_map h _ hq
    exact ⟨⟨h1, he, h3, h4, h5, h6, h7, h8, h9⟩, Sch.extensible_map hx _ (by intro f; split <;> rfl) _ rfl⟩
  | updateName r =>
    cases hr
    have hq : ∀ f : Sch.Field F, FitsField f → FitsField (if f.i = 1 then { f with value := r } else f) := by
      intro f hf; split
      · exact Sch.fits_value hf r he.2.1
      · exact hf
    obtain ⟨h1, h2, h3, h4, h5, h6, h7, h8, h9⟩ := Sch.fits_map h _ hq
    exact ⟨⟨he, h2, h3, h4, h5, h6, h7, h8, h9⟩, Sch.extensible_map hx _ (by intro f; split <;> rfl) _ rfl⟩
  | updateField n v =>
    cases hr
    exact ⟨Sch.fits_map h _ fun f hf => Sch.fits_updated hf n v he,
      Sch.extensible_map hx _ (fun f => (Spec.setTo_updated n v f).1) _ rfl⟩
  | addOrUpdateField t n v =>
    simp only [CompEdit.run, Component.addOrUpdateField] at hr
    split at hr
    · split at hr
      · cases hr; exact ⟨h, hx⟩
      · cases hr
        exact ⟨Sch.fits_map h _ fun f hf => Sch.fits_updated hf n v he.2,
          Sch.extensible_map hx _ (fun f => (Spec.setTo_updated n v f).1) _ rfl⟩
    · obtain ⟨⟨c2, u⟩, h2, h3⟩ := Res.bind_eq_ok.1 hr
      obtain ⟨c3, h4, h5⟩ := Res.bind_eq_ok.1 h2
      cases h5; cases h3
      unfold Component.addNewField at h4
      obtain ⟨i, h6, h7⟩ := Res.bind_eq_ok.1 h4
      cases h7
      obtain ⟨hi, hmax⟩ := Sch.available h6
      obtain ⟨h0, hle, hor⟩ := Spec.maxFieldNum_foldl c.fields 0
      obtain ⟨f, hf, h3⟩ := hx
      have h3' : 3 ≤ maxFieldNum c.fields := Int.le_trans h3 (hle f hf)
      have hb : maxFieldNum c.fields ≤ 9223372036854775807 := by
        rcases hor with hor | ⟨g, hg, hor⟩
        · unfold maxFieldNum; rw [hor]; decide
        · have := (h.2.2.2.2.2.2.2.1 g hg).2.1
          unfold inI64 at this
          unfold maxFieldNum; omega
      refine ⟨Sch.fits_snoc h _ ?_, ⟨f, List.mem_append_left _ hf, h3⟩⟩
      refine ⟨?_, ?_, (by decide : inI64 60), he.2, he.1, ?_⟩
      · simp only [Field.newFrom]; omega
      · simp only [Field.newFrom, inI64]; omega
      · refine ⟨?_, ?_, ?_, ?_⟩ <;> (simp only [Field.newFrom]; intro h; omega)

theorem Sch.runComp_fits (es : List (CompEdit F)) (he : ∀ e ∈ es, e.Fits) (c c' : Component F)
    (h : FitsComponent c) (hx : Extensible c) (hr : runComp es c = .ok c') :
    FitsComponent c' ∧ Extensible c' := by
  induction es generalizing c with
  | nil => cases hr; exact ⟨h, hx⟩
  | cons e es ih =>
    rw [List.forall_mem_cons] at he
    obtain ⟨c2, h2, h3⟩ := Res.bind_eq_ok.1 hr
    obtain ⟨h4, h5⟩ := Sch.compEdit_fits e he.1 c c2 h hx h2
    exact ih he.2 c2 h4 h5 h3

/-- Elements after `modify_component` are old ones or results of the callback. -/
theorem Sch.modifyFirst_mem (r : Str) (fn : Component F → Component F) (es : List (Element F)) :
    ∀ e ∈ modifyFirst r fn es, e ∈ es ∨ ∃ c, .component c ∈ es ∧ c.reference = r ∧ e = .component (fn c) := by
  induction es with
  | nil => simp [modifyFirst]
  | cons x xs ih =>
    have skip : ∀ e ∈ x :: modifyFirst r fn xs, e ∈ x :: xs ∨
        ∃ c, .component c ∈ x :: xs ∧ c.reference = r ∧ e = .component (fn c) := by
      intro e he
      rcases List.mem_cons.1 he with rfl | he
      · exact .inl List.mem_cons_self
      · rcases ih e he with h | ⟨c, h, h'⟩
        · exact .inl (List.mem_cons_of_mem _ h)
        · exact .inr ⟨c, List.mem_cons_of_mem _ h, h'⟩
    cases x with
    | component c =>
      simp only [modifyFirst]
      by_cases hc : c.reference = r
      · simp only [hc, if_true]
        intro e he
        rcases List.mem_cons.1 he with rfl | he
        · exact .inr ⟨c, List.mem_cons_self, hc, rfl⟩
        · exact .inl (List.mem_cons_of_mem _ he)
      · simp only [hc, if_false]; exact skip
    | _ => exact skip

theorem Sch.modifyFirst_id (r : Str) (es : List (Element F)) : modifyFirst r id es = es := by
  induction es with
  | nil => rfl
  | cons x xs ih =>
    cases x with
    | component c => by_cases hc : c.reference = r <;> simp [modifyFirst, hc, ih]
    | _ => simp [modifyFirst, ih]

theorem Sch.find_component {s : Schematic F} {r : Str} {c : Component F}
    (h : s.components.find? (fun c => c.reference = r) = some c) : .component c ∈ s.elements := by
  have := List.mem_of_find?_eq_some h
  simp only [Schematic.components, List.mem_filterMap] at this
  obtain ⟨e, he, h⟩ := this
  cases e <;> simp [Element.component?] at h
  subst h; exact he

theorem Sch.schEdit_fits (e : SchEdit F) (he : e.Fits) (s s' : Schematic F) (h : FitsSchematic s)
    (hx : AllExtensible s) (hr : e.run s = .ok s') : FitsSchematic s' ∧ AllExtensible s' := by
  obtain ⟨h1, h2, h3, h4, h5, h6⟩ := h
  cases e with
  | editComponent r es =>
    simp only [SchEdit.run] at hr
    split at hr
    · cases hr
      simp only [Schematic.modifyComponent, Sch.modifyFirst_id]
      exact ⟨⟨h1, h2, h3, h4, h5, h6⟩, hx⟩
    · rename_i c hc
      obtain ⟨c', h7, h8⟩ := Res.bind_eq_ok.1 hr
      cases h8
      have hm := Sch.find_component hc
      obtain ⟨h9, h10⟩ := Sch.runComp_fits es he c c' (h5 _ hm) (hx c hm) h7
      refine ⟨⟨h1, h2, h3, h4, fun e he => ?_, h6⟩, fun d hd => ?_⟩
      · rcases Sch.modifyFirst_mem _ _ _ e he with he | ⟨d, _, _, rfl⟩
        · exact h5 e he
        · exact h9
      · rcases Sch.modifyFirst_mem _ _ _ _ hd with hd | ⟨d', _, _, hd⟩
        · exact hx d hd
        · cases hd; exact h10
  | incrementSheetCount =>
    simp only [SchEdit.run, Schematic.incrementSheetCount] at hr
    split at hr
    · simp at hr
    · cases hr
      refine ⟨⟨h1, h2, h3, ?_, h5, h6⟩, hx⟩
      obtain ⟨d1, d2, d3, d4, d5, d6, d7, d8, d9, d10, d11, d12, d13⟩ := h4
      refine ⟨d1, d2, d3, d4, d5, d6, d7, d8, d9, d10, d11, d12, ?_⟩
      unfold inI64 at *
      simp only; omega
  | append e =>
    cases hr
    refine ⟨⟨h1, h2, h3, h4, fun x hx => ?_, h6⟩, fun c hc => ?_⟩
    · rcases List.mem_append.1 hx with hx | hx
      · exact h5 x hx
      · rw [List.mem_singleton.1 hx]; exact he.1
    · rcases List.mem_append.1 hc with hc | hc
      · exact hx c hc
      · exact he.2 c (List.mem_singleton.1 hc).symm
  | appendSheet x =>
    cases hr
    refine ⟨⟨h1, h2, h3, h4, h5, fun y hy => ?_⟩, hx⟩
    rcases List.mem_append.1 hy with hy | hy
    · exact h6 y hy
    · rw [List.mem_singleton.1 hy]; exact he

/-- A schematic that fits the file format and whose components have the standard
fields still does so after any editing session (designators, names, fields changed
or added, sheets counted, elements and sheets appended) whose arguments fit. -/
theorem C61_edits_keep_fitting (edits : List (SchEdit F)) (he : ∀ e ∈ edits, e.Fits)
    (s s' : Schematic F) (h : FitsSchematic s) (hx : AllExtensible s) (hr : runSch edits s = .ok s') :
    FitsSchematic s' ∧ AllExtensible s' := by
  induction edits generalizing s with
  | nil => cases hr; exact ⟨h, hx⟩
  | cons e es ih =>
    rw [List.forall_mem_cons] at he
    obtain ⟨s2, h2, h3⟩ := Res.bind_eq_ok.1 hr
    obtain ⟨h4, h5⟩ := Sch.schEdit_fits e he.1 s s2 h hx h2
    exact ih he.2 s2 h4 h5 h3

/-! ### No number overflows -/

theorem Sch.compEdit_returns (e : CompEdit F) (c : Component F) (n : Nat)
    (h : ∀ f ∈ c.fields, f.i + ((n + 1 : Nat) : Int) < 9223372036854775807) (hn : (n : Int) + 1 < 9223372036854775807) :
    ∃ c', e.run c = .ok c' ∧ ∀ f ∈ c'.fields, f.i + (n : Int) < 9223372036854775807 := by
  have keep : ∀ g : Sch.Field F → Sch.Field F, (∀ f, (g f).i = f.i) →
      ∀ f ∈ c.fields.map g, f.i + (n : Int) < 9223372036854775807 := by
    intro g hg f hf
    obtain ⟨f', hf', rfl⟩ := List.mem_map.1 hf
    have := h f' hf'
    rw [hg]; omega
  have same : ∀ f ∈ c.fields, f.i + (n : Int) < 9223372036854775807 := by
    intro f hf; have := h f hf; omega
  cases e with
  | updateReference r => exact ⟨_, rfl, keep _ (by intro f; split <;> rfl)⟩
  | updateName r => exact ⟨_, rfl, keep _ (by intro f; split <;> rfl)⟩
  | updateField a v => exact ⟨_, rfl, keep _ (fun f => (Spec.setTo_updated a v f).1)⟩
  | addOrUpdateField t a v =>
    simp only [CompEdit.run, Component.addOrUpdateField]
    split
    · split
      · exact ⟨_, rfl, same⟩
      · exact ⟨_, rfl, keep _ (fun f => (Spec.setTo_updated a v f).1)⟩
    · have hi : ∀ f ∈ c.fields, f.i < lastI64 := by
        intro f hf; have := h f hf; unfold lastI64; omega
      simp only [Component.addNewField, Spec.fieldNum_ok c hi, Res.bind_ok]
      refine ⟨_, rfl, fun f hf => ?_⟩
      rcases List.mem_append.1 hf with hf | hf
      · exact same f hf
      · rw [List.mem_singleton.1 hf]
        simp only [Field.newFrom]
        rcases (Spec.maxFieldNum_foldl c.fields 0).2.2 with h0 | ⟨g, hg, h0⟩
        · unfold maxFieldNum; rw [h0]; omega
        · have := h g hg; unfold maxFieldNum; omega

theorem Sch.runComp_returns (es : List (CompEdit F)) (c : Component F) (n : Nat)
    (h : ∀ f ∈ c.fields, f.i + ((n + es.length : Nat) : Int) < 9223372036854775807)
    (hn : ((n + es.length : Nat) : Int) < 9223372036854775807) :
    ∃ c', runComp es c = .ok c' ∧ ∀ f ∈ c'.fields, f.i + (n : Int) < 9223372036854775807 := by
  induction es generalizing c with
  | nil => exact ⟨c, rfl, by simpa using h⟩
  | cons e es ih =>
    simp only [List.length_cons] at h hn
    obtain ⟨c2, h2, h3⟩ := Sch.compEdit_returns e c (n + es.length) (by intro f hf; have := h f hf; omega) (by omega)
    obtain ⟨c3, h4, h5⟩ := ih c2 h3 (by omega)
    exact ⟨c3, by rw [runComp, h2]; exact h4, h5⟩

theorem Sch.schEdit_returns (e : SchEdit F) (s : Schematic F) (n : Nat) (hr : Room (n + e.cost) s)
    (he : e.Room n) (hn : ((n + e.cost : Nat) : Int) < 9223372036854775807) :
    ∃ s', e.run s = .ok s' ∧ Room n s' := by
  obtain ⟨h1, h2⟩ := hr
  have low : s.description.sheetCount + (n : Int) ≤ 9223372036854775807 := by omega
  have low2 : ∀ c, Element.component c ∈ s.elements → ∀ f ∈ c.fields, f.i + (n : Int) < 9223372036854775807 := by
    intro c hc f hf; have := h2 c hc f hf; omega
  cases e with
  | editComponent r es =>
    simp only [SchEdit.run]
    split
    · refine ⟨_, rfl, low, ?_⟩
      simp only [Schematic.modifyComponent, Sch.modifyFirst_id]
      exact low2
    · rename_i c hc
      obtain ⟨c', h3, h4⟩ := Sch.runComp_returns es c n (h2 c (Sch.find_component hc)) hn
      refine ⟨s.modifyComponent r fun _ => c', by rw [h3]; rfl, low, fun d hd => ?_⟩
      rcases Sch.modifyFirst_mem _ _ _ _ hd with hd | ⟨d', _, _, hd⟩
      · exact low2 d hd
      · cases hd; exact h4
  | incrementSheetCount =>
    simp only [SchEdit.cost] at h1
    simp only [SchEdit.run, Schematic.incrementSheetCount]
    rw [if_neg (by omega)]
    exact ⟨_, rfl, by simp only; omega, low2⟩
  | append e =>
    refine ⟨_, rfl, low, fun c hc => ?_⟩
    rcases List.mem_append.1 hc with hc | hc
    · exact low2 c hc
    · have := List.mem_singleton.1 hc
      subst this
      exact he
  | appendSheet x => exact ⟨_, rfl, low, low2⟩

/-- A session returns unless a field number or the sheet count could reach the
largest number. -/
theorem C61_edits_return (edits : List (SchEdit F)) (s : Schematic F) (hr : Room (sessionCost edits) s)
    (he : ∀ e ∈ edits, e.Room (sessionCost edits))
    (hn : (sessionCost edits : Int) < 9223372036854775807) : ∃ s', runSch edits s = .ok s' := by
  suffices H : ∀ (es : List (SchEdit F)) (s : Schematic F) (m : Nat), sessionCost es ≤ m →
      Room (sessionCost es) s → (∀ e ∈ es, e.Room m) → (sessionCost es : Int) < 9223372036854775807 →
      ∃ s', runSch es s = .ok s' from H edits s _ (Nat.le_refl _) hr he hn
  intro es
  induction es with
  | nil => intro s _ _ _ _ _; exact ⟨s, rfl⟩
  | cons e es ih =>
    intro s m hm hr he hn
    rw [List.forall_mem_cons] at he
    have hc : sessionCost (e :: es) = sessionCost es + e.cost := by
      simp [sessionCost, Nat.add_comm]
    rw [hc] at hr hn hm
    have her : e.Room (sessionCost es) := by
      have h := he.1
      cases e with
      | append x =>
        cases x with
        | component c => intro f hf; have := h f hf; omega
        | _ => trivial
      | _ => trivial
    obtain ⟨s2, h2, h3⟩ := Sch.schEdit_returns e s (sessionCost es) hr her hn
    obtain ⟨s3, h4⟩ := ih s2 m (by omega) h3 he.2 (by omega)
    exact ⟨s3, by rw [runSch, h2]; exact h4⟩

variable [TextLaws F]

/-- Saving after the session and reading the text gives exactly the edited
schematic (except for the file name, which is not in the file). -/
theorem C61_edit_save_read (edits : List (SchEdit F)) (he : ∀ e ∈ edits, e.Fits)
    (s s' : Schematic F) (h : FitsSchematic s) (hx : AllExtensible s) (hr : runSch edits s = .ok s') :
    parseStr s'.show = .ok { s' with filename := none } :=
  C01_roundtrip s' (C61_edits_keep_fitting edits he s s' h hx hr).1

/-- The components found in the file are the edited ones, and looking up a field in
them gives what it gives in memory. -/
theorem C61_components_kept (edits : List (SchEdit F)) (he : ∀ e ∈ edits, e.Fits)
    (s s' : Schematic F) (h : FitsSchematic s) (hx : AllExtensible s) (hr : runSch edits s = .ok s') :
    ∃ t : Schematic F, parseStr s'.show = .ok t ∧ t.components = s'.components := by
  exact ⟨_, C61_edit_save_read edits he s s' h hx hr, rfl⟩

/-- A component with the standard fields. -/
def Spec.fullComponent : Component Nm := { sampleComponent Nm with reference := str! "R7" }

/-- A session: rename, renumber, change and add fields, add a component. -/
def Spec.sampleSchSession : List (SchEdit Nm) :=
  [.editComponent (str! "R1") [.updateReference (str! "R2"), .updateName (str! "R_Small"),
     .updateField (str! "MPN") (str! "a b"),
     .addOrUpdateField (sampleField Nm 0 [] []) (str! "Supplier no") (str! "1 2"),
     .addOrUpdateField (sampleField Nm 0 [] []) (str! "Supplier no") (str! "3")],
   .incrementSheetCount, .append (.component fullComponent), .append (.wire ⟨.wire, 0, 0, 5, 5⟩)]

/-- A schematic with one component. -/
def Spec.oneComponent : Schematic Nm :=
  { sampleSchematic Nm with elements := [.component (sampleComponent Nm), .connection ⟨5, 6⟩] }

theorem Spec.sampleSchSession_fits : ∀ e ∈ sampleSchSession, e.Fits := by
  simp only [sampleSchSession, List.forall_mem_cons, SchEdit.Fits, CompEdit.Fits]
  refine ⟨⟨by decide, by decide, by decide, by decide, by decide, by simp⟩, trivial, ⟨by decide +kernel, ?_⟩,
    ⟨by decide, by simp⟩, by simp⟩
  intro c hc; cases hc; decide +kernel

example : FitsSchematic oneComponent ∧ AllExtensible oneComponent ∧ Room (sessionCost sampleSchSession) oneComponent ∧
    ∃ s', runSch sampleSchSession oneComponent = .ok s' ∧
      parseStr s'.show = .ok { s' with filename := none } ∧ s'.components.length = 2 ∧
      s'.description.sheetCount = 3 := by
  have h1 : FitsSchematic oneComponent := by decide +kernel
  have h2 : AllExtensible oneComponent := by
    intro c hc
    simp only [oneComponent, List.mem_cons, Element.component.injEq, reduceCtorEq, List.not_mem_nil, or_false] at hc
    subst hc; decide +kernel
  have h3 : Room (sessionCost sampleSchSession) oneComponent := by
    refine ⟨by decide, fun c hc => ?_⟩
    simp only [oneComponent, List.mem_cons, Element.component.injEq, reduceCtorEq, List.not_mem_nil, or_false] at hc
    subst hc; decide +kernel
  refine ⟨h1, h2, h3, ?_⟩
  obtain ⟨s', h⟩ := C61_edits_return sampleSchSession oneComponent h3 (by
    simp only [sampleSchSession, List.forall_mem_cons, SchEdit.Room]
    exact ⟨trivial, trivial, by decide +kernel, trivial, by simp⟩) (by decide)
  refine ⟨s', h, C61_edit_save_read _ sampleSchSession_fits _ _ h1 h2 h, ?_, ?_⟩
  · have : (runSch sampleSchSession oneComponent).bind (fun s => .ok s.components.length) = .ok 2 := by decide +kernel
    rw [h] at this; exact Res.ok.inj this
  · have : (runSch sampleSchSession oneComponent).bind (fun s => .ok s.description.sheetCount) = .ok 3 := by decide +kernel
    rw [h] at this; exact Res.ok.inj this

end Verif
