import Verif.Model.Release
import Verif.Props.C06
import Verif.Props.C12
/-!
# C118: sums at the edge, and `unwrap`s

Where working with values can overflow: a panic in builds with overflow checks, a wrong number in
others.  The `unwrap`s in `fix` and `flatter` never panic.
-/

namespace Verif
open Flt Sch Spec

variable {F : Type} [Flt F]

/-! ## `unwrap`s -/

omit [Flt F] in
theorem Spec.getText_append_some (name which : Str) (t : Fp.FpText F) (h : t.name = which) (es : List (Fp.Elem F)) :
    ∃ x, Fp.Module.getText ⟨name, es ++ [.text t]⟩ which = some x := by
  have : (Fp.Module.getText ⟨name, es ++ [.text t]⟩ which).isSome := by
    simp [Fp.Module.getText, List.findSome?_append, h]
  exact Option.isSome_iff_exists.1 this

/-- Fixing a footprint never panics, and does what the other theorems about it say. -/
theorem C118_fix_never_panics (m : Fp.Module F) (cfg : Config F) : m.fixUnwrapping cfg = .ok (m.fix cfg) := by
  have hl : Fp.Layer.fromString (str! "F.Fab") = .ok ⟨.front, .fab⟩ := by decide
  simp only [Fp.Module.fixUnwrapping, Fp.Module.fix, Fp.fixTexts, Fp.fixReference2, Fp.addReference2, hl]
  generalize Fp.Module.modText (str! "value") (Fp.fixText cfg m.name .fab)
    (Fp.Module.modText (str! "reference") (Fp.fixText cfg (str! "REF**") .silkS) m.elements) = es
  by_cases h : (Fp.Module.getText ⟨m.name, es⟩ (str! "user")).isNone = true
  · simp only [h, if_true, Res.bind_ok]
    obtain ⟨x, hx⟩ := getText_append_some m.name (str! "user") (Fp.newReference2 cfg) rfl es
    have he : Fp.reference2On cfg ⟨.front, .fab⟩ = Fp.newReference2 cfg := rfl
    rw [he, hx]
    rfl
  · simp only [h]
    cases hg : Fp.Module.getText ⟨m.name, es⟩ (str! "user") with
    | none => rw [hg] at h; exact absurd rfl h
    | some x => simp [hg]

/-- Flattening findings never panics. -/
theorem C118_flatter_never_panics (d : CheckFixData) : d.flatterUnwrapping = .ok d.flatter := by
  cases d with
  | item i => rfl
  | more v =>
    match v with
    | [] => rfl
    | [x] => rfl
    | x :: y :: v => simp [CheckFixData.flatterUnwrapping, CheckFixData.flatter]

/-! ## Sums -/

theorem Spec.wrap_id {i : Int} (h : inI64 i) : wrapI64 i = i := by
  unfold inI64 at h
  unfold wrapI64
  omega

/-- A wrapped sum is a 64-bit number that differs by a multiple of 2⁶⁴; it is the sum itself exactly
if that is a 64-bit number. -/
theorem C118_wrap (i : Int) : inI64 (wrapI64 i) ∧ (∃ k, wrapI64 i = i + k * 2 ^ 64) ∧ (wrapI64 i = i ↔ inI64 i) := by
  have h1 : inI64 (wrapI64 i) := by unfold inI64 wrapI64; omega
  refine ⟨h1, ⟨-((i + 9223372036854775808) / 18446744073709551616), ?_⟩, fun h => h ▸ h1, wrap_id⟩
  unfold wrapI64
  have : (2 : Int) ^ 64 = 18446744073709551616 := by decide
  rw [this]
  omega

/-- The numbers of the fields are `i64`. -/
def Spec.FieldNums (c : Component F) : Prop := ∀ f ∈ c.fields, inI64 f.i

theorem Spec.num_panics (c : Component F) (hc : FieldNums c) :
    c.getAvailableFieldNum = .panic ↔ ∃ f ∈ c.fields, f.i = lastI64 := by
  constructor
  · intro h
    by_contra hn
    have : ∀ f ∈ c.fields, f.i < lastI64 := by
      intro f hf
      have h1 := (hc f hf).2
      have h2 : f.i ≠ lastI64 := fun e => hn ⟨f, hf, e⟩
      unfold lastI64 at *
      omega
    rw [Spec.fieldNum_ok c this] at h
    cases h
  · intro h
    have := C06_no_number_left c ⟨0, [], .horizontal, zero, zero, 0, false, .center, .center, false, false, []⟩ [] []
      (fun f hf => (hc f hf).2) h
    cases hg : c.getAvailableFieldNum with
    | panic => rfl
    | _ => rw [Component.addNewField, hg] at this; cases this

theorem Spec.num_range (c : Component F) (hc : FieldNums c) :
    0 ≤ maxFieldNum c.fields ∧ maxFieldNum c.fields ≤ 9223372036854775807 := by
  obtain ⟨a1, a2, a3⟩ := Spec.maxFieldNum_foldl c.fields 0
  unfold maxFieldNum
  refine ⟨a1, ?_⟩
  rcases a3 with a3 | ⟨f, hf, a3⟩
  · rw [a3]
    omega
  · have := (hc f hf).2
    rw [← a3]
    omega

theorem Spec.num_release_ok (c : Component F) (hc : FieldNums c) (i : Int) (hi : c.getAvailableFieldNum = .ok i) :
    c.getAvailableFieldNumRelease = i := by
  obtain ⟨h1, h2⟩ := num_range c hc
  unfold Component.getAvailableFieldNum at hi
  unfold Component.getAvailableFieldNumRelease
  generalize maxFieldNum c.fields = k at h1 h2 hi
  simp only at hi
  split_ifs at hi with h
  have hi : k + 1 = i := Res.ok.inj hi
  rw [hi]
  apply wrap_id
  unfold inI64
  omega

/-- When adding a field, setting a field and counting up the sheets panic, with overflow checks. -/
theorem C118_panics (c : Component F) (hc : FieldNums c) (template : Sch.Field F) (name value : Str) (s : Schematic F) :
    (c.addNewField template name value = .panic ↔ ∃ f ∈ c.fields, f.i = lastI64) ∧
    (c.addOrUpdateField template name value = .panic ↔
      (∀ f ∈ c.fields, f.name ≠ name) ∧ ∃ f ∈ c.fields, f.i = lastI64) ∧
    (s.incrementSheetCount = .panic ↔ s.description.sheetCount = lastI64) ∧
    ((s.bound = .panic) ↔ ∃ sh ∈ s.sheets, ¬ SheetFits sh) := by
  have h1 : c.addNewField template name value = .panic ↔ ∃ f ∈ c.fields, f.i = lastI64 := by
    rw [← num_panics c hc, Component.addNewField]
    cases c.getAvailableFieldNum <;> simp
  refine ⟨h1, ?_, ?_, (C12_bound_total s).2⟩
  · rw [← h1, Component.addOrUpdateField]
    cases h : c.getFieldValue name with
    | none =>
      have : ∀ f ∈ c.fields, f.name ≠ name := by
        simpa [Component.getFieldValue] using h
      rw [and_iff_right this]
      cases c.addNewField template name value <;> simp
    | some old =>
      have : ¬ ∀ f ∈ c.fields, f.name ≠ name := by
        intro hn
        have : c.getFieldValue name = none := by simpa [Component.getFieldValue] using hn
        rw [this] at h
        cases h
      simp only [this, false_and, iff_false]
      split_ifs <;> simp
  · unfold Schematic.incrementSheetCount lastI64
    split_ifs with h <;> simp [h]

theorem Spec.add_release_ok (c c' : Component F) (hc : FieldNums c) (template : Sch.Field F) (name value : Str)
    (h : c.addNewField template name value = .ok c') : c.addNewFieldRelease template name value = c' := by
  obtain ⟨i, hi, h⟩ := Res.bind_eq_ok.1 h
  unfold Component.addNewFieldRelease
  rw [num_release_ok c hc i hi]
  exact Res.ok.inj h

theorem Spec.update_release_ok (c c' : Component F) (hc : FieldNums c) (template : Sch.Field F) (name value : Str) (u : FieldUpdate)
    (h : c.addOrUpdateField template name value = .ok (c', u)) : c.addOrUpdateFieldRelease template name value = (c', u) := by
  unfold Component.addOrUpdateField at h
  unfold Component.addOrUpdateFieldRelease
  cases hv : c.getFieldValue name with
  | some old =>
    simp only [hv] at h ⊢
    split_ifs at h ⊢
    · exact Res.ok.inj h
    · exact Res.ok.inj h
  | none =>
    simp only [hv] at h ⊢
    obtain ⟨c2, h2, h⟩ := Res.bind_eq_ok.1 h
    rw [add_release_ok c c2 hc template name value h2]
    exact Res.ok.inj h

omit [Flt F] in
theorem Spec.count_release_ok (s s' : Schematic F) (hs : inI64 s.description.sheetCount) (h : s.incrementSheetCount = .ok s') :
    s.incrementSheetCountRelease = s' := by
  unfold Schematic.incrementSheetCount at h
  unfold Schematic.incrementSheetCountRelease
  split_ifs at h with hn
  have hw : wrapI64 (s.description.sheetCount + 1) = s.description.sheetCount + 1 := by
    apply wrap_id
    unfold inI64 at *
    omega
  rw [hw]
  exact Res.ok.inj h

theorem Spec.sheet_release_ok (a : Sheet) (h : SheetFits a) : (a.boundRelease : Bound F) = a.box := by
  obtain ⟨g1, g2, g3, g4⟩ := h
  unfold Sheet.boundRelease Sheet.box
  rw [wrap_id g1, wrap_id g2, wrap_id g3, wrap_id g4]

omit [Flt F] in
theorem Spec.foldl_same {α β : Type} (f g : β → α → β) (l : List α) (h : ∀ a ∈ l, ∀ b, f b a = g b a) (b : β) :
    l.foldl f b = l.foldl g b := by
  induction l generalizing b with
  | nil => rfl
  | cons a l ih =>
    rw [List.forall_mem_cons] at h
    rw [List.foldl_cons, List.foldl_cons, h.1 b, ih h.2]

theorem Spec.sheets_release_ok (l : List Sheet) (b : Bound F) (hl : ∀ sh ∈ l, SheetFits sh) :
    l.foldl (fun b sh => b.update sh.boundRelease) b = l.foldl (fun b a => b.update a.box) b :=
  foldl_same _ _ l (fun a ha b => congrArg b.update (sheet_release_ok a (hl a ha))) b

theorem Spec.bound_release_ok (s : Schematic F) (b : Bound F) (h : s.bound = .ok b) : s.boundRelease = b := by
  have hf := ((C12_bound_total s).1).1 ⟨b, h⟩
  rw [Schematic.bound_of_fits s hf] at h
  rw [← Res.ok.inj h, Schematic.boundRelease, sheets_release_ok _ _ hf]

/-- Without overflow checks the results are the same whenever there are no overflows. -/
theorem C118_release_same (c c' : Component F) (hc : FieldNums c) (template : Sch.Field F) (name value : Str) (u : FieldUpdate)
    (s s' : Schematic F) (hs : inI64 s.description.sheetCount) (b : Bound F) :
    (c.addNewField template name value = .ok c' → c.addNewFieldRelease template name value = c') ∧
    (c.addOrUpdateField template name value = .ok (c', u) → c.addOrUpdateFieldRelease template name value = (c', u)) ∧
    (s.incrementSheetCount = .ok s' → s.incrementSheetCountRelease = s') ∧
    (s.bound = .ok b → s.boundRelease = b) :=
  ⟨add_release_ok c c' hc template name value, update_release_ok c c' hc template name value u, count_release_ok s s' hs,
    bound_release_ok s b⟩

theorem Spec.show_nameless (f : Sch.Field F) (n : Str) (h : f.i ≤ 3) : ({ f with name := n } : Sch.Field F).show = f.show := by
  obtain ⟨i, _, _, _, _, _, _, _, _, _, _, _⟩ := f
  have : ¬ i > 3 := Int.not_lt.2 h
  unfold Sch.Field.show
  dsimp only
  rw [if_neg this, if_neg this]

/-- Without overflow checks and with the largest number in use, a new field gets the smallest number.
It is not saved with its name: its text is the same for every name. -/
theorem C118_release_field (c : Component F) (hc : FieldNums c) (h : ∃ f ∈ c.fields, f.i = lastI64) (template : Sch.Field F)
    (name value : Str) :
    ∃ f, (c.addNewFieldRelease template name value).fields = c.fields ++ [f] ∧ f.name = name ∧ f.value = value ∧
      f.i = -9223372036854775808 ∧ ∀ n, ({ f with name := n } : Sch.Field F).show = f.show := by
  have hm : maxFieldNum c.fields = 9223372036854775807 := by
    have := (num_panics c hc).2 h
    unfold Component.getAvailableFieldNum at this
    simp only at this
    split_ifs at this with h'
    exact h'
  have hi : c.getAvailableFieldNumRelease = -9223372036854775808 := by
    unfold Component.getAvailableFieldNumRelease wrapI64
    rw [hm]
    omega
  have h3 : (-9223372036854775808 : Int) ≤ 3 := by omega
  generalize (-9223372036854775808 : Int) = k at hi h3
  unfold Component.addNewFieldRelease
  rw [hi]
  exact ⟨{ Field.newFrom k name value template.x template.y with visible := false }, rfl, rfl, rfl, rfl,
    fun n => show_nameless _ n h3⟩

omit [Flt F] in
/-- Without overflow checks the largest sheet count becomes the smallest number. -/
theorem C118_release_count (s : Schematic F) (h : s.description.sheetCount = lastI64) :
    s.incrementSheetCountRelease.description.sheetCount = -9223372036854775808 := by
  simp only [Schematic.incrementSheetCountRelease, h]
  decide

/-- Without overflow checks, a sheet that reaches beyond the largest number gets a box whose right edge
lies left of the sheet. -/
theorem C118_release_box (sh : Sheet) (hx : inI64 sh.x) (hd : inI64 sh.dimx) (h : lastI64 < sh.x + sh.dimx) :
    ∃ y1 y2 x2, (sh.boundRelease : Bound F) = Bound.newFromI64 sh.x y1 x2 y2 ∧ inI64 x2 ∧ x2 < sh.x := by
  refine ⟨_, _, _, rfl, (C118_wrap _).1, ?_⟩
  unfold inI64 lastI64 wrapI64 at *
  omega

example : FieldNums (⟨[], [], [], 0, 0, [], [sampleField Nm lastI64 [] []], ⟨0, 0, 0, 0⟩⟩ : Component Nm) ∧
    ∃ f ∈ (⟨[], [], [], 0, 0, [], [sampleField Nm lastI64 [] []], ⟨0, 0, 0, 0⟩⟩ : Component Nm).fields, f.i = lastI64 :=
  ⟨by unfold FieldNums; decide, by decide⟩

example : FieldNums (sampleComponent Nm) ∧ ∃ c', (sampleComponent Nm).addNewField (sampleField Nm 0 [] []) (str! "X") [] = .ok c' :=
  ⟨by unfold FieldNums; decide, _, rfl⟩

example : ∃ (t : Str) (s : Schematic Nm) (sh : Sheet), parseStr t = .ok s ∧ sh ∈ s.sheets ∧ inI64 sh.x ∧ inI64 sh.dimx ∧
    lastI64 < sh.x + sh.dimx := by
  have h : (parseStr (str! "EESchema Schematic File Version 2\nEELAYER 25 0\nEELAYER END\n$Sheet\nS 9223372036854775807 2 3 4\nU 5\nF0 \"n\" 60\nF1 \"f\" 60\n$EndSheet\n$EndSCHEMATC\n")).map
      (fun s : Schematic Nm => s.sheets.map fun sh => (sh.x, sh.dimx)) = .ok [(9223372036854775807, 3)] := by decide +kernel
  generalize (str! "EESchema Schematic File Version 2\nEELAYER 25 0\nEELAYER END\n$Sheet\nS 9223372036854775807 2 3 4\nU 5\nF0 \"n\" 60\nF1 \"f\" 60\n$EndSheet\n$EndSCHEMATC\n" : Str) = t at h
  cases hs : (parseStr t : Res (Schematic Nm)) with
  | ok s =>
    rw [hs] at h
    have h : s.sheets.map (fun sh => (sh.x, sh.dimx)) = [(9223372036854775807, 3)] := Res.ok.inj h
    cases hl : s.sheets with
    | nil => rw [hl] at h; cases h
    | cons sh l =>
      rw [hl] at h
      simp only [List.map_cons, List.cons.injEq, Prod.mk.injEq] at h
      refine ⟨t, s, sh, hs, by rw [hl]; simp, ?_⟩
      rw [h.1.1, h.1.2]
      decide
  | _ => rw [hs] at h; cases h

end Verif
