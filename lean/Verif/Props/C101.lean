import Verif.Lemmas.Difference
import Verif.Spec.SchematicEdits
import Verif.Model.Layout.Codec
import Verif.Basic.Nm
import Verif.Spec.Layout
import Verif.Props.C08
import Verif.Props.C61
/-!
# C101: an edit changes only the lines that are about it
-/

set_option linter.unusedSectionVars false

namespace Verif
open Spec Flt

namespace Sch
variable {F : Type} [Flt F] [TextLaws F]

/-- The component that a call finds by its reference, and what stands around it. -/
theorem find_split (s : Schematic F) (r : Str) (c : Component F)
    (h : (s.components.find? fun c => c.reference = r) = some c) :
    ∃ a b, s.elements = a ++ .component c :: b ∧ c.reference = r ∧ ∀ e ∈ a, ¬ HasRef r e := by
  have : ∀ l : List (Element F), ((l.filterMap Element.component?).find? fun c => c.reference = r) = some c →
      ∃ a b, l = a ++ .component c :: b ∧ c.reference = r ∧ ∀ e ∈ a, ¬ HasRef r e := by
    intro l h
    induction l with
    | nil => simp at h
    | cons e l ih =>
      have skip : ¬ HasRef r e → ((l.filterMap Element.component?).find? fun c => c.reference = r) = some c →
          ∃ a b, e :: l = a ++ .component c :: b ∧ c.reference = r ∧ ∀ e ∈ a, ¬ HasRef r e := by
        intro he h
        obtain ⟨a, b, h1, h2, h3⟩ := ih h
        exact ⟨e :: a, b, by rw [h1]; rfl, h2, List.forall_mem_cons.2 ⟨he, h3⟩⟩
      cases e with
      | component d =>
        rw [List.filterMap_cons_some (f := Element.component?) (b := d) rfl] at h
        by_cases hd : d.reference = r
        · rw [List.find?_cons_of_pos (by simpa using hd)] at h
          cases h
          exact ⟨[], l, rfl, hd, by simp⟩
        · rw [List.find?_cons_of_neg (by simpa using hd)] at h
          exact skip hd h
      | _ => exact skip (by simp [HasRef]) (by simpa [Element.component?] using h)
  exact this s.elements h

/-- The text before the elements. -/
def Schematic.before (s : Schematic F) : Str :=
  str! "EESchema Schematic File Version 2\n" ++
  (s.libraries.map fun l => str! "LIBS:" ++ l ++ str! "\n").flatten ++
  s.eelayer ++ str! "\n" ++ str! "EELAYER END\n" ++ s.description.show

theorem Schematic.print_ok (s : Schematic F) (t : Str) (h : s.print = .ok t) :
    ∃ sh, printSheets s.sheets = .ok sh ∧
      t = s.before ++ (s.elements.map Element.show).flatten ++ sh ++ str! "$EndSCHEMATC\n" := by
  unfold Schematic.print at h
  obtain ⟨sh, h1, h2⟩ := Res.bind_eq_ok.1 h
  cases h2
  exact ⟨sh, h1, by simp only [Schematic.before, List.append_assoc]⟩

theorem Schematic.print_of (s : Schematic F) (sh : Str) (h : printSheets s.sheets = .ok sh) :
    s.print = .ok (s.before ++ (s.elements.map Element.show).flatten ++ sh ++ str! "$EndSCHEMATC\n") := by
  unfold Schematic.print
  rw [h]
  simp only [Schematic.before, List.append_assoc]
  rfl

theorem Schematic.before_ends (s : Schematic F) : ∃ a, s.before = a ++ str! "\n" := by
  refine ⟨s.before.dropLast, ?_⟩
  have : s.before = (str! "EESchema Schematic File Version 2\n" ++
      (s.libraries.map fun l => str! "LIBS:" ++ l ++ str! "\n").flatten ++
      s.eelayer ++ str! "\n" ++ str! "EELAYER END\n" ++ unlines (s.description.lns.dropLast) ++ str! "$EndDescr") ++ ['\n'] := by
    unfold Schematic.before
    rw [Description.show_eq]
    simp [Description.lns, unlines]
  rw [this, List.dropLast_concat]

theorem unlines_ends (ls : List Str) (h : ls ≠ []) : ∃ a, unlines ls = a ++ str! "\n" := by
  induction ls with
  | nil => exact absurd rfl h
  | cons l ls ih =>
    cases ls with
    | nil => exact ⟨l, rfl⟩
    | cons m ms =>
      obtain ⟨a, ha⟩ := ih (by simp)
      exact ⟨l ++ '\n' :: a, by rw [unlines, ha]; simp⟩

theorem Element.show_ends (e : Element F) : ∃ a, e.show = a ++ str! "\n" := by
  rw [e.show_eq]; exact unlines_ends _ e.lns_ne

theorem Schematic.front_ends (s : Schematic F) (a : List (Element F)) :
    ∃ b, s.before ++ (a.map Element.show).flatten = b ++ str! "\n" := by
  induction a using List.reverseRecOn with
  | nil => simpa using s.before_ends
  | append_singleton a e ih =>
    obtain ⟨b, hb⟩ := e.show_ends
    exact ⟨s.before ++ (a.map Element.show).flatten ++ b, by simp [hb]⟩

end Sch

open Sch

variable {F : Type} [Flt F] [TextLaws F]

/-- Editing a component by its reference replaces the lines of the first component with that
reference and no others. -/
theorem C101_component_block (s : Schematic F) (r : Str) (fn : Component F → Component F) (c : Component F)
    (hc : (s.components.find? fun c => c.reference = r) = some c) (t : Str) (h : s.print = .ok t) :
    ∃ t', (s.modifyComponent r fn).print = .ok t' ∧ BlockReplaced c.show (fn c).show t t' := by
  obtain ⟨a, b, h1, h2, h3⟩ := find_split s r c hc
  obtain ⟨sh, h4, rfl⟩ := s.print_ok t h
  obtain ⟨h5, -⟩ := C08_modify_component s r fn a b c h1 h2 h3
  refine ⟨_, Schematic.print_of _ sh h4, ?_⟩
  obtain ⟨p, hp⟩ := s.front_ends a
  refine ⟨p, (b.map Element.show).flatten ++ sh ++ str! "$EndSCHEMATC\n", ?_, ?_⟩
  · rw [h1, ← hp]
    simp [Element.show]
  · rw [h5, ← hp]
    show s.before ++ _ ++ _ ++ _ = _
    simp [Element.show]

theorem Diff.block {P Q : Str → Prop} {t t' : Str} {ls ls' : List Str}
    (h : BlockReplaced (unlines ls) (unlines ls') t t')
    (h' : List.Forall₂ (fun a a' => a = a' ∨ ('\n' ∉ a ∧ '\n' ∉ a' ∧ P a ∧ Q a')) ls ls') :
    DifferOnly P Q t t' := by
  obtain ⟨a, b, rfl, rfl⟩ := h
  simp only [List.append_assoc, List.cons_append, List.nil_append]
  exact Diff.prefix a (Diff.lines h' (Diff.refl _ _ b))

theorem Diff.fields {P Q : Str → Prop} (fs : List (Sch.Field F)) (g : Sch.Field F → Sch.Field F)
    (hf : ∀ f ∈ fs, FitsField f) (hg : ∀ f ∈ fs, FitsField (g f))
    (h : ∀ f ∈ fs, f.show = (g f).show ∨ (P f.show ∧ Q (g f).show)) :
    List.Forall₂ (fun a a' => a = a' ∨ ('\n' ∉ a ∧ '\n' ∉ a' ∧ P a ∧ Q a')) (fs.map Field.show)
      ((fs.map g).map Field.show) := by
  induction fs with
  | nil => exact .nil
  | cons f fs ih =>
    rw [List.forall_mem_cons] at hf hg h
    refine .cons ?_ (ih hf.2 hg.2 h.2)
    rcases h.1 with h | h
    · exact .inl h
    · exact .inr ⟨(f.oneLine ((fitsField_iff f).1 hf.1).1).1, ((g f).oneLine ((fitsField_iff _).1 hg.1).1).1, h⟩

theorem Diff.component {P Q : Str → Prop} (c : Component F) (name reference : Str) (g : Sch.Field F → Sch.Field F)
    (hc : FitsComponent c) (hn : '\n' ∉ name) (hr : '\n' ∉ reference)
    (hl : (name = c.name ∧ reference = c.reference) ∨ (P c.lLine ∧ ∀ x, Q (str! "L " ++ x)))
    (hg : ∀ f ∈ c.fields, FitsField (g f))
    (h : ∀ f ∈ c.fields, f.show = (g f).show ∨ (P f.show ∧ Q (g f).show)) :
    List.Forall₂ (fun a a' => a = a' ∨ ('\n' ∉ a ∧ '\n' ∉ a' ∧ P a ∧ Q a')) c.lns
      ({ c with name := name, reference := reference, fields := c.fields.map g } : Component F).lns := by
  have same : ∀ l : List Str, List.Forall₂ (fun a a' => a = a' ∨ ('\n' ∉ a ∧ '\n' ∉ a' ∧ P a ∧ Q a')) l l :=
    fun l => List.forall₂_same.2 fun _ _ => .inl rfl
  refine .cons (.inl rfl) (.cons ?_ (.cons (.inl rfl) (.cons (.inl rfl) (List.rel_append (same _)
    (List.rel_append (Diff.fields _ g hc.2.2.2.2.2.2.2.1 hg h) (same _))))))
  rcases hl with ⟨rfl, rfl⟩ | ⟨h1, h2⟩
  · exact .inl rfl
  · refine .inr ⟨?_, ?_, h1, ?_⟩
    · have := hc.1.noLf; have := hc.2.1.1.noLf; simp_all [Component.lLine]
    · simp [Component.lLine, hn, hr]
    · have := h2 (name ++ str! " " ++ reference)
      simpa [Component.lLine] using this

/-- A line of a component that gives its name and reference. -/
def Spec.AboutName (l : Str) : Prop := (str! "L ") <+: l

/-- A line that gives the field with this number. -/
def Spec.AboutField (i : Int) (l : Str) : Prop := (str! "F " ++ showInt i ++ str! " ") <+: l

theorem Sch.Field.aboutField (f : Sch.Field F) : AboutField f.i f.show := by
  refine ⟨f.show.drop (str! "F " ++ showInt f.i ++ str! " ").length, ?_⟩
  unfold Sch.Field.show
  simp only [List.append_assoc, List.cons_append, List.nil_append, List.length_cons, List.length_append]
  simp [List.drop_append]

/-- A call on the component with a reference, and what it changes in the lines of the component. -/
theorem Diff.edit {P Q : Str → Prop} (s : Schematic F) (r : Str) (fn : Component F → Component F)
    (hs : ∀ c, Element.component c ∈ s.elements → FitsComponent c)
    (hfn : ∀ c, FitsComponent c → Element.component c ∈ s.elements → c.reference = r →
      List.Forall₂ (fun a a' => a = a' ∨ ('\n' ∉ a ∧ '\n' ∉ a' ∧ P a ∧ Q a')) c.lns (fn c).lns)
    (t : Str) (h : s.print = .ok t) :
    ∃ t', (s.modifyComponent r fn).print = .ok t' ∧ DifferOnly P Q t t' := by
  cases hf : s.components.find? fun c => c.reference = r with
  | none =>
    refine ⟨t, ?_, Diff.refl _ _ t⟩
    rw [C08_modify_component_absent, h]
    intro e he hr
    cases e with
    | component c =>
      rw [List.find?_eq_none] at hf
      exact hf c (List.mem_filterMap.2 ⟨_, he, rfl⟩) (by simpa [HasRef] using hr)
    | _ => exact hr
  | some c =>
    obtain ⟨t', h1, h2⟩ := C101_component_block s r fn c hf t h
    refine ⟨t', h1, ?_⟩
    rw [c.show_eq, (fn c).show_eq] at h2
    obtain ⟨a, b, h3, h4, -⟩ := find_split s r c hf
    have hm : Element.component c ∈ s.elements := by rw [h3]; simp
    exact Diff.block h2 (hfn c (hs c hm) hm h4)

/-- Changing the reference of a component changes only the line with its name and reference and
the lines of field 0. -/
theorem C101_reference (s : Schematic F) (hs : ∀ c, Element.component c ∈ s.elements → FitsComponent c)
    (r r' : Str) (hr : LastWord r') (t : Str) (h : s.print = .ok t) :
    ∃ t', (s.modifyComponent r fun c => c.updateReference r').print = .ok t' ∧
      DifferOnly (fun l => AboutName l ∨ AboutField 0 l) (fun l => AboutName l ∨ AboutField 0 l) t t' := by
  refine Diff.edit s r _ hs (fun c hc _ _ => ?_) t h
  refine Diff.component c c.name r' _ hc hc.1.noLf hr.1.noLf (.inr ⟨.inl ?_, fun x => .inl ⟨x, rfl⟩⟩) ?_ ?_
  · exact ⟨c.name ++ str! " " ++ c.reference, by simp [Component.lLine]⟩
  · intro f hf
    have := hc.2.2.2.2.2.2.2.1 f hf
    by_cases hi : f.i = 0
    · rw [if_pos hi]; exact fits_value this r' hr.1.2.1
    · rw [if_neg hi]; exact this
  · intro f hf
    by_cases hi : f.i = 0
    · rw [if_pos hi]
      refine .inr ⟨.inr (hi ▸ f.aboutField), .inr ?_⟩
      have := ({ f with value := r' } : Sch.Field F).aboutField
      exact hi ▸ this
    · rw [if_neg hi]; exact .inl rfl

/-- Changing the name of a component changes only the line with its name and reference and the
lines of field 1. -/
theorem C101_name (s : Schematic F) (hs : ∀ c, Element.component c ∈ s.elements → FitsComponent c)
    (r n : Str) (hn : Word n) (t : Str) (h : s.print = .ok t) :
    ∃ t', (s.modifyComponent r fun c => c.updateName n).print = .ok t' ∧
      DifferOnly (fun l => AboutName l ∨ AboutField 1 l) (fun l => AboutName l ∨ AboutField 1 l) t t' := by
  refine Diff.edit s r _ hs (fun c hc _ _ => ?_) t h
  refine Diff.component c n c.reference _ hc hn.noLf hc.2.1.1.noLf (.inr ⟨.inl ?_, fun x => .inl ⟨x, rfl⟩⟩) ?_ ?_
  · exact ⟨c.name ++ str! " " ++ c.reference, by simp [Component.lLine]⟩
  · intro f hf
    have := hc.2.2.2.2.2.2.2.1 f hf
    by_cases hi : f.i = 1
    · rw [if_pos hi]; exact fits_value this n hn.2.1
    · rw [if_neg hi]; exact this
  · intro f hf
    by_cases hi : f.i = 1
    · rw [if_pos hi]
      refine .inr ⟨.inr (hi ▸ f.aboutField), .inr ?_⟩
      have := ({ f with value := n } : Sch.Field F).aboutField
      exact hi ▸ this
    · rw [if_neg hi]; exact .inl rfl

/-- A field that `update_field` may change: it has the name, or it is shown and its number is
above 1 (the call hides it). -/
def Spec.Affected (name : Str) (f : Sch.Field F) : Prop := f.name = name ∨ (1 < f.i ∧ f.visible = true)

/-- Setting a field of a component changes only lines of fields of that component: those with the
name, and those that the call hides. -/
theorem C101_field (s : Schematic F) (hs : ∀ c, Element.component c ∈ s.elements → FitsComponent c)
    (r name value : Str) (hv : Quotable value) (t : Str) (h : s.print = .ok t) :
    ∃ t', (s.modifyComponent r fun c => c.updateField name value).print = .ok t' ∧
      DifferOnly
        (fun l => ∃ c f, Element.component c ∈ s.elements ∧ c.reference = r ∧ f ∈ c.fields ∧
          Affected name f ∧ l = f.show)
        (fun l => ∃ c f, Element.component c ∈ s.elements ∧ c.reference = r ∧ f ∈ c.fields ∧
          Affected name f ∧ AboutField f.i l) t t' := by
  refine Diff.edit s r _ hs (fun c hc hm hr => ?_) t h
  refine Diff.component c c.name c.reference _ hc hc.1.noLf hc.2.1.1.noLf (.inl ⟨rfl, rfl⟩) ?_ ?_
  · exact fun f hf => fits_updated (hc.2.2.2.2.2.2.2.1 f hf) name value hv
  · intro f hf
    by_cases ha : Affected name f
    · refine .inr ⟨⟨c, f, hm, hr, hf, ha, rfl⟩, c, f, hm, hr, hf, ha, ?_⟩
      have h1 := (f.updated name value).aboutField
      have h2 : (f.updated name value).i = f.i := (Spec.setTo_updated name value f).1
      rwa [h2] at h1
    · refine .inl (congrArg Field.show ?_)
      unfold Affected at ha
      rw [not_or] at ha
      unfold Field.updated
      rw [if_neg ha.1]
      by_cases hi : f.i > 1
      · simp only [if_pos hi]
        have : f.visible = false := by simpa [hi] using ha.2
        rw [← this]
      · simp only [if_neg hi]

/-- Adding a field that the component does not have adds exactly one line, the line of the field. -/
theorem C101_new_field (s : Schematic F) (r : Str) (c : Component F) (template : Sch.Field F) (name value : Str)
    (hn : Quotable name) (hv : Quotable value)
    (hc : (s.components.find? fun c => c.reference = r) = some c) (hnew : ∀ f ∈ c.fields, f.name ≠ name)
    (i : Int) (hi : c.getAvailableFieldNum = .ok i) (hj : inI64 i) (t : Str) (h : s.print = .ok t) :
    ∃ c' t' l, c.addOrUpdateField template name value = .ok (c', .new) ∧
      (s.modifyComponent r fun _ => c').print = .ok t' ∧ LinesAdded [l] t t' ∧ AboutField i l := by
  have hg : c.getFieldValue name = none := by
    unfold Component.getFieldValue
    rw [List.find?_eq_none.2 (fun f hf => by simpa using hnew f hf)]; rfl
  obtain ⟨f, hf, hfl, hl⟩ : ∃ f : Sch.Field F, c.addOrUpdateField template name value =
      .ok ({ c with fields := c.fields ++ [f] }, .new) ∧ AboutField i f.show ∧ '\n' ∉ f.show := by
    let f : Sch.Field F := { Field.newFrom i name value template.x template.y with visible := false }
    refine ⟨f, ?_, ?_, ?_⟩
    · unfold Component.addOrUpdateField Component.addNewField
      rw [hg, hi]; rfl
    · exact f.aboutField
    · exact (f.oneLine ⟨hj, (by decide : inI64 60), hv, hn⟩).1
  obtain ⟨t', h1, a, b, h2, h3⟩ := C101_component_block s r (fun _ => { c with fields := c.fields ++ [f] }) c hc t h
  refine ⟨{ c with fields := c.fields ++ [f] }, t', f.show, hf, h1, ?_, hfl⟩
  · let pre := str! "$Comp" :: c.lLine :: c.u :: c.pLine :: (c.arPath ++ c.fields.map Field.show)
    let post := [c.oneLineOf, c.rotation.line, str! "$EndComp"]
    obtain ⟨p, hp⟩ := Sch.unlines_ends pre (by simp [pre])
    have e1 : c.show = p ++ str! "\n" ++ unlines post := by
      rw [c.show_eq, ← hp, ← unlines_append]
      simp only [Component.lns, Component.tailLines, pre, post, List.cons_append, List.append_assoc]
    have e2 : ({ c with fields := c.fields ++ [f] } : Component F).show =
        p ++ str! "\n" ++ (f.show ++ str! "\n") ++ unlines post := by
      have : unlines [f.show] = f.show ++ str! "\n" := rfl
      rw [Component.show_eq, ← hp, ← this, ← unlines_append, ← unlines_append]
      simp only [Component.lns, Component.tailLines, pre, post, Component.lLine, Component.pLine,
        Component.oneLineOf, List.cons_append, List.append_assoc, List.map_append, List.map_cons, List.map_nil,
        List.nil_append]
    refine ⟨a ++ str! "\n" ++ p, unlines post ++ b, ?_, ?_, by simpa using hl⟩
    · rw [h2, e1]; simp
    · rw [h3, e2]; simp

/-- Counting a sheet adds one to the count and leaves the rest of the schematic alone; only the
largest count there is cannot be counted up, and then the call panics. -/
theorem C101_counted (s : Schematic F) (hr : inI64 s.description.sheetCount) :
    (s.description.sheetCount = 2 ^ 63 - 1 → s.incrementSheetCount = .panic) ∧
    (s.description.sheetCount ≠ 2 ^ 63 - 1 → ∃ s', s.incrementSheetCount = .ok s' ∧
      inI64 s'.description.sheetCount ∧
      s'.description.sheetCount = s.description.sheetCount + 1 ∧
      s' = { s with description := { s.description with sheetCount := s'.description.sheetCount } }) := by
  unfold inI64 at hr
  refine ⟨fun h => ?_, fun h => ?_⟩
  · rw [Schematic.incrementSheetCount, if_pos (by omega)]
  · refine ⟨_, by rw [Schematic.incrementSheetCount, if_neg (by omega)], ?_, rfl, rfl⟩
    unfold inI64
    dsimp only
    omega

/-- Counting a sheet changes only the line of the sheet number and count. -/
theorem C101_sheet_count (s s' : Schematic F) (hi : s.incrementSheetCount = .ok s') (t : Str) (h : s.print = .ok t) :
    ∃ t', s'.print = .ok t' ∧ DifferOnly (fun l => (str! "Sheet ") <+: l) (fun l => (str! "Sheet ") <+: l) t t' := by
  unfold Schematic.incrementSheetCount at hi
  split at hi
  · cases hi
  cases hi
  obtain ⟨sh, h4, rfl⟩ := s.print_ok t h
  refine ⟨_, Schematic.print_of _ sh h4, ?_⟩
  have hi := fun (x : Int) => (word_showInt x).noLf
  have e : ∀ (n : Int) (y : Str),
      ({ s with description := { s.description with sheetCount := n } } : Schematic F).before ++ y =
      (str! "EESchema Schematic File Version 2\n" ++
        (s.libraries.map fun l => str! "LIBS:" ++ l ++ str! "\n").flatten ++
        s.eelayer ++ str! "\n" ++ str! "EELAYER END\n" ++ s.description.descrLine ++ str! "\nencoding utf-8") ++ '\n' ::
      ((str! "Sheet " ++ showInt s.description.sheet ++ str! " " ++ showInt n) ++ '\n' ::
        (unlines (s.description.lns.drop 3) ++ y)) := by
    intro n y
    simp only [Schematic.before, Description.show_eq, Description.lns, Description.descrLine,
      Description.sheetLine, List.drop_succ_cons, List.drop_zero, unlines, List.append_assoc, List.cons_append,
      List.nil_append]
  have e0 := e s.description.sheetCount
  have e1 := e (s.description.sheetCount + 1)
  simp only [List.append_assoc (Schematic.before _)]
  rw [e1, e0]
  refine Diff.prefix _ (Diff.line ?_ ?_ (.inr ⟨⟨_, rfl⟩, ⟨_, rfl⟩⟩) (Diff.refl _ _ _))
  · simp [hi]
  · simp [hi]

/-- Appending an element puts its text in one place. -/
theorem C101_append (s : Schematic F) (e : Element F) (t : Str) (h : s.print = .ok t) :
    ∃ t', ({ s with elements := s.elements ++ [e] } : Schematic F).print = .ok t' ∧ BlockReplaced [] e.show t t' := by
  obtain ⟨sh, h4, rfl⟩ := s.print_ok t h
  refine ⟨_, Schematic.print_of _ sh h4, ?_⟩
  obtain ⟨p, hp⟩ := s.front_ends s.elements
  refine ⟨p, sh ++ str! "$EndSCHEMATC\n", ?_, ?_⟩
  · rw [← hp]; simp
  · rw [← hp]
    show s.before ++ _ ++ _ ++ _ = _
    simp

/-! ## Footprints and boards -/

variable {F : Type} [Flt F] [TextLaws F]

/-- The line has the name, in the form in which names are written. -/
def Spec.HasName (q : Str → Bool) (name : Str) (line : Str) : Prop := Fm.atomText q name <:+: line

/-- The line has a position, a corner, a size or an end point: `(at …`, `(xy …`, `(start …` etc. -/
def Spec.HasPlace (q : Str → Bool) (line : Str) : Prop :=
  ∃ w ∈ [str! "at", str! "xy", str! "start", str! "end", str! "size", str! "center", str! "rect_delta"],
    (str! "(" ++ Fm.atomText q w) <:+: line

namespace Diff

/-- No list of the trees is altered as a whole. -/
def none_ : Str → Prop := fun _ => False

/-- The first words of the lists that tell a place. -/
def places : Str → Prop := fun w =>
  w ∈ [str! "at", str! "xy", str! "start", str! "end", str! "size", str! "center", str! "rect_delta"]

def noAtom : Str → Str → Prop := fun _ _ => False

theorem pad_net (R : Str → Str → Prop) (p : Fp.Pad F) (f : Str → Str) (hf : ∀ n, f n = n ∨ R n (f n)) :
    Retouch R none_ p.ser
      ({ p with net := p.net.map fun n => { n with name := f n.name } } : Fp.Pad F).ser := by
  refine .node' (.append (.append (.append (.append (.append (.append (.refl _) ?_) (.refl _)) (.refl _)) (.refl _)) (.refl _)) (.refl _))
  cases p.net with
  | none => exact .refl _
  | some n =>
    refine .one (.node' (.cons (.same _) (.one ?_)))
    rcases hf n.name with h | h
    · show Retouch _ _ _ (Sexp.str (f n.name)); rw [h]; exact .same _
    · exact .atom h

theorem atom_or {R : Str → Str → Prop} {H : Str → Prop} {n m : Str} (h : m = n ∨ R n m) :
    Retouch R H (.str n) (.str m) := by
  rcases h with rfl | h
  · exact .same _
  · exact .atom h

theorem names (R : Str → Str → Prop) (u : Lay.Update) (hu : ∀ n, (u n).1 = n ∨ R n (u n).1) (w : Str) (l : List Str) :
    RetouchL R none_ (l.map fun s => Sx.pair w (.str s)) ((Lay.updateNames u l).1.map fun s => Sx.pair w (.str s)) := by
  induction l with
  | nil => exact .nil
  | cons n l ih =>
    have h := hu n
    unfold Lay.updateNames
    cases hn : u n with
    | mk n' e =>
      rw [hn] at h
      cases e with
      | some e => exact .cons (.pair (atom_or h)) (.refl _)
      | none => exact .cons (.pair (atom_or h)) ih

theorem pads (R : Str → Str → Prop) (u : Lay.Update) (hu : ∀ n, (u n).1 = n ∨ R n (u n).1) (l : List (Fp.Elem F)) :
    RetouchL R none_ (l.map Fp.Elem.ser) ((Lay.updatePads u l).1.map Fp.Elem.ser) := by
  induction l with
  | nil => exact .nil
  | cons e l ih =>
    by_cases he : ∃ p, e = .pad p
    · obtain ⟨p, rfl⟩ := he
      have hp := pad_net R p (fun n => (u n).1) hu
      unfold Lay.updatePads
      cases hn : p.net with
      | none => exact .cons (.same _) ih
      | some n =>
        rw [hn] at hp
        simp only
        cases hm : u n.name with
        | mk n' e =>
          simp only [Option.map_some, hm] at hp
          cases e with
          | some e => exact .cons hp (.refl _)
          | none => exact .cons hp ih
    · have : Lay.updatePads u (e :: l) = (e :: (Lay.updatePads u l).1, (Lay.updatePads u l).2) := by
        cases e <;> first | rfl | exact absurd ⟨_, rfl⟩ he
      rw [this]
      exact .cons (.same _) ih

theorem elem_names (R : Str → Str → Prop) (u : Lay.Update) (hu : ∀ n, (u n).1 = n ∨ R n (u n).1) (e : Lay.Elem F) :
    Retouch R none_ e.ser (e.updateNames u).1.ser := by
  cases e with
  | net n => exact .node' (.cons (.same _) (.one (atom_or (hu n.name))))
  | netClass n => exact .node' (.append (.refl _) (names R u hu _ n.nets))
  | module_ m => exact .node' (.cons (.same _) (pads R u hu m.elements))
  | zone z =>
    refine .node' ?_
    refine .append (.append (.append (.append (.append (.append (.append (.append ?_ (.refl _)) (.refl _)) (.refl _)) (.refl _))
      (.refl _)) (.refl _)) (.refl _)) (.refl _)
    exact .cons (.same _) (.cons (.pair (atom_or (hu z.netName))) (.refl _))
  | _ => exact .same _

theorem elems_names (R : Str → Str → Prop) (u : Lay.Update) (hu : ∀ n, (u n).1 = n ∨ R n (u n).1) (l : List (Lay.Elem F)) :
    RetouchL R none_ (l.map Lay.Elem.ser) ((Lay.updateElems u l).1.map Lay.Elem.ser) := by
  induction l with
  | nil => exact .nil
  | cons e l ih =>
    have h := elem_names R u hu e
    unfold Lay.updateElems
    cases hn : e.updateNames u with
    | mk e' err =>
      rw [hn] at h
      cases err with
      | some _ => exact .cons h (.refl _)
      | none => exact .cons h ih

end Diff

/-- Updating the names of nets (`Layout::update_net_names`), even if the update fails on the way,
changes only lines that have a name that is changed. -/
theorem C101_update_net_names (q : Str → Bool) (level : Int) (l : Lay.Layout F) (u : Lay.Update)
    (hu : ∀ n, (u n).1 ≠ n → '\n' ∉ n ∧ '\n' ∉ (u n).1) :
    DifferOnly (fun line => ∃ n, (u n).1 ≠ n ∧ HasName q n line) (fun line => ∃ n, (u n).1 ≠ n ∧ HasName q (u n).1 line)
      (Lay.toText q level l) (Lay.toText q level (l.updateNetNames u).1) := by
  let R : Str → Str → Prop := fun a b => b = (u a).1 ∧ b ≠ a
  have h : Diff.Retouch R Diff.none_ l.ser (l.updateNetNames u).1.ser :=
    .node' (.append (.refl _) (Diff.elems_names R u (fun n => by
      by_cases hn : (u n).1 = n
      · exact .inl hn
      · exact .inr ⟨rfl, hn⟩) l.elements))
  refine Diff.mono ?_ ?_ (Diff.toText_differ (q := q) ?_ (fun _ h => h.elim) h level (str! "\n"))
  · rintro x (⟨a, b, ⟨rfl, h2⟩, h3⟩ | ⟨w, hw, -⟩)
    · exact ⟨a, h2, h3⟩
    · exact hw.elim
  · rintro x (⟨a, b, ⟨rfl, h2⟩, h3⟩ | ⟨w, hw, -⟩)
    · exact ⟨a, h2, h3⟩
    · exact hw.elim
  · rintro a b ⟨rfl, h⟩
    exact hu a h

/-- Renaming a net of a board changes only lines with the old name, and these have the new name
afterwards. -/
theorem C101_change_net_name (q : Str → Bool) (level : Int) (l l' : Lay.Layout F) (old new : Str)
    (ho : '\n' ∉ old) (hn : '\n' ∉ new) (h : l.changeNetName old new = .ok l') :
    DifferOnly (HasName q old) (HasName q new) (Lay.toText q level l) (Lay.toText q level l') := by
  have key := C101_update_net_names q level l (fun n => (Lay.rename n old new, none)) (by
    intro n hne
    by_cases h : n = old
    · subst h; simpa [Lay.rename] using ⟨ho, hn⟩
    · simp [Lay.rename, h] at hne)
  unfold Lay.Layout.changeNetName at h
  cases hr : l.updateNetNames fun n => (Lay.rename n old new, none) with
  | mk a e =>
    rw [hr] at h key
    cases e with
    | some _ => cases h
    | none =>
      cases h
      refine Diff.mono ?_ ?_ key
      all_goals
        rintro x ⟨n, h1, h2⟩
        by_cases h : n = old
        · subst h; simpa [Lay.rename] using h2
        · simp [Lay.rename, h] at h1

theorem Diff.module_ {R : Str → Str → Prop} {H : Str → Prop} (m : Fp.Module F) (f : Fp.Elem F → Fp.Elem F)
    (h : ∀ e, Retouch R H e.ser (f e).ser) :
    Retouch R H m.ser ({ m with elements := m.elements.map f } : Fp.Module F).ser := by
  refine .node' (.cons (.same _) ?_)
  show RetouchL R H _ ((m.elements.map f).map Fp.Elem.ser)
  rw [List.map_map]
  exact .map _ _ _ fun e _ => h e

theorem Diff.fp_text {R : Str → Str → Prop} {H : Str → Prop} (hR : ∀ a b, R a b → '\n' ∉ a ∧ '\n' ∉ b)
    (hH : ∀ h, H h → '\n' ∉ h) {m m' : Fp.Module F} (h : Retouch R H m.ser m'.ser) (q : Str → Bool) (level : Int) :
    DifferOnly
      (fun l => (∃ a b, R a b ∧ Fm.atomText q a <:+: l) ∨ ∃ w, H w ∧ (str! "(" ++ Fm.atomText q w) <:+: l)
      (fun l => (∃ a b, R a b ∧ Fm.atomText q b <:+: l) ∨ ∃ w, H w ∧ (str! "(" ++ Fm.atomText q w) <:+: l)
      (Fp.toText q level m) (Fp.toText q level m') := by
  have := Diff.toText_differ (q := q) hR hH h level []
  simp only [List.append_nil] at this
  exact this

theorem Diff.renamed (m : Fp.Module F) (old new : Str) :
    Retouch (fun a b => a = old ∧ b = new) none_ m.ser (m.renameNet old new).ser := by
  refine Diff.module_ m _ fun e => ?_
  cases e with
  | pad p =>
    have := Diff.pad_net (fun a b => a = old ∧ b = new) p (fun n => if n = old then new else n) (fun n => by
      by_cases h : n = old
      · simp [h]
      · simp [h])
    have e : (p.renameNet old new) = { p with net := p.net.map fun n => { n with name := if n.name = old then new else n.name } } := by
      unfold Fp.Pad.renameNet
      congr 1
      cases p.net with
      | none => rfl
      | some n => by_cases h : n.name = old <;> simp [h]
    show Diff.Retouch _ _ _ (p.renameNet old new).ser
    rw [e]; exact this
  | _ => exact .same _

theorem Diff.referenced (m : Fp.Module F) (old new : Str) :
    Retouch (fun a b => a = old ∧ b = new) none_ m.ser (m.setReference old new).ser := by
  refine Diff.module_ m _ fun e => ?_
  cases e with
  | text t =>
    show Diff.Retouch _ _ _ (Fp.Elem.ser (if _ then _ else _))
    by_cases ht : t.name = str! "reference" ∧ t.value = old
    · rw [if_pos ht]
      exact .node' (.append (.append (.cons (.same _) (.cons (.atom ⟨ht.2, rfl⟩) (.refl _))) (.refl _)) (.refl _))
    · rw [if_neg ht]; exact .same _
  | _ => exact .same _

theorem Diff.named {q : Str → Bool} {old new a b : Str} (h : DifferOnly
      (fun l => (∃ a b, (a = old ∧ b = new) ∧ Fm.atomText q a <:+: l) ∨ ∃ w, none_ w ∧ (str! "(" ++ Fm.atomText q w) <:+: l)
      (fun l => (∃ a b, (a = old ∧ b = new) ∧ Fm.atomText q b <:+: l) ∨ ∃ w, none_ w ∧ (str! "(" ++ Fm.atomText q w) <:+: l)
      a b) : DifferOnly (HasName q old) (HasName q new) a b := by
  refine Diff.mono ?_ ?_ h <;>
  · rintro x (⟨a, b, ⟨rfl, rfl⟩, h3⟩ | ⟨w, hw, -⟩)
    · exact h3
    · exact hw.elim

/-- Renaming a net of a footprint. -/
theorem C101_rename_net (q : Str → Bool) (level : Int) (m : Fp.Module F) (old new : Str) (ho : '\n' ∉ old) (hn : '\n' ∉ new) :
    DifferOnly (HasName q old) (HasName q new) (Fp.toText q level m) (Fp.toText q level (m.renameNet old new)) :=
  Diff.named (Diff.fp_text (fun a b (h : a = old ∧ b = new) => ⟨h.1 ▸ ho, h.2 ▸ hn⟩) (fun _ h => h.elim) (Diff.renamed m old new) q level)

/-- Setting the reference of a footprint. -/
theorem C101_set_reference (q : Str → Bool) (level : Int) (m : Fp.Module F) (old new : Str) (ho : '\n' ∉ old) (hn : '\n' ∉ new) :
    DifferOnly (HasName q old) (HasName q new) (Fp.toText q level m) (Fp.toText q level (m.setReference old new)) :=
  Diff.named (Diff.fp_text (fun a b (h : a = old ∧ b = new) => ⟨h.1 ▸ ho, h.2 ▸ hn⟩) (fun _ h => h.elim) (Diff.referenced m old new) q level)

theorem Diff.at_ (a b : Fp.At F) : Retouch noAtom places a.ser b.ser := by
  have e : ∀ a : Fp.At F, a.ser = .list (.str (str! "at") ::
      ([toStr a.x, toStr a.y] ++ if !feq a.rot zero then [toStr a.rot] else []).map Sexp.str) := by
    intro a
    unfold Fp.At.ser
    by_cases h : (!feq a.rot zero) = true
    · rw [if_pos h, if_pos h]; rfl
    · rw [if_neg h, if_neg h]; rfl
  have hn : ∀ a : Fp.At F, ∀ x ∈ [toStr a.x, toStr a.y] ++ (if !feq a.rot zero then [toStr a.rot] else []), '\n' ∉ x := by
    intro a x hx
    rw [List.mem_append] at hx
    rcases hx with hx | hx
    · simp only [List.mem_cons, List.not_mem_nil, or_false] at hx
      rcases hx with rfl | rfl <;> exact (word_toStr _).noLf
    · by_cases h : (!feq a.rot zero) = true
      · rw [if_pos h, List.mem_singleton] at hx; subst hx; exact (word_toStr _).noLf
      · rw [if_neg h] at hx; cases hx
  rw [e, e]
  exact .leaf _ _ (by simp [places]) (hn a) (hn b)

theorem Diff.xy (a : Fp.Xy F) (x y : F) : Retouch noAtom places a.ser (Lay.adjXy x y a).ser := by
  refine .leaf (h := a.t.show) [toStr a.x, toStr a.y] [toStr (add a.x x), toStr (add a.y y)] ?_ ?_ ?_
  · cases a.t <;> simp [places, Fp.XyType.show]
  · intro s hs
    simp only [List.mem_cons, List.not_mem_nil, or_false] at hs
    rcases hs with rfl | rfl <;> exact (word_toStr _).noLf
  · intro s hs
    simp only [List.mem_cons, List.not_mem_nil, or_false] at hs
    rcases hs with rfl | rfl <;> exact (word_toStr _).noLf

theorem Diff.places_noLf (h : Str) (hh : places h) : '\n' ∉ h := by
  have : ∀ w ∈ [str! "at", str! "xy", str! "start", str! "end", str! "size", str! "center", str! "rect_delta"], '\n' ∉ w := by
    decide
  exact this h hh

theorem Diff.placed {q : Str → Bool} {a b : Str} (h : DifferOnly
      (fun l => (∃ a b, noAtom a b ∧ Fm.atomText q a <:+: l) ∨ ∃ w, places w ∧ (str! "(" ++ Fm.atomText q w) <:+: l)
      (fun l => (∃ a b, noAtom a b ∧ Fm.atomText q b <:+: l) ∨ ∃ w, places w ∧ (str! "(" ++ Fm.atomText q w) <:+: l) a b) :
    DifferOnly (HasPlace q) (HasPlace q) a b := by
  refine Diff.mono ?_ ?_ h <;>
  · rintro x (⟨_, _, h, -⟩ | ⟨w, h1, h2⟩)
    · exact h.elim
    · exact ⟨w, h1, h2⟩

theorem Diff.moved (m : Fp.Module F) (x y : F) : Retouch noAtom places m.ser (m.adjust x y).ser := by
  refine Diff.module_ m _ fun e => ?_
  cases e with
  | at_ a => exact Diff.at_ _ _
  | _ => exact .same _

/-- Moving a footprint changes only lines with a position. -/
theorem C101_move (q : Str → Bool) (level : Int) (m : Fp.Module F) (x y : F) :
    DifferOnly (HasPlace q) (HasPlace q) (Fp.toText q level m) (Fp.toText q level (m.adjust x y)) :=
  Diff.placed (Diff.fp_text (fun _ _ h => h.elim) Diff.places_noLf (Diff.moved m x y) q level)

theorem Diff.turned (m : Fp.Module F) (r : F) : Retouch noAtom places m.ser (m.rotate r).ser := by
  refine Diff.module_ m _ fun e => ?_
  cases e with
  | at_ a => exact Diff.at_ _ _
  | text t => exact .node' (.append (.append (.cons (.same _) (.cons (.same _) (.cons (Diff.at_ _ _) (.refl _)))) (.refl _)) (.refl _))
  | pad p =>
    exact .node' (.append (.append (.append (.append (.append (.append (.append (.append (.append
      (.cons (.same _) (.cons (.same _) (.cons (.same _) (.cons (Diff.at_ _ _) (.refl _))))) (.refl _)) (.refl _)) (.refl _)) (.refl _))
      (.refl _)) (.refl _)) (.refl _)) (.refl _)) (.refl _))
  | _ => exact .same _

/-- Turning a footprint changes only lines with a position. -/
theorem C101_rotate (q : Str → Bool) (level : Int) (m : Fp.Module F) (r : F) :
    DifferOnly (HasPlace q) (HasPlace q) (Fp.toText q level m) (Fp.toText q level (m.rotate r)) :=
  Diff.placed (Diff.fp_text (fun _ _ h => h.elim) Diff.places_noLf (Diff.turned m r) q level)

theorem Diff.modified {R : Str → Str → Prop} {H : Str → Prop} (r : Str) (f : Fp.Module F → Fp.Module F)
    (hf : ∀ m, Retouch R H m.ser (f m).ser) (es es' : List (Lay.Elem F)) (h : Lay.modifyModuleIn r f es = some es') :
    RetouchL R H (es.map Lay.Elem.ser) (es'.map Lay.Elem.ser) := by
  induction es generalizing es' with
  | nil => cases h
  | cons e es ih =>
    have rest : (Lay.modifyModuleIn r f es).map (e :: ·) = some es' →
        RetouchL R H ((e :: es).map Lay.Elem.ser) (es'.map Lay.Elem.ser) := by
      intro h
      cases hr : Lay.modifyModuleIn r f es with
      | none => rw [hr] at h; cases h
      | some t => rw [hr] at h; cases h; exact .cons (.same _) (ih t hr)
    unfold Lay.modifyModuleIn at h
    cases e with
    | module_ m =>
      simp only at h
      by_cases hm : m.isReferenceWithName r = true
      · rw [if_pos hm] at h; cases h; exact .cons (hf m) (.refl _)
      · rw [if_neg hm] at h; exact rest h
    | _ => exact rest h

theorem Diff.board {R : Str → Str → Prop} {H : Str → Prop} (hR : ∀ a b, R a b → '\n' ∉ a ∧ '\n' ∉ b)
    (hH : ∀ h, H h → '\n' ∉ h) (l l' : Lay.Layout F) (r : Str) (f : Fp.Module F → Fp.Module F)
    (hf : ∀ m, Retouch R H m.ser (f m).ser) (h : l.modifyModule r f = .ok l') (q : Str → Bool) (level : Int) :
    DifferOnly
      (fun l => (∃ a b, R a b ∧ Fm.atomText q a <:+: l) ∨ ∃ w, H w ∧ (str! "(" ++ Fm.atomText q w) <:+: l)
      (fun l => (∃ a b, R a b ∧ Fm.atomText q b <:+: l) ∨ ∃ w, H w ∧ (str! "(" ++ Fm.atomText q w) <:+: l)
      (Lay.toText q level l) (Lay.toText q level l') := by
  unfold Lay.Layout.modifyModule at h
  cases he : Lay.modifyModuleIn r f l.elements with
  | none => rw [he] at h; cases h
  | some es =>
    rw [he] at h
    cases h
    exact Diff.toText_differ (q := q) hR hH (.node' (.append (.refl _) (Diff.modified r f hf _ _ he))) level (str! "\n")

/-- Moving, turning, or giving another reference to one footprint of a board. -/
theorem C101_board_footprint (q : Str → Bool) (level : Int) (l l' : Lay.Layout F) (r : Str) :
    (∀ x y, l.modifyModule r (·.adjust x y) = .ok l' →
      DifferOnly (HasPlace q) (HasPlace q) (Lay.toText q level l) (Lay.toText q level l')) ∧
    (∀ a, l.modifyModule r (·.rotate a) = .ok l' →
      DifferOnly (HasPlace q) (HasPlace q) (Lay.toText q level l) (Lay.toText q level l')) ∧
    (∀ new, '\n' ∉ r → '\n' ∉ new → l.modifyModule r (·.setReference r new) = .ok l' →
      DifferOnly (HasName q r) (HasName q new) (Lay.toText q level l) (Lay.toText q level l')) :=
  ⟨fun x y h => Diff.placed (Diff.board (fun _ _ h => h.elim) Diff.places_noLf l l' r _ (fun m => Diff.moved m x y) h q level),
   fun a h => Diff.placed (Diff.board (fun _ _ h => h.elim) Diff.places_noLf l l' r _ (fun m => Diff.turned m a) h q level),
   fun new h1 h2 h => Diff.named (Diff.board (fun a b (h : a = r ∧ b = new) => ⟨h.1 ▸ h1, h.2 ▸ h2⟩) (fun _ h => h.elim) l l' r _
     (fun m => Diff.referenced m r new) h q level)⟩

theorem Diff.pts (l : List (Fp.Xy F)) (x y : F) : Retouch noAtom places (Fp.Pts.ser l) (Fp.Pts.ser (Lay.adjPts x y l)) := by
  refine .node' ?_
  unfold Lay.adjPts
  rw [List.map_map]
  exact .map _ _ _ fun p _ => Diff.xy p x y

theorem Diff.grText (t : Lay.GrText F) (x y : F) : Retouch noAtom places t.ser (t.adjust x y).ser :=
  .node' (.append (.cons (.same _) (.cons (Diff.at_ _ _) (.refl _))) (.refl _))

theorem Diff.elem_moved (e : Lay.Elem F) (x y : F) : Retouch noAtom places e.ser (e.adjust x y).ser := by
  cases e with
  | module_ m => exact Diff.moved m x y
  | grText t => exact Diff.grText t x y
  | grLine e => exact .node' (.append (.cons (Diff.xy _ x y) (.cons (Diff.xy _ x y) (.refl _))) (.refl _))
  | grArc e => exact .node' (.append (.cons (Diff.xy _ x y) (.cons (Diff.xy _ x y) (.refl _))) (.refl _))
  | grCircle e => exact .node' (.append (.cons (Diff.xy _ x y) (.cons (Diff.xy _ x y) (.refl _))) (.refl _))
  | segment e => exact .node' (.append (.append (.cons (Diff.xy _ x y) (.cons (Diff.xy _ x y) (.refl _))) (.refl _)) (.refl _))
  | via e => exact .node' (.append (.append (.append (.refl _) (.cons (Diff.at_ _ _) (.refl _))) (.refl _)) (.refl _))
  | dimension d =>
    exact .node' (.append (.refl _) (.cons (Diff.grText _ x y) (.cons (.pair (Diff.pts _ x y)) (.cons (.pair (Diff.pts _ x y))
      (.cons (.pair (Diff.pts _ x y)) (.cons (.pair (Diff.pts _ x y)) (.cons (.pair (Diff.pts _ x y))
      (.cons (.pair (Diff.pts _ x y)) (.cons (.pair (Diff.pts _ x y)) .nil)))))))))
  | zone z =>
    have hl : ∀ (w : Str) (l : List (List (Fp.Xy F))), RetouchL noAtom places (l.map fun p => Sx.pair w (Fp.Pts.ser p))
        ((l.map (Lay.adjPts x y)).map fun p => Sx.pair w (Fp.Pts.ser p)) := by
      intro w l
      rw [List.map_map]
      exact .map _ _ _ fun p _ => .pair (Diff.pts p x y)
    refine .node' (.append (.append (.append (.append (.refl _) (hl _ _)) (hl _ _)) ?_) (.refl _))
    show RetouchL _ _ (Fp.optPair _ _ z.fillSegments) (Fp.optPair _ _ (z.fillSegments.map (Lay.adjPts x y)))
    cases z.fillSegments with
    | none => exact .nil
    | some l => exact .one (.pair (Diff.pts l x y))
  | net n => exact .same _
  | netClass n => exact .same _
  | other s => exact .same _

/-- Moving a board changes only lines with a position. -/
theorem C101_move_board (q : Str → Bool) (level : Int) (l : Lay.Layout F) (x y : F) :
    DifferOnly (HasPlace q) (HasPlace q) (Lay.toText q level l) (Lay.toText q level (l.adjust x y)) := by
  refine Diff.placed (Diff.toText_differ (q := q) (fun _ _ h => h.elim) Diff.places_noLf (.node' (.append (.refl _) ?_)) level (str! "\n"))
  show Diff.RetouchL _ _ _ ((l.elements.map (Lay.Elem.adjust x y)).map Lay.Elem.ser)
  rw [List.map_map]
  exact .map _ _ _ fun e _ => Diff.elem_moved e x y

theorem Diff.setupElement (e : Lay.SetupElement) : e.ser =
    .list (.str e.name :: (e.value1 :: e.value2.toList).map Sexp.str) := by
  unfold Lay.SetupElement.ser
  cases e.value2 <;> rfl

theorem Diff.setup (name value : Str) (es es' : List Lay.SetupElement) (h : Lay.updateElementIn name value es = some es')
    (hv : '\n' ∉ value) (he : ∀ e ∈ es, '\n' ∉ e.value1 ∧ ∀ v ∈ e.value2, '\n' ∉ v) :
    RetouchL noAtom (· = name) (es.map Lay.SetupElement.ser) (es'.map Lay.SetupElement.ser) := by
  induction es generalizing es' with
  | nil => cases h
  | cons e es ih =>
    unfold Lay.updateElementIn at h
    by_cases hn : e.name = name
    · rw [if_pos hn] at h
      cases h
      refine .cons ?_ (.refl _)
      rw [setupElement, setupElement]
      obtain ⟨h1, h2⟩ := he e List.mem_cons_self
      refine .leaf _ _ hn ?_ ?_
      · refine List.forall_mem_cons.2 ⟨h1, fun v hv => h2 v (by simpa using hv)⟩
      · refine List.forall_mem_cons.2 ⟨hv, fun v hv => h2 v (by simpa using hv)⟩
    · rw [if_neg hn] at h
      cases hr : Lay.updateElementIn name value es with
      | none => rw [hr] at h; cases h
      | some r =>
        rw [hr] at h
        cases h
        exact .cons (.same _) (ih r hr fun e h => he e (List.mem_cons_of_mem _ h))

theorem Diff.setup_found (name value : Str) (es : List Lay.SetupElement) (h : ∃ e ∈ es, e.name = name) :
    ∃ es', Lay.updateElementIn name value es = some es' := by
  induction es with
  | nil => obtain ⟨e, h, -⟩ := h; cases h
  | cons e es ih =>
    unfold Lay.updateElementIn
    by_cases hn : e.name = name
    · rw [if_pos hn]; exact ⟨_, rfl⟩
    · rw [if_neg hn]
      obtain ⟨x, hx, hxn⟩ := h
      rcases List.mem_cons.1 hx with rfl | hx
      · exact absurd hxn hn
      · obtain ⟨r, hr⟩ := ih ⟨x, hx, hxn⟩
        rw [hr]; exact ⟨_, rfl⟩

/-- Setting a value of the setup of a board that has the entry changes only lines with this entry:
lines with `(name`. -/
theorem C101_setup (q : Str → Bool) (level : Int) (l : Lay.Layout F) (name value : Str)
    (hn : '\n' ∉ name) (hv : '\n' ∉ value)
    (he : ∀ e ∈ l.setup.elements, '\n' ∉ e.value1 ∧ ∀ v ∈ e.value2, '\n' ∉ v)
    (hx : ∃ e ∈ l.setup.elements, e.name = name) :
    DifferOnly (fun line => (str! "(" ++ Fm.atomText q name) <:+: line) (fun line => (str! "(" ++ Fm.atomText q name) <:+: line)
      (Lay.toText q level l) (Lay.toText q level { l with setup := l.setup.updateElement name value }) := by
  obtain ⟨es', h⟩ := Diff.setup_found name value _ hx
  have hr := Diff.setup name value _ _ h hv he
  have hs : Diff.Retouch Diff.noAtom (· = name) l.ser
      ({ l with setup := l.setup.updateElement name value } : Lay.Layout F).ser := by
    refine .node' (.append (.cons (.same _) (.cons (.same _) (.cons (.same _) (.cons (.same _) (.cons (.same _) (.one ?_)))))) (.refl _))
    show Diff.Retouch _ _ l.setup.ser (l.setup.updateElement name value).ser
    unfold Lay.Setup.updateElement
    rw [h]
    exact .node' (.append hr (.refl _))
  refine Diff.mono ?_ ?_ (Diff.toText_differ (q := q) (fun _ _ h => h.elim) (H := (· = name)) (fun w (hw : w = name) => hw ▸ hn) hs level (str! "\n")) <;>
  · rintro x (⟨_, _, h, -⟩ | ⟨w, rfl, h2⟩)
    · exact h.elim
    · exact h2

/-- The comparison is not always passed: a line that is not about the change must stay. -/
example : ¬ DifferOnly (HasName Fm.stdQuote (str! "a")) (HasName Fm.stdQuote (str! "b"))
    (str! "(net 1 a)\n(net 2 c)") (str! "(net 1 b)\n(net 2 d)") := by
  intro h
  have e1 : fileLines (str! "(net 1 a)\n(net 2 c)") = [str! "(net 1 a)", str! "(net 2 c)"] := by decide
  have e2 : fileLines (str! "(net 1 b)\n(net 2 d)") = [str! "(net 1 b)", str! "(net 2 d)"] := by decide
  unfold DifferOnly at h
  rw [e1, e2] at h
  cases h with
  | cons _ h =>
    cases h with
    | cons h _ =>
      rcases h with h | ⟨h, -⟩
      · exact absurd h (by decide)
      · unfold HasName at h
        rw [show Fm.atomText Fm.stdQuote (str! "a") = str! "a" by decide] at h
        exact absurd h (by decide)

/-- The net of the sample board is renamed, and lines do change. -/
example : ∃ l', (sampleBoard : Lay.Layout Nm).changeNetName (str! "/a/gnd") (str! "GND") = .ok l' ∧
    Lay.toText Fm.stdQuote 0 l' ≠ Lay.toText Fm.stdQuote 0 (sampleBoard : Lay.Layout Nm) := by
  refine ⟨_, rfl, ?_⟩
  decide +kernel

example : ∃ l', (sampleBoard : Lay.Layout Nm).modifyModule (str! "R1") (·.setReference (str! "R1") (str! "R7")) = .ok l' ∧
    Lay.toText Fm.stdQuote 0 l' ≠ Lay.toText Fm.stdQuote 0 (sampleBoard : Lay.Layout Nm) := by
  refine ⟨_, rfl, ?_⟩
  decide +kernel

example : Lay.toText Fm.stdQuote 0 ((sampleBoard : Lay.Layout Nm).adjust (lit 1 0) (lit 2 0)) ≠
    Lay.toText Fm.stdQuote 0 (sampleBoard : Lay.Layout Nm) := by
  decide +kernel

/-- A schematic and changes that meet the hypotheses. -/
example : let s : Schematic Nm := { (Schematic.dflt : Schematic Nm) with elements := [.component (sampleComponent Nm)] }
    (∀ c, Element.component c ∈ s.elements → FitsComponent c) ∧ LastWord (str! "R2") ∧ (∃ t, s.print = .ok t) ∧
    (s.modifyComponent (str! "R1") fun c => c.updateReference (str! "R2")).print ≠ s.print := by
  refine ⟨fun c hc => ?_, by decide, ⟨_, rfl⟩, by decide +kernel⟩
  simp only [List.mem_singleton, Element.component.injEq] at hc
  subst hc
  exact (by decide)

end Verif
