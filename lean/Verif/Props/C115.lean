import Verif.Props.C14
import Verif.Props.C56
/-!
# C115: values can smuggle in other parts of a file

The writers of schematics and symbol libraries put values between double quotes as they are.  A
value that closes the quotes can go on with anything: whatever a file may contain can be put into it
through one field value, and a file that was written with it cannot be told from a file in which
these parts were put on purpose.
-/

namespace Verif
open Flt Sch Spec

variable {F : Type} [Flt F]

/-- A text with a value in it: the value stands between two texts that do not depend on it. -/
def Spec.Around (f : Str → Str) : Prop := ∃ a b, ∀ v, f v = a ++ v ++ b

theorem Spec.Around.left {f : Str → Str} (x : Str) (h : Around f) : Around fun v => x ++ f v := by
  obtain ⟨a, b, h⟩ := h
  exact ⟨x ++ a, b, fun v => by simp only [h, List.append_assoc]⟩

theorem Spec.Around.right {f : Str → Str} (y : Str) (h : Around f) : Around fun v => f v ++ y := by
  obtain ⟨a, b, h⟩ := h
  exact ⟨a, b ++ y, fun v => by simp only [h, List.append_assoc]⟩

theorem Spec.Around.after (x : Str) : Around fun v => x ++ v := ⟨x, [], fun v => by simp⟩

theorem Spec.field_around (f : Sch.Field F) : Around fun v => ({ f with value := v } : Sch.Field F).show := by
  obtain ⟨i, w, o, x, y, z, vis, hj, vj, it, bo, n⟩ := f
  unfold Sch.Field.show
  have hi : ∀ a b : Str, ∃ c : Str, c = if i > 3 then a else b := fun a b => ⟨_, rfl⟩
  obtain ⟨c, hc⟩ := hi (str! " \"" ++ n ++ str! "\"") []
  cases vis <;> cases it <;> cases bo <;> simp only [← hc, Bool.false_eq_true, if_false, if_true] <;>
  · iterate 17 refine Around.right _ ?_
    exact Around.after _

omit [Flt F] in
theorem Spec.field_updated (f : Sch.Field F) (n : Str) (hf : f.name = n) :
    ∃ g : Sch.Field F, ∀ v, f.updated n v = { g with value := v } := by
  subst hf
  by_cases hi : f.i > 1
  · exact ⟨{ f with visible := false }, fun v => by simp [Sch.Field.updated, hi]⟩
  · exact ⟨f, fun v => by simp [Sch.Field.updated, hi]⟩

theorem Spec.fields_around (fs : List (Sch.Field F)) (n : Str) (h : (fs.filter fun f => f.name = n).length = 1) :
    Around fun v => (fs.map fun f => (f.updated n v).show ++ str! "\n").flatten := by
  induction fs with
  | nil => cases h
  | cons f fs ih =>
    simp only [List.map_cons, List.flatten_cons]
    by_cases hf : f.name = n
    · obtain ⟨g, hg⟩ := field_updated f n hf
      rw [List.filter_cons_of_pos (by simpa using hf), List.length_cons] at h
      have hno : ∀ g ∈ fs, g.name ≠ n := fun g hg hn => by
        have : g ∈ fs.filter fun f => f.name = n := List.mem_filter.2 ⟨hg, by simpa using hn⟩
        rw [List.length_eq_zero_iff.1 (by omega : (fs.filter fun f => f.name = n).length = 0)] at this
        cases this
      have hr : ∀ v, (fs.map fun f => (f.updated n v).show ++ str! "\n") =
          fs.map fun f => (f.updated n []).show ++ str! "\n" := by
        intro v
        refine List.map_congr_left fun g hg => ?_
        have : g.updated n v = g.updated n [] := by simp [Sch.Field.updated, hno g hg]
        rw [this]
      simp only [hr, hg]
      exact ((field_around g).right _).right _
    · rw [List.filter_cons_of_neg (by simpa using hf)] at h
      have : ∀ v, f.updated n v = f.updated n [] := fun v => by simp [Sch.Field.updated, hf]
      simp only [this]
      exact (ih h).left _

theorem Spec.component_around (c : Component F) (n : Str) (h : (c.fields.filter fun f => f.name = n).length = 1) :
    Around fun v => (c.updateField n v).show := by
  unfold Component.show Component.updateField
  simp only [List.map_map, Function.comp_def]
  repeat' refine Around.right _ ?_
  exact (fields_around c.fields n h).left _

/-- One field value of one component can put any elements into a schematic: there is a value that
makes the file the file of a schematic with these elements (between two components that differ from
the one that was changed only in this value). -/
theorem C115_field_value_smuggles (s : Schematic F) (pre post es : List (Element F)) (c : Component F) (n q : Str)
    (h : (c.fields.filter fun f => f.name = n).length = 1) :
    ∃ v, (withComponent s pre post (c.updateField n v)).show =
      ({ s with elements := pre ++ (.component (c.updateField n q) :: es ++ [.component (c.updateField n q)]) ++ post } :
        Schematic F).show := by
  obtain ⟨a, b, hab⟩ := component_around c n h
  refine ⟨q ++ b ++ (es.map Element.show).flatten ++ a ++ q, ?_⟩
  simp only [withComponent, Schematic.show, List.map_append, List.map_cons, List.flatten_append,
    List.flatten_cons, Element.show, hab, List.append_assoc, List.cons_append, List.nil_append]

/-- And it is read as that schematic, if that fits the format. -/
theorem C115_smuggled_is_read [TextLaws F] (s : Schematic F) (pre post es : List (Element F)) (c : Component F) (n q : Str)
    (h : (c.fields.filter fun f => f.name = n).length = 1)
    (ht : FitsSchematic ({ s with elements := pre ++ (.component (c.updateField n q) :: es ++
      [.component (c.updateField n q)]) ++ post } : Schematic F)) :
    ∃ v, parseStr (withComponent s pre post (c.updateField n v)).show =
      .ok { s with
        elements := pre ++ (.component (c.updateField n q) :: es ++ [.component (c.updateField n q)]) ++ post,
        filename := none } := by
  obtain ⟨v, hv⟩ := C115_field_value_smuggles s pre post es c n q h
  exact ⟨v, by rw [hv]; exact C01_roundtrip _ ht⟩

/-- Any text can be put into a schematic through the text of a label or note: it ends at the first
line break, and a new element begins. -/
theorem C115_text_smuggles (s : Schematic F) (pre post es : List (Element F)) (t : Text) (q : Str) :
    ∃ v, ({ s with elements := pre ++ .text { t with text := v } :: post } : Schematic F).show =
      ({ s with elements := pre ++ (.text { t with text := q } :: es ++ [.text { t with text := q }]) ++ post } :
        Schematic F).show := by
  obtain ⟨a, b, hab⟩ : Around fun v => ({ t with text := v } : Text).show := by
    obtain ⟨k, x, y, o, z, sh, it, th, tx⟩ := t
    unfold Text.show
    cases it <;> simp only [Bool.false_eq_true, if_false, if_true] <;>
    exact (Around.after _).right _
  refine ⟨q ++ b ++ (es.map Element.show).flatten ++ a ++ q, ?_⟩
  simp only [Schematic.show, List.map_append, List.map_cons, List.flatten_append, List.flatten_cons,
    Element.show, hab, List.append_assoc, List.cons_append, List.nil_append]

/-! ## Symbol libraries -/

theorem Spec.symbol_field_around (f : Lib.Field F) : Around fun v => ({ f with value := v } : Lib.Field F).show := by
  obtain ⟨i, w, x, y, d, o, vis, hj, vj, it, bo, n⟩ := f
  unfold Lib.Field.show
  have hi : ∀ a b : Str, ∃ c : Str, c = if i > 3 then a else b := fun a b => ⟨_, rfl⟩
  obtain ⟨c, hc⟩ := hi (str! " \"" ++ n ++ str! "\"") []
  cases vis <;> cases it <;> cases bo <;> simp only [← hc, Bool.false_eq_true, if_false, if_true] <;>
  · iterate 17 refine Around.right _ ?_
    exact Around.after _

theorem Spec.symbol_around (s : Lib.Symbol F) (fa fb : List (Lib.Field F)) (f : Lib.Field F) (h1 : fa.length ≠ 1)
    (h2 : 2 ≤ (fa ++ f :: fb).length) :
    ∃ a b, ∀ v, ({ s with fields := fa ++ { f with value := v } :: fb } : Lib.Symbol F).show = .ok (a ++ v ++ b) := by
  obtain ⟨f1, hf1⟩ : ∃ f1, ∀ v, (fa ++ { f with value := v } :: fb)[1]? = some f1 := by
    match fa, h1 with
    | [], _ =>
      match fb with
      | g :: _ => exact ⟨g, fun v => rfl⟩
      | [] => simp at h2
    | _ :: g :: _, _ => exact ⟨g, fun v => rfl⟩
  have key : Around fun v => ((fa ++ { f with value := v } :: fb).map fun f => f.show ++ str! "\n").flatten := by
    simp only [List.map_append, List.map_cons, List.flatten_append, List.flatten_cons]
    exact (((symbol_field_around f).right _).right _).left _
  obtain ⟨c, hc⟩ : ∃ c : Str, c = str! "# " ++ f1.value ++ str! "\n" ++
    str! "#\n" ++
    str! "DEF " ++ s.name ++ str! " " ++ s.reference ++ str! " 0 " ++ toStr s.textOffset ++ str! " " ++
      (if s.drawPinnumber then str! "Y" else str! "N") ++ str! " " ++
      (if s.drawPinname then str! "Y" else str! "N") ++ str! " " ++
      showInt s.unitCount ++ str! " " ++
      (if s.unitLocked then str! "L" else str! "F") ++ str! " " ++
      (if s.isPower then str! "P" else str! "N") ++ str! "\n" := ⟨_, rfl⟩
  obtain ⟨a, b, hab⟩ := (((((((key.left c).right (Lib.showAliases s.aliases)).right (str! "DRAW\n")).right
    (s.draw.map fun d => d.show ++ str! "\n").flatten).right (str! "ENDDRAW\n")).right (str! "ENDDEF\n")).right (str! "#\n"))
  refine ⟨a, b, fun v => ?_⟩
  rw [← hab, Lib.Symbol.show, hf1, hc]

theorem Spec.showSymbols_append (a b : List (Lib.Symbol F)) : Lib.showSymbols (a ++ b) =
    (do let x ← Lib.showSymbols a
        let y ← Lib.showSymbols b
        .ok (x ++ y)) := by
  induction a with
  | nil => cases h : Lib.showSymbols b <;> simp [Lib.showSymbols, h]
  | cons s a ih =>
    rw [List.cons_append, Lib.showSymbols, Lib.showSymbols, ih]
    cases s.show <;> cases Lib.showSymbols a <;> cases Lib.showSymbols b <;> simp

/-- One field value of a symbol (but of the second field, which is written twice) can put any symbols
into a library. -/
theorem C115_symbol_value_smuggles (pre post es : List (Lib.Symbol F)) (s : Lib.Symbol F) (fa fb : List (Lib.Field F))
    (f : Lib.Field F) (q : Str) (hs : s.fields = fa ++ f :: fb) (h1 : fa.length ≠ 1)
    (he : ∀ x ∈ es, 2 ≤ x.fields.length) (h2 : 2 ≤ s.fields.length) :
    ∃ v, Lib.SymbolLib.show ⟨pre ++ { s with fields := fa ++ { f with value := v } :: fb } :: post⟩ =
      Lib.SymbolLib.show (F := F) ⟨pre ++ ({ s with fields := fa ++ { f with value := q } :: fb } :: es ++
        [{ s with fields := fa ++ { f with value := q } :: fb }]) ++ post⟩ := by
  rw [hs] at h2
  obtain ⟨a, b, hab⟩ := symbol_around s fa fb f h1 h2
  obtain ⟨e, hes⟩ : ∃ e, Lib.showSymbols es = .ok e := by
    clear hs
    induction es with
    | nil => exact ⟨_, rfl⟩
    | cons x es ih =>
      obtain ⟨e, h⟩ := ih fun y hy => he y (List.mem_cons_of_mem _ hy)
      have hx := he x List.mem_cons_self
      have : x.fields[1]? = some x.fields[1] := by simp
      rw [Lib.showSymbols, h, Lib.Symbol.show, this]
      exact ⟨_, rfl⟩
  refine ⟨q ++ b ++ e ++ a ++ q, ?_⟩
  rw [Lib.SymbolLib.show, Lib.SymbolLib.show]
  simp only [showSymbols_append, Lib.showSymbols, hab, hes, List.cons_append, Res.bind_ok]
  cases Lib.showSymbols pre <;> cases Lib.showSymbols post <;> simp

/-- And it is read as that library, if that fits the format. -/
theorem C115_smuggled_symbols_are_read [TextLaws F] (pre post es : List (Lib.Symbol F)) (s : Lib.Symbol F)
    (fa fb : List (Lib.Field F)) (f : Lib.Field F) (q : Str) (hs : s.fields = fa ++ f :: fb) (h1 : fa.length ≠ 1)
    (ht : FitsLib (F := F) ⟨pre ++ ({ s with fields := fa ++ { f with value := q } :: fb } :: es ++
        [{ s with fields := fa ++ { f with value := q } :: fb }]) ++ post⟩)
    (hb : ¬ HasBold (F := F) ⟨pre ++ ({ s with fields := fa ++ { f with value := q } :: fb } :: es ++
        [{ s with fields := fa ++ { f with value := q } :: fb }]) ++ post⟩) :
    ∃ v t, Lib.SymbolLib.show ⟨pre ++ { s with fields := fa ++ { f with value := v } :: fb } :: post⟩ = .ok t ∧
      Lib.parseStr t = .ok ⟨pre ++ ({ s with fields := fa ++ { f with value := q } :: fb } :: es ++
        [{ s with fields := fa ++ { f with value := q } :: fb }]) ++ post⟩ := by
  have hm : ∀ x ∈ pre ++ ({ s with fields := fa ++ { f with value := q } :: fb } :: es ++
      [{ s with fields := fa ++ { f with value := q } :: fb }]) ++ post, 2 ≤ x.fields.length :=
    fun x hx => (ht x hx).1.2.2.2.1
  obtain ⟨v, hv⟩ := C115_symbol_value_smuggles pre post es s fa fb f q hs h1
    (fun x hx => hm x (by simp [hx]))
    (by have := hm { s with fields := fa ++ { f with value := q } :: fb } (by simp)
        simpa [hs] using this)
  obtain ⟨t, h3, h4⟩ := C14_roundtrip _ ht hb
  exact ⟨v, t, by rw [hv]; exact h3, h4⟩

/-! The sample schematic: a value of the field `MPN` puts a wire and another component into the file. -/

example : ∃ v, parseStr (withComponent (sampleSchematic Nm) [] [] ((sampleComponent Nm).updateField (str! "MPN") v)).show =
    .ok { sampleSchematic Nm with
      elements := [.component ((sampleComponent Nm).updateField (str! "MPN") (str! "X 2")), .wire ⟨.wire, 0, 0, 100, 0⟩,
        .component { sampleComponent Nm with reference := str! "R9" },
        .component ((sampleComponent Nm).updateField (str! "MPN") (str! "X 2"))],
      filename := none } :=
  C115_smuggled_is_read (sampleSchematic Nm) [] []
    [.wire ⟨.wire, 0, 0, 100, 0⟩, .component { sampleComponent Nm with reference := str! "R9" }] (sampleComponent Nm)
    (str! "MPN") (str! "X 2") (by decide) (by decide +kernel)

/-- Such a value has a double quote in it: without one, and without a line break, a value stays a value (C56). -/
example (v : Str) (hv : Quotable v) :
    ∃ c : Schematic Nm, parseStr (withComponent (sampleSchematic Nm) [] [] ({ sampleComponent Nm with fields := [
      { sampleField Nm 0 (str! "Reference") (str! "R1") with value := v }] })).show = .ok c ∧ c.elements.length = 1 := by
  have he : (withComponent (sampleSchematic Nm) [] [] { sampleComponent Nm with fields := [
      sampleField Nm 0 (str! "Reference") (str! "R1")] }).elements = [] ++ .component { sampleComponent Nm with fields := [
      sampleField Nm 0 (str! "Reference") (str! "R1")] } :: [] := rfl
  have := C56_component_field (withComponent (sampleSchematic Nm) [] [] { sampleComponent Nm with fields := [
    sampleField Nm 0 (str! "Reference") (str! "R1")] }) [] [] _ _ [] [] _ v (by decide +kernel) he rfl hv rfl
  exact ⟨_, this, rfl⟩

end Verif
