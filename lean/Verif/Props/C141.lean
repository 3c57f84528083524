import Mathlib.Algebra.BigOperators.Group.List.Lemmas
import Verif.Props.C139
import Verif.Props.C130
/-!
# C141: bills of materials

A program collects the components and counts those that agree in chosen fields, such as value, footprint and part number.
-/

namespace Verif
open Flt Spec Sch

set_option linter.unusedSectionVars false

variable {F : Type} [Flt F]

/-- What a component is listed under: the values of the chosen fields (`get_field_value`, src/schematic.rs 475-482). -/
def Spec.listedUnder (names : List Str) (c : Component F) : List (Option Str) := names.map c.getFieldValue

/-- How many components are listed under it. -/
def Spec.howMany (names : List Str) (cs : List (Component F)) (k : List (Option Str)) : Nat :=
  cs.countP fun c => decide (listedUnder names c = k)

namespace Bom

theorem value_update (c : Component F) (name v n : Str) :
    (c.updateField name v).getFieldValue n = if n = name then (c.getFieldValue n).map fun _ => v else c.getFieldValue n := by
  have hn : ∀ f : Sch.Field F, (f.updated name v).name = f.name := by
    intro f
    simp only [Field.updated]
    split <;> split <;> rfl
  have hv : ∀ f : Sch.Field F, (f.updated name v).value = if f.name = name then v else f.value := by
    intro f
    simp only [Field.updated]
    split <;> split <;> rfl
  simp only [Component.getFieldValue, Component.updateField, List.find?_map, Option.map_map]
  have e : ((fun f : Sch.Field F => decide (f.name = n)) ∘ fun f : Sch.Field F => f.updated name v) = fun f : Sch.Field F => decide (f.name = n) := by
    funext f
    simp only [Function.comp_apply, hn]
  rw [e]
  cases h : c.fields.find? fun f => decide (f.name = n) with
  | none => simp
  | some f =>
    have hf : f.name = n := by simpa using List.find?_some h
    simp only [Option.map_some, Function.comp_apply, hv, hf]
    split <;> rfl

theorem value_reference (c : Component F) (r n : Str) (h : ∀ f ∈ c.fields, f.i = 0 → f.name ≠ n) :
    (c.updateReference r).getFieldValue n = c.getFieldValue n := by
  simp only [Component.getFieldValue, Component.updateReference, List.find?_map, Option.map_map]
  have e : ((fun f : Sch.Field F => decide (f.name = n)) ∘ fun f : Sch.Field F => if f.i = 0 then { f with value := r } else f) =
      fun f : Sch.Field F => decide (f.name = n) := by
    funext f
    simp only [Function.comp_apply]
    split <;> rfl
  rw [e]
  cases h1 : c.fields.find? fun f => decide (f.name = n) with
  | none => rfl
  | some f =>
    have hf : f.name = n := by simpa using List.find?_some h1
    have hi : ¬ f.i = 0 := fun e => h f (List.mem_of_find?_eq_some h1) e hf
    simp only [Option.map_some, Function.comp_apply, if_neg hi]

theorem many_map (names : List Str) (cs : List (Component F)) (fn : Component F → Component F)
    (h : ∀ c ∈ cs, listedUnder names (fn c) = listedUnder names c) (k : List (Option Str)) :
    howMany names (cs.map fn) k = howMany names cs k := by
  simp only [howMany, List.countP_map]
  refine List.countP_congr fun c hc => ?_
  simp only [Function.comp_apply, h c hc]

end Bom

/-- Every component is listed once: the numbers add up to the number of components. -/
theorem C141_total (names : List Str) (cs : List (Component F)) :
    ((cs.map (listedUnder names)).dedup.map (howMany names cs)).sum = cs.length ∧
    ∀ k, 0 < howMany names cs k ↔ k ∈ cs.map (listedUnder names) := by
  have e : ∀ k, howMany names cs k = (cs.map (listedUnder names)).count k := by
    intro k
    simp only [howMany, List.count, List.countP_map]
    refine List.countP_congr fun c _ => ?_
    simp
  refine ⟨?_, fun k => by rw [e]; exact List.count_pos_iff⟩
  have := List.sum_map_count_dedup_eq_length (cs.map (listedUnder names))
  rw [List.length_map] at this
  rw [← this]
  congr 1
  refine List.map_congr_left fun k _ => ?_
  show _ = @List.countP _ (fun x => @BEq.beq _ instBEqOfDecidableEq x k) _
  rw [List.countP_map]
  refine List.countP_congr fun c _ => ?_
  show decide _ = true ↔ decide _ = true
  rfl

/-- The order does not matter, and the bill of two schematics in one is the sum of both. -/
theorem C141_sum (names : List Str) (w : World) (s t : Schematic F) (hw : SameSheetFiles w s t) (n : Nat) (v u r : List (Component F))
    (hs : allComponents w n s = .ok v) (ht : allComponents w n t = .ok u) (hr : allComponents w n (paste s t) = .ok r)
    (k : List (Option Str)) : howMany names r k = howMany names v k + howMany names u k := by
  obtain ⟨r', h1, h2⟩ := (C139_all w s t hw n).1 v u hs ht
  rw [hr] at h1
  cases h1
  rw [howMany, h2.countP_eq, List.countP_append]
  rfl

/-- What a component is listed under after `update_field`. -/
theorem C141_update (names : List Str) (c : Component F) (name v : Str) :
    listedUnder names (c.updateField name v) =
      names.map fun n => if n = name ∧ c.getFieldValue n ≠ none then some v else c.getFieldValue n := by
  refine List.map_congr_left fun n _ => ?_
  rw [Bom.value_update]
  by_cases e : n = name
  · cases h : c.getFieldValue n <;> simp [e]
  · simp [e]

/-- Changing one component by reference takes it from where it was listed and puts it where it is listed then. -/
theorem C141_one (names : List Str) (s : Schematic F) (r : Str) (fn : Component F → Component F) (hr : r ∈ refs s) :
    ∃ c ∈ s.components, c.reference = r ∧ ∀ k,
      howMany names (s.modifyComponent r fn).components k + (if listedUnder names c = k then 1 else 0) =
        howMany names s.components k + (if listedUnder names (fn c) = k then 1 else 0) := by
  rcases C08_cases s r with ⟨a, c, b, h1, h2, h3⟩ | h
  · have e1 : s.components = a.filterMap Element.component? ++ c :: b.filterMap Element.component? := by
      simp [Schematic.components, h1, Element.component?]
    have e2 : (s.modifyComponent r fn).components = a.filterMap Element.component? ++ fn c :: b.filterMap Element.component? := by
      simp [Schematic.components, (C08_modify_component s r fn a b c h1 h2 h3).1, Element.component?]
    refine ⟨c, by rw [e1]; simp, h2, fun k => ?_⟩
    rw [e1, e2]
    simp only [howMany, List.countP_append, List.countP_cons, decide_eq_true_eq]
    omega
  · obtain ⟨c, hc, rfl⟩ := List.mem_map.1 hr
    exact absurd rfl (h _ (((C08_components s []).2 c).1 hc))

/-- Setting fields that are not among the chosen ones changes nothing, on one component or on all. -/
theorem C141_other (names : List Str) (s : Schematic F) (name v r : Str) (hn : name ∉ names) (k : List (Option Str)) :
    howMany names (s.modifyComponents fun c => c.updateField name v).components k = howMany names s.components k ∧
    howMany names (s.modifyComponent r fun c => c.updateField name v).components k = howMany names s.components k := by
  have same : ∀ c : Component F, listedUnder names (c.updateField name v) = listedUnder names c := by
    intro c
    rw [C141_update]
    refine List.map_congr_left fun n h => ?_
    have : ¬ (n = name ∧ c.getFieldValue n ≠ none) := fun e => hn (e.1 ▸ h)
    rw [if_neg this]
  refine ⟨?_, ?_⟩
  · rw [(C08_modify_components s _).2.2]
    exact Bom.many_map names _ _ (fun c _ => same c) k
  · by_cases hr : r ∈ refs s
    · obtain ⟨c, _, _, h⟩ := C141_one names s r (fun c => c.updateField name v) hr
      have := h k
      rw [same] at this
      omega
    · rw [C08_modify_component_absent]
      intro e he
      cases e with
      | component c => exact fun h => hr (List.mem_map.2 ⟨c, ((C08_components s []).2 c).2 he, h⟩)
      | _ => exact fun h => h.elim

/-- So does adding fields or setting them with `add_or_update_field`. -/
theorem C141_set (names : List Str) (c c' : Component F) (t : Sch.Field F) (sets : List (Str × Str)) (h : RoomFor sets.length c)
    (hc : setFields t sets c = .ok c') (hn : ∀ p ∈ sets, p.1 ∉ names) : listedUnder names c' = listedUnder names c := by
  obtain ⟨c2, h1, h2⟩ := C130_table c t sets h
  rw [hc] at h1
  cases h1
  refine List.map_congr_left fun n hm => ?_
  rw [h2]
  have : lastGiven sets n = none := by
    simp only [lastGiven, Option.map_eq_none_iff, List.find?_eq_none, List.mem_reverse, decide_eq_true_eq]
    exact fun p hp e => hn p hp (e ▸ hm)
  rw [this, Option.none_or]

/-- Renumbering changes nothing if the reference is not among the chosen fields. -/
theorem C141_renumber (names : List Str) (ps : List (Str × Str)) (s : Schematic F)
    (hn : ∀ c ∈ s.components, ∀ f ∈ c.fields, f.i = 0 → f.name ∉ names) (k : List (Option Str)) :
    howMany names (renumber ps s).components k = howMany names s.components k := by
  induction ps generalizing s with
  | nil => rfl
  | cons p ps ih =>
    show howMany names (renumber ps (s.modifyComponent p.1 fun c => c.updateReference p.2)).components k = _
    have same : ∀ c ∈ s.components, listedUnder names (c.updateReference p.2) = listedUnder names c := fun c hc =>
      List.map_congr_left fun n hm => Bom.value_reference c p.2 n fun f hf hi e => hn c hc f hf hi (e ▸ hm)
    by_cases hr : p.1 ∈ refs s
    · rw [ih]
      · obtain ⟨c, hc, _, h⟩ := C141_one names s p.1 (fun c => c.updateReference p.2) hr
        have := h k
        rw [same c hc] at this
        omega
      · intro c hc f hf hi
        rcases C08_cases s p.1 with ⟨a, d, b, h1, h2, h3⟩ | h
        · have hm := ((C08_components _ []).2 c).1 hc
          rw [(C08_modify_component s p.1 _ a b d h1 h2 h3).1] at hm
          have old : ∀ x, x ∈ a ++ b → x ∈ s.elements := by
            intro x hx
            rw [h1]
            rcases List.mem_append.1 hx with hx | hx <;> simp [hx]
          have hd : d ∈ s.components := ((C08_components s []).2 d).2 (by rw [h1]; simp)
          rcases List.mem_append.1 hm with hm | hm
          · exact hn c (((C08_components s []).2 c).2 (old _ (List.mem_append_left _ hm))) f hf hi
          · rcases List.mem_cons.1 hm with e | hm
            · cases e
              obtain ⟨g, hg, rfl⟩ := List.mem_map.1 hf
              by_cases hgi : g.i = 0
              · rw [if_pos hgi]
                exact hn d hd g hg hgi
              · rw [if_neg hgi] at hi
                exact absurd hi hgi
            · exact hn c (((C08_components s []).2 c).2 (old _ (List.mem_append_right _ hm))) f hf hi
        · obtain ⟨c', hc', e⟩ := List.mem_map.1 hr
          exact absurd e (h _ (((C08_components s []).2 c').1 hc'))
    · rw [C08_modify_component_absent]
      · exact ih s hn
      · intro e he
        cases e with
        | component c => exact fun h => hr (List.mem_map.2 ⟨c, ((C08_components s []).2 c).2 he, h⟩)
        | _ => exact fun h => h.elim

/-! ### Cases -/

/-- Three resistors, two of them equal, one without a part number. -/
def Bom.sheet : Schematic Nm :=
  let f (i : Int) (n v : String) : Sch.Field Nm := Field.newFrom i n.toList v.toList zero zero
  let c (r v : String) (m : List (Sch.Field Nm)) : Element Nm :=
    .component { (Component.dflt : Component Nm) with reference := r.toList, fields := f 0 "Reference" r :: f 1 "Value" v :: m }
  { (Schematic.dflt : Schematic Nm) with elements := [c "R1" "1k" [f 4 "MPN" "x"], c "R2" "1k" [f 4 "MPN" "x"], c "R3" "1k" []] }

example : (howMany [str! "Value"] Bom.sheet.components [some (str! "1k")],
    howMany [str! "Value", str! "MPN"] Bom.sheet.components [some (str! "1k"), some (str! "x")],
    howMany [str! "Value", str! "MPN"] Bom.sheet.components [some (str! "1k"), none]) = (3, 2, 1) := by decide +kernel

/-- After `update_field` on one of them; the one without the field does not get it. -/
example : (howMany [str! "Value", str! "MPN"] (Bom.sheet.modifyComponent (str! "R2") fun c => c.updateField (str! "MPN") (str! "y")).components
      [some (str! "1k"), some (str! "x")],
    howMany [str! "MPN"] (Bom.sheet.modifyComponents fun c => c.updateField (str! "MPN") (str! "y")).components [some (str! "y")]) =
    (1, 2) := by decide +kernel

example : (∀ c ∈ Bom.sheet.components, ∀ f ∈ c.fields, f.i = 0 → f.name ∉ [str! "Value", str! "MPN"]) ∧ str! "R2" ∈ refs Bom.sheet := by
  decide +kernel

/-- With the reference among the chosen fields, renumbering does change the bill. -/
theorem C141_renumber_reference : ∃ (s : Schematic Nm) (ps : List (Str × Str)) (names : List Str) (k : List (Option Str)),
    howMany names (renumber ps s).components k ≠ howMany names s.components k :=
  ⟨Bom.sheet, [(str! "R1", str! "R7")], [str! "Reference"], [some (str! "R7")], by decide +kernel⟩

end Verif
