import Verif.Props.C144
/-!
# C146: keeping a schematic and a board in step

A schematic and a board are in step if the same designators are in both.  A program changes both.
-/

namespace Verif
open Flt Spec Lay Sch

set_option linter.unusedSectionVars false

variable {F : Type} [Flt F]

/-- The designators of the page are those that `get_module` finds on the board. -/
def Spec.InStep (s : Schematic F) (l : Layout F) : Prop := ∀ r, r ∈ refs s ↔ (l.getModule r).isSome = true

/-- The designators of the page that are not on the board. -/
def Spec.unplaced (s : Schematic F) (l : Layout F) : List Str := (refs s).filter fun r => (l.getModule r).isNone

/-- No footprint has two designators. -/
def Spec.OneEach (l : Layout F) : Prop := ∀ m, Elem.module_ m ∈ l.elements → ∀ a b, HasReference a m → HasReference b m → a = b

/-- `schematic.elements.push(Element::Component(c))`, on the public field (src/schematic.rs 27-28). -/
def Spec.draw (c : Component F) (s : Schematic F) : Schematic F := { s with elements := s.elements ++ [.component c] }

/-- `modify_components(|c| if c.reference == r { c.update_reference(q) })` (src/schematic.rs 106-120, 515-522). -/
def Spec.renameAll (r q : Str) (s : Schematic F) : Schematic F :=
  s.modifyComponents fun c => if c.reference = r then c.updateReference q else c

/-- `for e in &mut layout.elements { if let Element::Module(ref mut m) = *e { m.set_reference(r, q) } }`
(src/footprint/data.rs 155-165). -/
def Spec.renameModules (r q : Str) (l : Layout F) : Layout F :=
  { l with elements := l.elements.map fun e => match e with | .module_ m => .module_ (m.setReference r q) | e => e }

/-- A change of both. -/
inductive Spec.Joint (F : Type) where
  | remove (r : Str)
  | add (c : Component F) (m : Fp.Module F)
  | rename (r q : Str)
  | move (x y : F)

/-- What is added fits together. -/
def Spec.Joint.Fits : Joint F → Prop
  | .add c m => ∀ r, HasReference r m ↔ r = c.reference
  | _ => True

/-- The two after a change. -/
def Spec.Joint.run : Joint F → Schematic F × Layout F → Schematic F × Layout F
  | .remove r, (s, l) => (takeOut r s, takeOff r l)
  | .add c m, (s, l) => (draw c s, put m l)
  | .rename r q, (s, l) => (renameAll r q s, renameModules r q l)
  | .move x y, (s, l) => (s, l.adjust x y)

namespace Step

theorem found (l : Layout F) (r : Str) : (l.getModule r).isSome = true ↔ ∃ m, Elem.module_ m ∈ l.elements ∧ HasReference r m := by
  rw [Option.isSome_iff_ne_none, ne_eq, C42_get_none]
  constructor
  · intro h
    refine Classical.byContradiction fun h2 => h fun e he ⟨m, h3, h4⟩ => h2 ⟨m, h3 ▸ he, h4⟩
  · rintro ⟨m, h1, h2⟩ h
    exact h _ h1 ⟨m, rfl, h2⟩

/-- The designators after `set_reference`. -/
theorem renamed (m : Fp.Module F) (r q x : Str) :
    HasReference x (m.setReference r q) ↔ ∃ y, HasReference y m ∧ x = if y = r then q else y := by
  simp only [HasReference, Fp.Module.setReference]
  constructor
  · rintro ⟨t, ht, h1, h2⟩
    obtain ⟨e, he, h3⟩ := List.mem_map.1 ht
    cases e with
    | text t' =>
      simp only [Fp.Module.setReferenceElem] at h3
      split at h3
      · rename_i hc
        cases h3
        exact ⟨r, ⟨t', he, hc.1, hc.2⟩, by rw [if_pos rfl]; exact h2.symm⟩
      · rename_i hc
        cases h3
        refine ⟨x, ⟨_, he, h1, h2⟩, ?_⟩
        rw [if_neg]
        rintro rfl
        exact hc ⟨h1, h2⟩
    | _ => cases h3
  · rintro ⟨y, ⟨t, ht, h1, h2⟩, rfl⟩
    by_cases hy : y = r
    · rw [if_pos hy]
      refine ⟨{ t with value := q }, List.mem_map.2 ⟨_, ht, ?_⟩, h1, rfl⟩
      simp only [Fp.Module.setReferenceElem]
      rw [if_pos ⟨h1, h2.trans hy⟩]
    · rw [if_neg hy]
      refine ⟨t, List.mem_map.2 ⟨_, ht, ?_⟩, h1, h2⟩
      simp only [Fp.Module.setReferenceElem]
      have : ¬ (t.name = str! "reference" ∧ t.value = r) := fun h => hy (h2.symm.trans h.2)
      rw [if_neg this]

theorem adjusted (m : Fp.Module F) (x y : F) (r : Str) : HasReference r (m.adjust x y) ↔ HasReference r m := by
  rw [← Lay.isReference_iff, ← Lay.isReference_iff]
  simp only [Fp.Module.isReferenceWithName, Fp.Module.adjust, List.any_map]
  have : ((fun e : Fp.Elem F => match e with | .text t => decide (t.name = str! "reference") && decide (t.value = r) | _ => false) ∘
      Fp.Module.adjustElem x y) = fun e : Fp.Elem F => match e with | .text t => decide (t.name = str! "reference") && decide (t.value = r) | _ => false := by
    funext e
    cases e <;> rfl
  exact iff_of_eq (congrArg (· = true) (congrArg (m.elements.any ·) this))

theorem found_adjust (l : Layout F) (x y : F) (r : Str) : ((l.adjust x y).getModule r).isSome = true ↔ (l.getModule r).isSome = true := by
  rw [found, found]
  constructor
  · rintro ⟨m, h1, h2⟩
    obtain ⟨e, he, h3⟩ := List.mem_map.1 h1
    cases e with
    | module_ m' => cases h3; exact ⟨m', he, (adjusted m' x y r).1 h2⟩
    | _ => cases h3
  · rintro ⟨m, h1, h2⟩
    exact ⟨m.adjust x y, List.mem_map.2 ⟨_, h1, rfl⟩, (adjusted m x y r).2 h2⟩

end Step

/-- They are in step exactly if no designator of the page is unplaced and every footprint that is found is on the page. -/
theorem C146_lists (s : Schematic F) (l : Layout F) :
    InStep s l ↔ unplaced s l = [] ∧ ∀ m, Elem.module_ m ∈ l.elements → ∀ r, HasReference r m → r ∈ refs s := by
  constructor
  · intro h
    refine ⟨List.filter_eq_nil_iff.2 fun r hr => ?_, fun m hm r hr => (h r).2 ((Step.found l r).2 ⟨m, hm, hr⟩)⟩
    have := (h r).1 hr
    rw [Bool.not_eq_true, Option.isNone_eq_false_iff]
    exact this
  · rintro ⟨h1, h2⟩ r
    constructor
    · intro hr
      have := List.filter_eq_nil_iff.1 h1 r hr
      rwa [Bool.not_eq_true, Option.isNone_eq_false_iff] at this
    · intro hr
      obtain ⟨m, hm, h3⟩ := (Step.found l r).1 hr
      exact h2 m hm r h3

/-- Removing a designator from both. -/
theorem C146_remove (r : Str) (s : Schematic F) (l : Layout F) (h1 : OneEach l) (h : InStep s l) : InStep (takeOut r s) (takeOff r l) := by
  intro q
  have e : q ∈ refs (takeOut r s) ↔ q ∈ refs s ∧ q ≠ r := by
    simp only [refs, (C144_components r s).1, List.mem_map, List.mem_filter, decide_eq_true_eq]
    constructor
    · rintro ⟨c, ⟨h1, h2⟩, rfl⟩
      exact ⟨⟨c, h1, rfl⟩, h2⟩
    · rintro ⟨⟨c, h1, rfl⟩, h2⟩
      exact ⟨c, ⟨h1, h2⟩, rfl⟩
  rw [e, h q]
  by_cases hq : q = r
  · subst hq
    rw [(C143_found q l).1]
    simp
  · rw [(C143_found r l).2 q fun m hm ha hb => hq (h1 m hm q r ha hb)]
    exact ⟨fun h => h.1, fun h => ⟨h, hq⟩⟩

/-- Adding a component to one and a footprint with its designator to the other. -/
theorem C146_add (c : Component F) (m : Fp.Module F) (s : Schematic F) (l : Layout F) (hm : ∀ r, HasReference r m ↔ r = c.reference)
    (h : InStep s l) : InStep (draw c s) (put m l) := by
  intro r
  have e1 : r ∈ refs (draw c s) ↔ r ∈ refs s ∨ r = c.reference := by
    simp [refs, draw, Schematic.components, Element.component?]
  rw [e1, h r, Step.found, Step.found]
  simp only [put, List.mem_append, List.mem_singleton]
  constructor
  · rintro (⟨m', h1, h2⟩ | h1)
    · exact ⟨m', Or.inl h1, h2⟩
    · exact ⟨m, Or.inr rfl, (hm r).2 h1⟩
  · rintro ⟨m', h1 | h1, h2⟩
    · exact Or.inl ⟨m', h1, h2⟩
    · cases h1
      exact Or.inr ((hm r).1 h2)

/-- Placing a footprint takes its designator off the list of what is to be placed. -/
theorem C146_place (m : Fp.Module F) (q : Str) (s : Schematic F) (l : Layout F) (hm : ∀ r, HasReference r m ↔ r = q) :
    unplaced s (put m l) = (unplaced s l).filter fun r => decide (r ≠ q) := by
  simp only [unplaced, List.filter_filter]
  refine List.filter_congr fun r _ => ?_
  have e : ((put m l).getModule r).isSome = true ↔ (l.getModule r).isSome = true ∨ r = q := by
    rw [Step.found, Step.found]
    simp only [put, List.mem_append, List.mem_singleton]
    constructor
    · rintro ⟨m', h1 | h1, h2⟩
      · exact Or.inl ⟨m', h1, h2⟩
      · cases h1
        exact Or.inr ((hm r).1 h2)
    · rintro (⟨m', h1, h2⟩ | h1)
      · exact ⟨m', Or.inl h1, h2⟩
      · exact ⟨m, Or.inr rfl, (hm r).2 h1⟩
  rw [← Option.not_isSome, ← Option.not_isSome]
  by_cases hq : r = q
  · rw [e.2 (Or.inr hq)]
    simp [hq]
  · cases h : (l.getModule r).isSome with
    | true => rw [e.2 (Or.inl h)]; simp
    | false =>
      have : ((put m l).getModule r).isSome = false := by
        rw [Bool.eq_false_iff]
        intro h2
        rcases e.1 h2 with h3 | h3
        · rw [h] at h3; cases h3
        · exact hq h3
      rw [this]
      simp [hq]

/-- Renaming a designator everywhere in both, whatever the new one. -/
theorem C146_rename (r q : Str) (s : Schematic F) (l : Layout F) (h : InStep s l) : InStep (renameAll r q s) (renameModules r q l) := by
  intro x
  have e1 : x ∈ refs (renameAll r q s) ↔ ∃ y ∈ refs s, x = if y = r then q else y := by
    simp only [refs, renameAll, (C08_modify_components s _).2.2, List.map_map, List.mem_map]
    constructor
    · rintro ⟨c, hc, rfl⟩
      refine ⟨c.reference, ⟨c, hc, rfl⟩, ?_⟩
      simp only [Function.comp]
      split <;> rfl
    · rintro ⟨y, ⟨c, hc, rfl⟩, rfl⟩
      refine ⟨c, hc, ?_⟩
      simp only [Function.comp]
      split <;> rfl
  rw [e1, Step.found]
  constructor
  · rintro ⟨y, hy, rfl⟩
    obtain ⟨m, hm, h2⟩ := (Step.found l y).1 ((h y).1 hy)
    exact ⟨m.setReference r q, List.mem_map.2 ⟨_, hm, rfl⟩, (Step.renamed m r q _).2 ⟨y, h2, rfl⟩⟩
  · rintro ⟨m, hm, h2⟩
    obtain ⟨e, he, h3⟩ := List.mem_map.1 hm
    cases e with
    | module_ m' =>
      cases h3
      obtain ⟨y, h4, rfl⟩ := (Step.renamed m' r q x).1 h2
      exact ⟨y, (h y).2 ((Step.found l y).2 ⟨m', he, h4⟩), rfl⟩
    | _ => cases h3

/-- Pasting one schematic into another and putting their boards together, and moving a board. -/
theorem C146_combine (s t : Schematic F) (l k : Layout F) (x y : F) (h : InStep s l) :
    InStep s (l.adjust x y) ∧ (InStep t k → InStep (paste s t) (panel l k x y)) := by
  refine ⟨fun r => (h r).trans (Step.found_adjust l x y r).symm, fun h' r => ?_⟩
  have e : r ∈ refs (paste s t) ↔ r ∈ refs s ∨ r ∈ refs t := by
    simp only [refs, (C139_components s t).1, List.map_append, List.mem_append]
  rw [e, h r, h' r, (C137_lists l k x y).2.2.2 r, Option.isSome_or, Option.isSome_map, Bool.or_eq_true]

/-- Every sequence of such changes keeps the two in step. -/
theorem C146_session (js : List (Joint F)) (hj : ∀ j ∈ js, j.Fits) (s : Schematic F) (l : Layout F) (h1 : OneEach l) (h : InStep s l) :
    InStep (js.foldl (fun p j => j.run p) (s, l)).1 (js.foldl (fun p j => j.run p) (s, l)).2 := by
  have one : ∀ (j : Joint F), j.Fits → ∀ p : Schematic F × Layout F, OneEach p.2 → OneEach (j.run p).2 := by
    rintro j hf ⟨s, l⟩ ho
    cases j with
    | remove r => exact fun m hm => ho m (List.mem_filter.1 hm).1
    | add c m =>
      intro m' hm a b ha hb
      rcases List.mem_append.1 hm with h | h
      · exact ho m' h a b ha hb
      · cases List.mem_singleton.1 h
        rw [(hf a).1 ha, (hf b).1 hb]
    | rename r q =>
      intro m' hm a b ha hb
      obtain ⟨e, he, h3⟩ := List.mem_map.1 hm
      cases e with
      | module_ m =>
        cases h3
        obtain ⟨y, h4, rfl⟩ := (Step.renamed m r q a).1 ha
        obtain ⟨z, h5, rfl⟩ := (Step.renamed m r q b).1 hb
        rw [ho m he y z h4 h5]
      | _ => cases h3
    | move x y =>
      intro m' hm a b ha hb
      obtain ⟨e, he, h3⟩ := List.mem_map.1 hm
      cases e with
      | module_ m =>
        cases h3
        exact ho m he a b ((Step.adjusted m x y a).1 ha) ((Step.adjusted m x y b).1 hb)
      | _ => cases h3
  have step : ∀ (j : Joint F), j.Fits → ∀ p : Schematic F × Layout F, OneEach p.2 → InStep p.1 p.2 → InStep (j.run p).1 (j.run p).2 := by
    rintro j hf ⟨s, l⟩ ho hi
    cases j with
    | remove r => exact C146_remove r s l ho hi
    | add c m => exact C146_add c m s l hf hi
    | rename r q => exact C146_rename r q s l hi
    | move x y => exact (C146_combine s s l l x y hi).1
  have all : ∀ (js : List (Joint F)), (∀ j ∈ js, j.Fits) → ∀ p : Schematic F × Layout F, OneEach p.2 → InStep p.1 p.2 →
      InStep (js.foldl (fun p j => j.run p) p).1 (js.foldl (fun p j => j.run p) p).2 := by
    intro js
    induction js with
    | nil => exact fun _ p _ hi => hi
    | cons j js ih =>
      intro hf p ho hi
      have hj := hf j (List.mem_cons_self ..)
      exact ih (fun k hk => hf k (List.mem_cons_of_mem _ hk)) _ (one j hj p ho) (step j hj p ho hi)
  exact all js hj (s, l) h1 h

/-! ### Cases -/

def Step.page : Schematic Nm := { (Schematic.dflt : Schematic Nm) with elements :=
  [.component { (Component.dflt : Component Nm) with reference := str! "R1" },
   .component { (Component.dflt : Component Nm) with reference := str! "R2" }] }

theorem Step.part (x r a b : Str) : HasReference x (Netlist.part r a b) ↔ x = r := by
  constructor
  · rintro ⟨t, ht, _, h2⟩
    rcases List.mem_cons.1 ht with h | h
    · cases h; exact h2.symm
    · rcases List.mem_cons.1 h with h | h
      · cases h
      · cases List.mem_singleton.1 h
  · rintro rfl
    exact ⟨_, List.mem_cons_self .., rfl, rfl⟩

theorem Step.board_refs (x : Str) : (Netlist.board.getModule x).isSome = true ↔ x = str! "R1" ∨ x = str! "R2" := by
  rw [Step.found]
  constructor
  · rintro ⟨m, h1, h2⟩
    rcases List.mem_cons.1 h1 with h | h
    · cases h; exact Or.inl ((Step.part ..).1 h2)
    · cases List.mem_singleton.1 h; exact Or.inr ((Step.part ..).1 h2)
  · rintro (rfl | rfl)
    · exact ⟨_, List.mem_cons_self .., (Step.part ..).2 rfl⟩
    · exact ⟨_, List.mem_cons_of_mem _ (List.mem_cons_self ..), (Step.part ..).2 rfl⟩

/-- The board of the example of C133 is in step with this page, and each of its footprints has one designator. -/
example : InStep Step.page Netlist.board ∧ OneEach Netlist.board := by
  refine ⟨fun r => ?_, fun m hm a b ha hb => ?_⟩
  · rw [Step.board_refs]
    have : refs Step.page = [str! "R1", str! "R2"] := by decide +kernel
    rw [this]
    simp
  · rcases List.mem_cons.1 hm with h | h
    · cases h; rw [(Step.part ..).1 ha, (Step.part ..).1 hb]
    · cases List.mem_singleton.1 h; rw [(Step.part ..).1 ha, (Step.part ..).1 hb]

example (r : Str) : HasReference r (Netlist.part (str! "R7") (str! "A") (str! "B")) ↔ r = str! "R7" := Step.part ..

example : unplaced (draw { (Component.dflt : Component Nm) with reference := str! "R7" } Step.page) Netlist.board = [str! "R7"] := by
  decide +kernel

/-- Renaming with `modify_component` and `modify_module` instead: of a component with two units only one is renamed. -/
theorem C146_units : ∃ (s : Schematic Nm) (l l' : Layout Nm) (r q : Str), InStep s l ∧
    l.modifyModule r (fun m => m.setReference r q) = .ok l' ∧ ¬ InStep (s.modifyComponent r fun c => c.updateReference q) l' := by
  let p (r : Str) : Element Nm := .component { (Component.dflt : Component Nm) with reference := r }
  let s : Schematic Nm := { (Schematic.dflt : Schematic Nm) with elements := [p (str! "R1"), p (str! "R1"), p (str! "R2")] }
  refine ⟨s, Netlist.board, _, str! "R1", str! "R7", fun r => ?_, rfl, fun h => ?_⟩
  · rw [Step.board_refs]
    have : refs s = [str! "R1", str! "R1", str! "R2"] := by decide +kernel
    rw [this]
    simp
  · have := (h (str! "R1")).1 (by decide +kernel)
    revert this
    decide +kernel

end Verif
