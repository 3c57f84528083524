import Verif.Model.BoxMsg
import Verif.Props.C111
/-!
# C120: what measuring and fixing log, the records of level `debug` included
-/

namespace Verif
open Flt Spec

variable {F : Type} [Flt F]

namespace Spec

/-- The text of an element of a board: a text itself or that of a dimension. -/
def textOf : Lay.Elem F → Option (Lay.GrText F)
  | .grText t => some t
  | .dimension d => some d.text
  | _ => none

/-- Another wording for every text of a board. -/
def rewordElem (f : Lay.GrText F → Lay.GrText F) : Lay.Elem F → Lay.Elem F
  | .grText t => .grText (f t)
  | .dimension d => .dimension { d with text := f d.text }
  | e => e

/-- The records of level `info` of a log of `fix`. -/
def infos (l : List (Fp.FixNote F)) : List Prog.Record :=
  l.filterMap fun
    | .record r => some r
    | _ => none

/-- The components of a sheet. -/
def componentOf : Sch.Element F → Option (Sch.Component F)
  | .component c => some c
  | _ => none

end Spec

/-! ## Footprints -/

theorem Fp.boundWarned_steps (x y : F) : ∀ (es : List (Fp.Elem F)) (b : Bound F),
    es.foldl (Fp.Module.boundStepWarned x y) ⟨b, []⟩ = ⟨es.foldl (Fp.Module.boundStep x y) b, []⟩
  | [], _ => rfl
  | e :: es, b => by
    rw [List.foldl_cons, List.foldl_cons, ← Fp.boundWarned_steps x y es]
    congr 1
    unfold Fp.Module.boundStepWarned Fp.Module.boundStep
    cases e <;> simp [Fp.Elem.isGraphics, Fp.Elem.isFab, Fp.Elem.isPad, Fp.Elem.boundWarned] <;> split <;> rfl

/-- Measuring a footprint gives its box in silence: the texts, whose boxes are guesses, are not
looked at. -/
theorem C120_footprint (m : Fp.Module F) : m.boundWarned = ⟨m.bound, []⟩ := by
  simp only [Fp.Module.boundWarned, Fp.boundWarned_steps]
  rfl

/-- Measured by itself an element of a footprint warns exactly if it is a text. -/
theorem C120_element (e : Fp.Elem F) :
    e.boundWarned.val = e.bound ∧ (e.boundWarned.log = [] ↔ ∀ t, e ≠ .text t) := by
  cases e <;> simp [Fp.Elem.boundWarned, Fp.FpText.boundWarned, Fp.Elem.bound]

/-- Logging changes nothing in what `fix` does. -/
theorem C120_same_fix (m : Fp.Module F) (cfg : Config F) : (m.fixLogged cfg).1 = m.fix cfg := by
  simp only [Fp.Module.fixLogged, Fp.fixCourtyardLogged, Fp.Module.fix, Fp.fixCourtyard]
  split <;> rfl

/-- The records of level `info` are those of C111. -/
theorem C120_infos (m : Fp.Module F) (cfg : Config F) :
    infos (m.fixLogged cfg).2 = (m.fixTold cfg).2 := by
  simp only [Fp.Module.fixLogged, Fp.fixCourtyardLogged, Fp.Module.fixTold, Fp.fixCourtyardTold]
  split
  · simp [infos, C120_footprint]
  · rfl

theorem Fp.fixed_measures (m : Fp.Module F) (cfg : Config F) :
    (Fp.fixPlacement (Fp.fixTexts cfg m)).bound = m.bound ∧
    (Fp.fixPlacement (Fp.fixTexts cfg m)).at_ = m.at_ := by
  have e1 : (Fp.fixTexts cfg m).elements = Fp.keptElems cfg m ++ Fp.addedText cfg m := Fp.fixTexts_eq cfg m
  have h2 : Fp.fixPlacement (Fp.fixTexts cfg m) =
      ⟨m.name, Fp.keptElems cfg m ++ Fp.addedText cfg m ++ Fp.addedAttr m⟩ := by
    rw [Fp.fixPlacement_eq, Fp.addedAttr_fixTexts, e1]; rfl
  have hn : Fp.nt (Fp.keptElems cfg m ++ Fp.addedText cfg m) = Fp.nt m.elements := by
    rw [← e1]; exact Fp.nt_fixTexts cfg m
  rw [h2]
  constructor
  · rw [Fp.bound_append_attr,
      Fp.bound_eq_of_nt (a := Fp.Module.mk m.name (Fp.keptElems cfg m ++ Fp.addedText cfg m)) (b := m) hn]
  · rw [Fp.at_append_attr,
      Fp.at_eq_of_nt (a := Fp.Module.mk m.name (Fp.keptElems cfg m ++ Fp.addedText cfg m)) (b := m) hn]

/-- Where a courtyard is made, `fix` logs the box and the place of the footprint as they were
before, the box seen from that place, and the corners of the courtyard. -/
theorem C120_fix (m : Fp.Module F) (cfg : Config F) (h : (courtyard m).length < 4) :
    ∃ (pre : List (Fp.Elem F)) (x1 y1 x2 y2 : F),
      (m.fix cfg).elements = pre ++ rectangle x1 y1 x2 y2 ∧
      (m.fixLogged cfg).2 =
        [.bound m.bound, .place m.at_,
         .box (sub m.bound.x1 m.at_.1, sub m.bound.y1 m.at_.2) (sub m.bound.x2 m.at_.1, sub m.bound.y2 m.at_.2),
         .record (courtyardNotice x1 y1 x2 y2)] := by
  obtain ⟨pre, x1, y1, x2, y2, he, ht⟩ := C111_notice m cfg h
  refine ⟨pre, x1, y1, x2, y2, he, ?_⟩
  rw [← Fp.courtyardCount_eq] at h
  obtain ⟨hb, ha⟩ := Fp.fixed_measures m cfg
  rw [Fp.Module.fixTold, Fp.fixCourtyardTold, (Fp.fixed_parts m cfg).1, if_pos h] at ht
  simp only [List.cons.injEq, and_true] at ht
  rw [Fp.Module.fixLogged, Fp.fixCourtyardLogged, (Fp.fixed_parts m cfg).1, if_pos h]
  simp only [C120_footprint, List.map_nil, List.nil_append, hb, ha, ht]

/-- Where none is made nothing is logged. -/
theorem C120_fix_silent (m : Fp.Module F) (cfg : Config F) :
    (m.fixLogged cfg).2 = [] ↔ 4 ≤ (courtyard m).length := by
  by_cases h : (courtyard m).length < 4
  · obtain ⟨_, _, _, _, _, _, hl⟩ := C120_fix m cfg h
    rw [hl]; simp only [reduceCtorEq, false_iff]; omega
  · simp only [Nat.not_lt] at h
    refine iff_of_true ?_ h
    rw [← Fp.courtyardCount_eq] at h
    rw [Fp.Module.fixLogged, Fp.fixCourtyardLogged, (Fp.fixed_parts m cfg).1, if_neg (by omega)]

/-! ## Boards -/

theorem Lay.elem_boundWarned (e : Lay.Elem F) :
    e.boundWarned = ⟨e.bound, (textOf e).toList.map fun _ => Poor.grText⟩ := by
  cases e <;> simp [Lay.Elem.boundWarned, Lay.Elem.bound, textOf, C120_footprint, Lay.GrText.boundWarned,
    Lay.Dimension.boundWarned, Lay.Dimension.bound]

theorem Lay.boundWarned_steps : ∀ (es : List (Lay.Elem F)) (b : Bound F) (w : List Poor),
    es.foldl Lay.Layout.boundStepWarned ⟨b, w⟩ =
      ⟨es.foldl (fun b e => b.update e.bound) b, w ++ (es.filterMap textOf).map fun _ => Poor.grText⟩
  | [], _, _ => by simp
  | e :: es, b, w => by
    rw [List.foldl_cons, List.foldl_cons, Lay.Layout.boundStepWarned, Lay.elem_boundWarned,
      Lay.boundWarned_steps es]
    cases h : textOf e <;> simp [h]

/-- Measuring a board gives its box and one warning for every text on it, those of dimensions
included, and nothing else. -/
theorem C120_board (l : Lay.Layout F) :
    l.boundWarned.val = l.bound ∧
    l.boundWarned.log = List.replicate (l.elements.filterMap textOf).length .grText := by
  simp only [Lay.Layout.boundWarned, Lay.boundWarned_steps, List.nil_append, List.map_const', Lay.Layout.bound,
    and_self]

/-- No warning means no text. -/
theorem C120_board_silent (l : Lay.Layout F) :
    l.boundWarned.log = [] ↔ ∀ e ∈ l.elements, textOf e = none := by
  rw [(C120_board l).2, List.replicate_eq_nil_iff, List.length_eq_zero_iff, List.filterMap_eq_nil_iff]

/-- The warning is deserved: neither the words nor the size of a text matter to the box, only
where it starts. -/
theorem C120_board_poor (l : Lay.Layout F) (f : Lay.GrText F → Lay.GrText F)
    (hf : ∀ t, (f t).at_.x = t.at_.x ∧ (f t).at_.y = t.at_.y) :
    Lay.Layout.bound { l with elements := l.elements.map (rewordElem f) } = l.bound := by
  have h : ∀ e : Lay.Elem F, (rewordElem f e).bound = e.bound := by
    intro e
    cases e <;> simp [rewordElem, Lay.Elem.bound, Lay.GrText.bound, Lay.Dimension.bound, hf]
  simp only [Lay.Layout.bound, List.foldl_map, h]

/-! ## Schematics -/

/-- The warning about an element of a sheet. -/
def Spec.warningOf (e : Sch.Element F) : Poor := if (componentOf e).isSome then .component else .unhandled

theorem Sch.boundWarned_steps : ∀ (es : List (Sch.Element F)) (b : Bound F) (w : List Poor),
    es.foldl Sch.boundStepWarned ⟨b, w⟩ =
      ⟨es.foldl (fun b e => b.update e.bound) b, w ++ es.map warningOf⟩
  | [], _, _ => by simp
  | e :: es, b, w => by
    rw [List.foldl_cons, List.foldl_cons, Sch.boundStepWarned, Sch.boundWarned_steps es]
    cases e <;> simp [warningOf, componentOf, Sch.Element.boundWarned, Sch.Component.boundWarned, Sch.Element.bound]

/-- Measuring a sheet gives its box and exactly one warning for every element, in their order; the
sheets below it are measured in silence.  The warnings are logged even if measuring panics. -/
theorem C120_schematic (s : Sch.Schematic F) :
    s.boundWarned.val = s.bound ∧ s.boundWarned.log = s.elements.map warningOf := by
  simp only [Sch.Schematic.boundWarned, Sch.boundWarned_steps, List.nil_append, Sch.Schematic.bound, and_self]

/-- What is reported as unhandled does not matter to the box. -/
theorem C120_unhandled (s : Sch.Schematic F) :
    Sch.Schematic.bound { s with elements := s.elements.filter fun e => warningOf e = .component } = s.bound := by
  have h : ∀ (es : List (Sch.Element F)) (b : Bound F),
      (es.filter fun e => warningOf e = .component).foldl (fun b e => b.update e.bound) b =
        es.foldl (fun b e => b.update e.bound) b := by
    intro es
    induction es with
    | nil => intro b; rfl
    | cons e es ih =>
      intro b
      cases e <;> exact ih _
  simp only [Sch.Schematic.bound, h]

/-- What is reported as poor is a segment: every component counts with the points `(y, y)` and
`(x, y)` of its place `(x, y)`, whatever symbol it shows. -/
theorem C120_component_poor (s : Sch.Schematic F) (f : Sch.Component F → Sch.Component F)
    (hf : ∀ c, (f c).x = c.x ∧ (f c).y = c.y) :
    Sch.Schematic.bound { s with elements := s.elements.map fun
      | .component c => .component (f c)
      | e => e } = s.bound := by
  simp only [Sch.Schematic.bound, List.foldl_map]
  congr 2
  · congr 1
    funext b e
    cases e <;> simp [Sch.Element.bound, Sch.Component.bound, hf]

/-! ## Cases -/

/-- What fixing a footprint with one pad logs. -/
example : ((⟨str! "R", [.pad (Fp.Pad.new (str! "1") .smd .rect)]⟩ : Fp.Module Nm).fixLogged Config.klc).2.length = 4 := by
  decide +kernel

/-- A board with a text, a line and a net: one warning. -/
example : (match (Lay.parse (str! "(kicad_pcb (net 1 GND) (gr_text hello (at 1 2) (layer F.SilkS) (effects (font (size 1 1) (thickness 0.1)))) (gr_line (start 1 2) (end 3 4) (angle 0) (layer Edge.Cuts) (width 0.1)))") : Res (Lay.Layout Nm)) with
    | .ok l => l.boundWarned.log
    | _ => []) = [.grText] := by decide +kernel

/-- A sheet with a connection: one warning. -/
example : (Sch.Schematic.boundWarned (F := Nm)
    { Sch.Schematic.dflt (F := Nm) with elements := [.connection ⟨1, 2⟩] }).log = [.unhandled] := by
  decide +kernel

end Verif
