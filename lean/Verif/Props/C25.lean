import Verif.Spec.Footprint
import Verif.Lemmas.Flt
import Verif.Basic.Nm
import Mathlib.Tactic.Tauto
/-!
# C25: comparison of footprint elements
-/

namespace Verif
open Flt Fp Spec

variable {F : Type} [Flt F]

section helpers
variable [EqLaws F]

theorem Fp.xy_eq_iff (a b : Xy F) : a.eq b = true ↔ a = b := by
  cases a; cases b
  simp [Xy.eq, EqLaws.feq_iff, and_assoc]

theorem Fp.at_eq_iff (a b : At F) : a.eq b = true ↔ a = b := by
  cases a; cases b
  simp [At.eq, EqLaws.feq_iff, and_assoc]

theorem Fp.xyz_eq_iff (a b : Xyz F) : a.eq b = true ↔ a = b := by
  cases a; cases b
  simp [Xyz.eq, EqLaws.feq_iff, and_assoc]

theorem Fp.font_eq_iff (a b : Font F) : a.eq b = true ↔ a = b := by
  cases a; cases b
  simp [Font.eq, EqLaws.feq_iff, xy_eq_iff, and_assoc]

theorem Fp.effects_eq_iff (a b : Effects F) : a.eq b = true ↔ a = b := by
  cases a; cases b
  simp [Effects.eq, font_eq_iff]

theorem Fp.drill_eq_iff (a b : Drill F) : a.eq b = true ↔ a = b := by
  cases a; cases b
  simp [Drill.eq, EqLaws.feq_iff, and_assoc]

theorem Fp.model_eq_iff (a b : Model F) : a.eq b = true ↔ a = b := by
  cases a; cases b
  simp [Model.eq, xyz_eq_iff, and_assoc]

omit [Flt F] [EqLaws F] in
theorem Fp.optEq_iff {α β : Type} {eq : α → α → Bool} {f : α → β}
    (h : ∀ a b, eq a b = true ↔ f a = f b) (a b : Option α) :
    optEq eq a b = true ↔ a.map f = b.map f := by
  cases a <;> cases b <;> simp [optEq, h]

omit [Flt F] [EqLaws F] in
theorem Fp.listEq_iff {α β : Type} {eq : α → α → Bool} {f : α → β}
    (h : ∀ a b, eq a b = true ↔ f a = f b) (a b : List α) :
    listEq eq a b = true ↔ a.map f = b.map f := by
  induction a generalizing b with
  | nil => cases b <;> simp [listEq]
  | cons x a ih => cases b <;> simp [listEq, h, ih]

omit [Flt F] [EqLaws F] in
theorem Fp.layer_eq_iff (a b : Layer) : a.eq b = true ↔ anySide a = anySide b := by
  cases a; cases b
  simp [Layer.eq, anySide]

theorem Fp.optXy (a b : Option (Xy F)) : optEq Xy.eq a b = true ↔ a = b := by
  simpa using optEq_iff (f := id) (fun a b => by simpa using xy_eq_iff a b) a b

theorem Fp.optF (a b : Option F) : optEq feq a b = true ↔ a = b := by
  simpa using optEq_iff (f := id) (fun a b => by simpa using EqLaws.feq_iff a b) a b

theorem Fp.optDrill (a b : Option (Drill F)) : optEq Drill.eq a b = true ↔ a = b := by
  simpa using optEq_iff (f := id) (fun a b => by simpa using drill_eq_iff a b) a b

theorem Fp.listXy (a b : List (Xy F)) : listEq Xy.eq a b = true ↔ a = b := by
  simpa using listEq_iff (f := id) (fun a b => by simpa using xy_eq_iff a b) a b

omit [Flt F] [EqLaws F] in
theorem Fp.guard_not {c b : Bool} : (if (!c) = true then false else b) = true ↔ c = true ∧ b = true := by
  cases c <;> simp

omit [Flt F] [EqLaws F] in
theorem Fp.guard_ne {α : Type} [DecidableEq α] {x y : α} {b : Bool} :
    (if x ≠ y then false else b) = true ↔ x = y ∧ b = true := by
  by_cases h : x = y <;> simp [h]

theorem Fp.pad_eq_iff (a b : Pad F) :
    a.eq b = true ↔ shapeOf (.pad a) = shapeOf (.pad b) := by
  cases a; cases b
  simp only [Pad.eq, shapeOf, Elem.pad.injEq, Pad.mk.injEq]
  simp only [guard_not, guard_ne, at_eq_iff, xy_eq_iff, optXy, optF, optDrill,
    listEq_iff (f := anySide) layer_eq_iff, and_true, true_and]
  tauto

theorem Fp.text_eq_iff (a b : FpText F) :
    a.eq b = true ↔ shapeOf (.text a) = shapeOf (.text b) := by
  have hne : (str! "reference") ≠ (str! "value") := by decide
  cases a with | mk an av aa al ae ah =>
  cases b with | mk bn bv ba bl be bh =>
  simp only [FpText.eq, shapeOf, isDesignator, FpText.new]
  by_cases h1 : an = str! "reference"
  · subst h1
    by_cases h2 : bn = str! "reference"
    · subst h2; simp
    · by_cases h3 : bn = str! "value"
      · subst h3; simp
      · have h4 : ¬ (str! "reference") = bn := fun h => h2 h.symm
        simp [h2, h3, h4]
  · by_cases h2 : an = str! "value"
    · subst h2
      by_cases h3 : bn = str! "value"
      · subst h3; simp
      · by_cases h4 : bn = str! "reference"
        · subst h4; simp
        · have h5 : ¬ (str! "value") = bn := fun h => h3 h.symm
          simp [h3, h4, h5]
    · by_cases h3 : bn = str! "reference" ∨ bn = str! "value"
      · have h4 : ¬ an = bn := by rintro rfl; exact h3.elim h1 h2
        simp [h1, h2, h3, h4]
      · rw [not_or] at h3
        simp [h1, h2, h3.1, h3.2, at_eq_iff, effects_eq_iff, layer_eq_iff]
        grind

end helpers

/-- Two footprint elements compare equal exactly when they agree in everything
but nets, board sides and the reference and value texts. -/
theorem C25_eq_iff_shape [EqLaws F] (a b : Elem F) :
    a.eq b = true ↔ shapeOf a = shapeOf b := by
  cases a <;> cases b <;>
    first
    | (simp [Elem.eq, shapeOf, isDesignator, EqLaws.feq_iff, layer_eq_iff, at_eq_iff, model_eq_iff]; done)
    | (simp only [Elem.eq]; exact pad_eq_iff _ _)
    | (simp only [Elem.eq]; exact text_eq_iff _ _)
    | (simp only [Elem.eq, shapeOf]; split <;> simp; done)
    | (rename_i p q; cases p; cases q;
       simp [Elem.eq, FpPoly.eq, FpLine.eq, FpCircle.eq, FpArc.eq, shapeOf, layer_eq_iff, listXy,
        xy_eq_iff, EqLaws.feq_iff]; grind)

/-- Comparison of footprint elements is an equivalence relation. -/
theorem C25_eq_equivalence [EqLaws F] :
    (∀ a : Elem F, a.eq a = true) ∧
    (∀ a b : Elem F, a.eq b = true → b.eq a = true) ∧
    (∀ a b c : Elem F, a.eq b = true → b.eq c = true → a.eq c = true) := by
  refine ⟨fun a => ?_, fun a b => ?_, fun a b c => ?_⟩ <;> simp only [C25_eq_iff_shape]
  · exact fun h => h.symm
  · exact fun h1 h2 => h1.trans h2

/-- Nets, board sides and designator contents do not matter. -/
theorem C25_ignores [EqLaws F] (p : Pad F) (t u : FpText F) (n : Option Net) (l : Layer)
    (s : LayerSide) (ht : isDesignator t) (hu : u.name = t.name) :
    (Elem.pad p).eq (.pad { p with net := n }) = true ∧
    (Elem.layer l : Elem F).eq (.layer { l with side := s }) = true ∧
    (Elem.pad p).eq (.pad { p with layers := p.layers.map fun l => { l with side := s } }) = true ∧
    (Elem.text t).eq (.text u) = true := by
  simp only [C25_eq_iff_shape]
  refine ⟨by simp [shapeOf], by simp [shapeOf, anySide], by simp [shapeOf, anySide], ?_⟩
  have hu' : isDesignator u := by unfold isDesignator at *; rw [hu]; exact ht
  simp [shapeOf, ht, hu', hu, FpText.new]

example : ∃ t u : FpText Nm, isDesignator t ∧ u.name = t.name ∧ t ≠ u :=
  ⟨FpText.new (str! "value") (str! "a"), FpText.new (str! "value") (str! "b"), by decide⟩

/-- Any other difference in a pad makes it different: equal pads have the same
name, type, shape, size, place, drill and margins. -/
theorem C25_pad_distinguishes [EqLaws F] (p r : Pad F) (h : (Elem.pad p).eq (.pad r) = true) :
    p.name = r.name ∧ p.t = r.t ∧ p.shape = r.shape ∧ p.size = r.size ∧ p.at_ = r.at_ ∧
    p.drill = r.drill ∧ p.rectDelta = r.rectDelta ∧ p.zoneConnect = r.zoneConnect ∧
    p.solderPasteMargin = r.solderPasteMargin ∧ p.solderMaskMargin = r.solderMaskMargin ∧
    p.clearance = r.clearance ∧ p.thermalGap = r.thermalGap := by
  rw [C25_eq_iff_shape] at h
  simp only [shapeOf, Elem.pad.injEq, Pad.mk.injEq] at h
  obtain ⟨h1, h2, h3, h4, h5, h6, h7, h8, h9, h10, h11, h12, h13, h14⟩ := h
  exact ⟨h1, h2, h3, h4, h6, h10, h5, h9, h11, h12, h13, h14⟩

example : ∃ p r : Pad Nm, (Elem.pad p).eq (.pad r) = true ∧ p ≠ r :=
  ⟨Pad.new (str! "1") .smd .rect, { Pad.new (str! "1") .smd .rect with net := some ⟨1, []⟩ },
    by decide⟩

end Verif
