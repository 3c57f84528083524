import Verif.Spec.Layout
import Verif.Lemmas.Exact
import Verif.Basic.Nm
/-!
# C43: moving a layout
-/

set_option linter.unusedSectionVars false

namespace Verif
open Flt Spec Lay

variable {F : Type} [Flt F]

/-- Moving moves every board point of an element by the offset and changes
nothing else about it; in particular nets, net classes and unknown sections,
which have no points, are unchanged. -/
theorem C43_moves_points (x y : F) (e : Elem F) :
    boardPoints (e.adjust x y) = (boardPoints e).map (fun p => (add p.1 x, add p.2 y)) ∧
    eraseBoardPoints (e.adjust x y) = eraseBoardPoints e ∧
    ((∀ n, e = .net n → e.adjust x y = e) ∧ (∀ n, e = .netClass n → e.adjust x y = e) ∧
      (∀ s, e = .other s → e.adjust x y = e)) := by
  have L : ∀ l : List (Fp.Xy F), (adjPts x y l).map xyPair =
      (l.map xyPair).map (fun p => (add p.1 x, add p.2 y)) := by
    intro l; simp [adjPts, List.map_map, Function.comp_def, xyPair, adjXy]
  have E : ∀ l : List (Fp.Xy F), (adjPts x y l).map atOrigin = l.map atOrigin := by
    intro l; simp [adjPts, List.map_map, Function.comp_def, atOrigin, adjXy]
  have LL : ∀ l : List (List (Fp.Xy F)), (l.map (adjPts x y)).flatten = adjPts x y l.flatten := by
    intro l; simp only [adjPts, List.map_flatten]; rfl
  refine ⟨?_, ?_, ?_, ?_, ?_⟩
  · cases e with
    | module_ m =>
      obtain ⟨nm, es⟩ := m
      simp only [Elem.adjust, Fp.Module.adjust, boardPoints]
      induction es with
      | nil => rfl
      | cons e es ih => cases e <;> simp [Fp.Module.adjustElem, ownAt, List.filterMap_cons] <;> simpa using ih
    | zone z =>
      obtain ⟨⟩ := z
      rename_i fs _
      cases fs <;> simp [Elem.adjust, Zone.adjust, boardPoints, LL, L]
    | dimension d =>
      simp [Elem.adjust, Dimension.adjust, boardPoints, L, GrText.adjust, adjAt, atPair]
    | _ => simp [Elem.adjust, boardPoints, xyPair, adjXy, adjAt, atPair, GrText.adjust]
  · cases e with
    | module_ m =>
      obtain ⟨nm, es⟩ := m
      simp only [Elem.adjust, Fp.Module.adjust, eraseBoardPoints, List.map_map, Elem.module_.injEq,
        Fp.Module.mk.injEq, true_and]
      apply List.map_congr_left
      intro e _
      cases e <;> simp [Fp.Module.adjustElem, locOrigin]
    | zone z =>
      obtain ⟨⟩ := z
      rename_i fs _
      cases fs <;> simp [Elem.adjust, Zone.adjust, eraseBoardPoints, List.map_map, Function.comp_def, E]
    | dimension d =>
      simp [Elem.adjust, Dimension.adjust, eraseBoardPoints, E, GrText.adjust, adjAt, locOrigin]
    | _ => simp [Elem.adjust, eraseBoardPoints, atOrigin, adjXy, adjAt, locOrigin, GrText.adjust]
  · rintro n rfl; rfl
  · rintro n rfl; rfl
  · rintro n rfl; rfl

/-- Moving a layout moves each element and nothing outside the element list. -/
theorem C43_adjust_layout (l : Layout F) (x y : F) :
    (l.adjust x y).elements = l.elements.map (Elem.adjust x y) ∧
    { l.adjust x y with elements := l.elements } = l ∧
    (l.adjust x y).nets = l.nets ∧ (l.adjust x y).netclasses = l.netclasses := by
  refine ⟨rfl, rfl, ?_, ?_⟩ <;> simp only [Layout.adjust, Layout.nets, Layout.netclasses] <;>
    · generalize l.elements = es
      induction es with
      | nil => rfl
      | cons e es ih => cases e <;> simpa [Elem.adjust, List.filterMap_cons] using ih

theorem Lay.adjust_zero [MonoLaws F] (e : Elem F) : e.adjust zero zero = e := by
  have Z := @MonoLaws.add_zero F _ _
  have X : (adjXy zero zero : Fp.Xy F → Fp.Xy F) = id := by funext p; simp [adjXy, Z]
  have P : (adjPts zero zero : List (Fp.Xy F) → List (Fp.Xy F)) = id := by
    funext l; simp [adjPts, X]
  have A : (adjAt zero zero : Fp.At F → Fp.At F) = id := by funext p; simp [adjAt, Z]
  have M : (Fp.Module.adjustElem zero zero : Fp.Elem F → Fp.Elem F) = id := by
    funext e; cases e <;> simp [Fp.Module.adjustElem, Z]
  cases e with
  | zone z => obtain ⟨⟩ := z; simp [Elem.adjust, Zone.adjust, P]
  | _ => simp [Elem.adjust, Fp.Module.adjust, X, P, A, M, GrText.adjust, Dimension.adjust]

theorem Lay.adjust_adjust [ExactLaws F] (a b c d : F) (e : Elem F) :
    (e.adjust a b).adjust c d = e.adjust (add a c) (add b d) := by
  have Z := @ExactLaws.add_assoc F _ _
  have X : ∀ p : Fp.Xy F, adjXy c d (adjXy a b p) = adjXy (add a c) (add b d) p := by
    intro p; simp [adjXy, Z]
  have P : ∀ l : List (Fp.Xy F), adjPts c d (adjPts a b l) = adjPts (add a c) (add b d) l := by
    intro l; simp [adjPts, X]
  have A : ∀ p : Fp.At F, adjAt c d (adjAt a b p) = adjAt (add a c) (add b d) p := by
    intro p; simp [adjAt, Z]
  have M : ∀ e : Fp.Elem F, Fp.Module.adjustElem c d (Fp.Module.adjustElem a b e) =
      Fp.Module.adjustElem (add a c) (add b d) e := by
    intro e; cases e <;> simp [Fp.Module.adjustElem, Z]
  cases e with
  | zone z =>
    obtain ⟨⟩ := z
    rename_i fs _
    cases fs <;> simp [Elem.adjust, Zone.adjust, P]
  | _ => simp [Elem.adjust, Fp.Module.adjust, X, P, A, M, GrText.adjust, Dimension.adjust]

/-- Moving by zero changes nothing. -/
theorem C43_adjust_zero [MonoLaws F] (l : Layout F) : l.adjust zero zero = l := by
  have h : (Elem.adjust zero zero : Elem F → Elem F) = id := funext fun e => Lay.adjust_zero e
  simp [Layout.adjust, h]

/-- Two moves are one move by the sum, and a move back restores the layout
(exact arithmetic). -/
theorem C43_adjust_add [ExactLaws F] (l : Layout F) (a b c d : F) :
    (l.adjust a b).adjust c d = l.adjust (add a c) (add b d) ∧
    (l.adjust a b).adjust (neg a) (neg b) = l := by
  have h : ∀ c d, (l.adjust a b).adjust c d = l.adjust (add a c) (add b d) := by
    intro c d; simp [Layout.adjust, Lay.adjust_adjust]
  refine ⟨h c d, ?_⟩
  rw [h, ExactLaws.add_neg, ExactLaws.add_neg, C43_adjust_zero]

example : ((sampleBoard : Layout Nm).adjust ⟨10⟩ ⟨20⟩).elements.flatMap boardPoints =
    [(⟨3 * 1000000 + 10⟩, ⟨4 * 1000000 + 20⟩), (⟨1000000 + 10⟩, ⟨20⟩),
     (⟨5 * 1000000 + 10⟩, ⟨2 * 1000000 + 20⟩)] := by decide +kernel

end Verif
