import Verif.Spec.Footprint
import Verif.Lemmas.Exact
import Verif.Basic.Nm
/-!
# C23: flipping a footprint
-/

namespace Verif
open Flt Fp Spec

variable {F : Type} [Flt F]

theorem Fp.side_flip (s : LayerSide) : s.flip = otherSide s := by cases s <;> rfl

theorem Fp.layer_flip_flip (l : Layer) : l.flip.flip = l := by
  obtain ⟨s, t⟩ := l
  cases s <;> rfl

theorem Fp.layers_flip_flip (l : List Layer) : (l.map Layer.flip).map Layer.flip = l := by
  induction l <;> simp_all [layer_flip_flip]

theorem Fp.xy_flip_flip [ExactLaws F] (p : Xy F) : p.flip.flip = p := by
  simp [Xy.flip, Exact.neg_neg]

theorem Fp.pts_flip_flip [ExactLaws F] (l : List (Xy F)) : (l.map Xy.flip).map Xy.flip = l := by
  induction l with
  | nil => rfl
  | cons a l ih => rw [List.map_cons, List.map_cons, ih, xy_flip_flip]

theorem Fp.at_flip_flip [ExactLaws F] (a : At F) : a.flip.flip = a := by
  simp [At.flip, Exact.neg_neg, Exact.sub_sub_self]

/-- A flip loses the justification unless it is "none" or "mirror". -/
theorem Fp.elem_flip_flip [ExactLaws F] (e : Elem F) :
    e.flip.flip = e ↔ justify? e ≠ some .left ∧ justify? e ≠ some .right := by
  cases e with
  | text t =>
    obtain ⟨n, v, a, l, ⟨f, j⟩, h⟩ := t
    rcases j with _ | ⟨_ | _ | _⟩ <;>
      simp [Elem.flip, FpText.flip, Effects.flip, at_flip_flip, layer_flip_flip, justify?]
  | pad p =>
    simp [Elem.flip, Pad.flip, at_flip_flip, justify?, Function.comp_def, layer_flip_flip]
  | poly p =>
    simp [Elem.flip, FpPoly.flip, layer_flip_flip, justify?, Function.comp_def, xy_flip_flip]
  | line p => simp [Elem.flip, FpLine.flip, layer_flip_flip, justify?, xy_flip_flip]
  | circle p => simp [Elem.flip, FpCircle.flip, layer_flip_flip, justify?, xy_flip_flip]
  | arc p => simp [Elem.flip, FpArc.flip, layer_flip_flip, justify?, xy_flip_flip]
  | at_ p => simp [Elem.flip, at_flip_flip, justify?]
  | layer p => simp [Elem.flip, layer_flip_flip, justify?]
  | _ => simp [Elem.flip, justify?]

/-- Flipping twice restores the footprint exactly when no text is left- or
right-justified.  (The full claim, without that condition, is false:
`C23_flip_twice_fails`.) -/
theorem C23_flip_twice_partial [ExactLaws F] (m : Module F) :
    m.flip.flip = m ↔
      ∀ e ∈ m.elements, justify? e ≠ some .left ∧ justify? e ≠ some .right := by
  obtain ⟨n, es⟩ := m
  simp only [Module.flip, Module.mk.injEq, true_and, List.map_map]
  induction es with
  | nil => simp
  | cons e es ih =>
    simp only [List.map_cons, Function.comp_apply, List.cons.injEq, elem_flip_flip, ih,
      List.forall_mem_cons]

example : ∃ m : Module Nm, m.elements ≠ [] ∧
    (∀ e ∈ m.elements, justify? e ≠ some .left ∧ justify? e ≠ some .right) ∧ m.flip ≠ m :=
  ⟨⟨[], [.text { FpText.new [] [] with effects := ⟨Font.dflt, some .mirror⟩ }]⟩, by decide⟩

/-- A left-justified text is not restored: it ends up without justification. -/
theorem C23_flip_twice_fails : ∃ m : Module Nm, m.flip.flip ≠ m :=
  ⟨⟨[], [.text { FpText.new [] [] with effects := ⟨Font.dflt, some .left⟩ }]⟩, by decide⟩

/-- One flip moves every element to the other board side, mirrors its points at
the horizontal axis, toggles "mirror" of justification-free texts, and touches
nothing else; elements keep their order. -/
theorem C23_flip_mirrors (m : Module F) :
    m.flip.name = m.name ∧
    m.flip.elements.length = m.elements.length ∧
    ∀ (i : Nat) (e : Elem F), m.elements[i]? = some e → ∃ e' : Elem F, m.flip.elements[i]? = some e' ∧
      sides e' = (sides e).map otherSide ∧
      points e' = (points e).map (fun p => (p.1, neg p.2)) ∧
      eraseFlip e' = eraseFlip e ∧
      (∀ t, e = .text t → (t.effects.justify = none → justify? e' = some .mirror) ∧
        (t.effects.justify = some .mirror → justify? e' = none)) ∧
      (∀ a, placement? e = some a → ∃ a', placement? e' = some a' ∧
        a'.rot = sub (lit 360 0) a.rot) := by
  refine ⟨rfl, by simp [Module.flip], fun i e h => ⟨e.flip, by simp [Module.flip, h], ?_⟩⟩
  cases e with
  | text t =>
    obtain ⟨n, v, a, l, ⟨f, j⟩, h⟩ := t
    rcases j with _ | ⟨_ | _ | _⟩ <;>
    simp [Elem.flip, FpText.flip, sides, points, eraseFlip, anySide, Layer.flip, side_flip,
        At.flip, Effects.flip, justify?, placement?]
  | pad p =>
    simp [Elem.flip, Pad.flip, sides, points, eraseFlip, anySide, Layer.flip, side_flip,
        At.flip, placement?]
  | at_ p => simp [Elem.flip, sides, points, eraseFlip, At.flip, placement?]
  | _ =>
    simp [Elem.flip, FpPoly.flip, FpLine.flip, FpCircle.flip, FpArc.flip, sides, points,
      eraseFlip, anySide, Layer.flip, side_flip, Xy.flip, placement?]

theorem Fp.isFront_eq (m : Module F) (pre post : List (Elem F)) (l : Layer)
    (h : m.elements = pre ++ .layer l :: post) (hp : ∀ e ∈ pre, ∀ l, e ≠ .layer l) :
    m.isFront = decide (l.side = .front) := by
  obtain ⟨n, es⟩ := m
  subst h
  simp only [Module.isFront]
  induction pre with
  | nil => rfl
  | cons e es ih =>
    rw [List.forall_mem_cons] at hp
    have := ih hp.2
    cases e <;> simp_all

/-- A footprint on a copper side changes sides (its side is that of its first
layer element). -/
theorem C23_flip_is_front (m : Module F) (pre post : List (Elem F)) (l : Layer)
    (h : m.elements = pre ++ .layer l :: post) (hp : ∀ e ∈ pre, ∀ l, e ≠ .layer l)
    (hl : l.side = .front ∨ l.side = .back) : m.flip.isFront = !m.isFront := by
  rw [Fp.isFront_eq m pre post l h hp,
    Fp.isFront_eq m.flip (pre.map Elem.flip) (post.map Elem.flip) l.flip]
  · obtain ⟨s, t⟩ := l
    rcases hl with rfl | rfl <;> rfl
  · simp [Module.flip, h, Elem.flip]
  · intro e he l
    obtain ⟨e', he', rfl⟩ := List.mem_map.1 he
    cases e' with
    | layer l' => exact absurd rfl (hp _ he' l')
    | _ => simp [Elem.flip]

/-- `is_front` follows the first layer element; a footprint without one counts as
being on the front, and keeps doing so when it is flipped. -/
theorem C23_is_front (m : Module F) :
    (∀ pre l post, m.elements = pre ++ .layer l :: post → (∀ e ∈ pre, ∀ l, e ≠ .layer l) →
      (m.isFront = true ↔ l.side = .front)) ∧
    ((∀ e ∈ m.elements, ∀ l, e ≠ .layer l) → m.isFront = true ∧ m.flip.isFront = true) := by
  have key : ∀ m : Module F, (∀ e ∈ m.elements, ∀ l, e ≠ .layer l) → m.isFront = true := by
    rintro ⟨n, es⟩ h
    simp only [Module.isFront] at h ⊢
    induction es with
    | nil => rfl
    | cons e es ih =>
      rw [List.forall_mem_cons] at h
      have := ih h.2
      cases e <;> simp_all
  refine ⟨fun pre l post h hp => by rw [Fp.isFront_eq m pre post l h hp]; simp,
    fun h => ⟨key m h, key _ fun e he l => ?_⟩⟩
  obtain ⟨e', he', rfl⟩ := List.mem_map.1 he
  cases e' with
  | layer l' => exact absurd rfl (h _ he' l')
  | _ => simp [Elem.flip]

example : (⟨[], [.descr []]⟩ : Module Nm).isFront = true := ((C23_is_front _).2 (by simp)).1

example : ∃ m : Module Nm, m.isFront = true ∧ m.flip.isFront = false :=
  ⟨⟨[], [.layer ⟨.front, .cu⟩]⟩, by decide⟩

end Verif
