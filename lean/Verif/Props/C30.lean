import Verif.Props.C26
import Verif.Props.C29
import Verif.Lemmas.Exact
/-!
# C30: the generated courtyard
-/

namespace Verif
open Flt Fp Spec

variable {F : Type} [Flt F]

namespace Spec

/-- The clearance the courtyard rule asks for: 0.15 mm for footprints smaller
than 2 mm by 2 mm, 0.1 mm for larger ball grid arrays, 0.25 mm otherwise. -/
def clearance (m : Module F) : F :=
  if lt m.bound.width (lit 2 0) = true ∧ lt m.bound.height (lit 2 0) = true then lit 15 2
  else if (str! "BGA") <+: m.name then lit 1 1
  else lit 25 2

/-- The four lines of the rectangle with the given corners, drawn around the
outside on the front courtyard layer with a 0.05 mm pen. -/
def rectangle (x1 y1 x2 y2 : F) : List (Elem F) :=
  let seg (ax ay bx by_ : F) : Elem F :=
    .line ⟨⟨ax, ay, .start⟩, ⟨bx, by_, .end_⟩, ⟨.front, .crtYd⟩, lit 5 2⟩
  [seg x1 y1 x2 y1, seg x2 y1 x2 y2, seg x2 y2 x1 y2, seg x1 y2 x1 y1]

end Spec

theorem Fp.courtyardOffset_eq (m : Module F) : courtyardOffset m = clearance m := by
  simp only [courtyardOffset, clearance, startsWith, List.isPrefixOf_iff_prefix, Bool.and_eq_true]

/-- A footprint with fewer than four courtyard lines gets four more at the end,
and they form a rectangle (relative to the footprint position) whose sides keep
exactly the prescribed clearance from the bounding box. -/
theorem C30_courtyard_rectangle [ExactLaws F] (m : Module F) (cfg : Config F)
    (h : (courtyard m).length < 4) :
    ∃ (pre : List (Elem F)) (x1 y1 x2 y2 : F),
      (m.fix cfg).elements = pre ++ rectangle x1 y1 x2 y2 ∧
      add (add x1 (clearance m)) m.at_.1 = m.bound.x1 ∧
      add (add y1 (clearance m)) m.at_.2 = m.bound.y1 ∧
      add (sub x2 (clearance m)) m.at_.1 = m.bound.x2 ∧
      add (sub y2 (clearance m)) m.at_.2 = m.bound.y2 := by
  have up : Upright m.bound := inside_upright (C26_bound_covers_partial m).1
  have hx : ∀ a : F, le (sub m.bound.x1 a) (sub m.bound.x2 a) = true :=
    fun a => MonoLaws.sub_mono _ _ _ up.1
  have hy : ∀ a : F, le (sub m.bound.y1 a) (sub m.bound.y2 a) = true :=
    fun a => MonoLaws.sub_mono _ _ _ up.2
  refine ⟨keptElems cfg m ++ addedText cfg m ++ addedAttr m, (courtyardBox m).1,
    (courtyardBox m).2.1, (courtyardBox m).2.2.1, (courtyardBox m).2.2.2, ?_, ?_, ?_, ?_, ?_⟩
  · rw [← Fp.courtyardCount_eq] at h
    rw [fix_eq, addedLines, if_pos h]; rfl
  · simp only [courtyardBox, Fp.courtyardOffset_eq, OrdLaws.min_eq, hx, if_true,
      Exact.sub_add_cancel]
  · simp only [courtyardBox, Fp.courtyardOffset_eq, OrdLaws.min_eq, hy, if_true,
      Exact.sub_add_cancel]
  · simp only [courtyardBox, Fp.courtyardOffset_eq, OrdLaws.max_eq, hx, if_true,
      Exact.sub_add_cancel, Exact.add_sub_cancel]
  · simp only [courtyardBox, Fp.courtyardOffset_eq, OrdLaws.max_eq, hy, if_true,
      Exact.sub_add_cancel, Exact.add_sub_cancel]

/-- The clearance is never negative. -/
theorem C30_clearance_nonneg [MonoLaws F] (m : Module F) : le zero (clearance m) = true := by
  unfold clearance
  split
  · exact MonoLaws.lit_nonneg 15 2
  · split
    · exact MonoLaws.lit_nonneg 1 1
    · exact MonoLaws.lit_nonneg 25 2

/-- So the courtyard surrounds, with the prescribed clearance, every pad and
every fabrication polygon, circle and right-and-down line or arc (the ones the
bounding box covers, see C26). -/
theorem C30_courtyard_surrounds [ExactLaws F] (m : Module F) (cfg : Config F)
    (h : (courtyard m).length < 4) :
    ∃ (pre : List (Elem F)) (x1 y1 x2 y2 : F),
      (m.fix cfg).elements = pre ++ rectangle x1 y1 x2 y2 ∧
      ∀ e ∈ m.elements, Counts e → Oriented e → ∀ p ∈ extent e,
        le (add x1 (clearance m)) p.1 = true ∧ le p.1 (sub x2 (clearance m)) = true ∧
        le (add y1 (clearance m)) p.2 = true ∧ le p.2 (sub y2 (clearance m)) = true := by
  obtain ⟨pre, x1, y1, x2, y2, h0, h1, h2, h3, h4⟩ := C30_courtyard_rectangle m cfg h
  refine ⟨pre, x1, y1, x2, y2, h0, fun e he hc ho p hp => ?_⟩
  obtain ⟨_, i1, i2, i3, i4⟩ := (C26_bound_covers_partial m).2 e he hc ho p hp
  rw [← h1] at i1
  rw [← h2] at i3
  rw [← h3] at i2
  rw [← h4] at i4
  rw [Exact.le_add_iff] at i1 i2 i3 i4
  exact ⟨i1, i2, i3, i4⟩

example : ∃ m : Module Nm, (courtyard m).length < 4 ∧ (m.fix Config.klc).elements.length = 7 ∧
    m.elements.length = 1 :=
  ⟨⟨str! "R0805", [.pad (Pad.new (str! "1") .smd .rect)]⟩, by decide⟩

end Verif
