import Verif.Spec.Box
import Verif.Lemmas.Flt
import Verif.Basic.Nm
/-!
# C49: bounding boxes form a union algebra
-/

namespace Verif
open Flt Spec

variable {F : Type} [Flt F]

/-- `update` is associative, without any condition. -/
theorem C49_update_assoc [OrdLaws F] (a b c : Bound F) :
    (a.update b).update c = a.update (b.update c) := by
  obtain ⟨_, _, _, _, ab⟩ := a
  obtain ⟨_, _, _, _, bb⟩ := b
  obtain ⟨_, _, _, _, cb⟩ := c
  cases ab <;> cases bb <;> cases cb <;>
    simp [Bound.update, fmin_assoc, fmax_assoc]

example : ((Bound.new ⟨1⟩ ⟨2⟩ ⟨3⟩ ⟨4⟩ : Bound Nm).update (Bound.new ⟨0⟩ ⟨5⟩ ⟨1⟩ ⟨9⟩)) =
    Bound.new ⟨0⟩ ⟨2⟩ ⟨3⟩ ⟨9⟩ := by decide

/-- `update` is commutative as soon as one of the boxes is bounded. -/
theorem C49_update_comm [OrdLaws F] (a b : Bound F)
    (h : a.isBounded = true ∨ b.isBounded = true) : a.update b = b.update a := by
  obtain ⟨_, _, _, _, ab⟩ := a
  obtain ⟨_, _, _, _, bb⟩ := b
  cases ab <;> cases bb <;> simp_all [Bound.update]
  exact ⟨fmin_comm _ _, fmin_comm _ _, fmax_comm _ _, fmax_comm _ _⟩

example : ∃ a b : Bound Nm, (a.isBounded = true ∨ b.isBounded = true) ∧ a ≠ b :=
  ⟨Bound.new ⟨1⟩ ⟨2⟩ ⟨3⟩ ⟨4⟩, Bound.dflt, by decide⟩

/-- `update` is idempotent, also after further updates. -/
theorem C49_update_idem [OrdLaws F] (a b : Bound F) : (a.update b).update b = a.update b := by
  rw [C49_update_assoc]
  congr 1
  obtain ⟨_, _, _, _, bb⟩ := b
  cases bb <;> simp [Bound.update, fmin_self, fmax_self]

/-- The default box is a neutral element (on the left for bounded boxes; an
unbounded box adds nothing). -/
theorem C49_default_neutral (b u : Bound F) (hu : u.isBounded = false) :
    b.update u = b ∧ (b.isBounded = true → u.update b = b) ∧
    (Bound.dflt : Bound F).isBounded = false := by
  obtain ⟨_, _, _, _, ub⟩ := u
  obtain ⟨_, _, _, _, bb⟩ := b
  cases ub <;> cases bb <;> simp_all [Bound.update, Bound.dflt]

example : (Bound.dflt : Bound Nm).isBounded = false := rfl

/-- The union contains every point of both boxes. -/
theorem C49_update_contains [OrdLaws F] (a b : Bound F) (x y : F)
    (h : Inside a x y ∨ Inside b x y) : Inside (a.update b) x y := by
  have T := @OrdLaws.le_trans F _ _
  obtain ⟨_, _, _, _, ab⟩ := a
  obtain ⟨_, _, _, _, bb⟩ := b
  cases ab <;> cases bb <;> simp_all [Bound.update, Inside]
  rcases h with ⟨h1, h2, h3, h4⟩ | ⟨h1, h2, h3, h4⟩
  · exact ⟨T _ _ _ (fmin_le_left _ _) h1, T _ _ _ h2 (le_fmax_left _ _),
      T _ _ _ (fmin_le_left _ _) h3, T _ _ _ h4 (le_fmax_left _ _)⟩
  · exact ⟨T _ _ _ (fmin_le_right _ _) h1, T _ _ _ h2 (le_fmax_right _ _),
      T _ _ _ (fmin_le_right _ _) h3, T _ _ _ h4 (le_fmax_right _ _)⟩

example : Inside (Bound.new ⟨1⟩ ⟨2⟩ ⟨3⟩ ⟨4⟩ : Bound Nm) ⟨2⟩ ⟨3⟩ := by
  unfold Inside; decide

/-- The union is the smallest box around both: for bounded boxes, a box encloses
the union exactly when it encloses both. -/
theorem C49_update_least [OrdLaws F] (a b c : Bound F) (ha : a.isBounded = true)
    (hb : b.isBounded = true) :
    (a.update b).isBounded = true ∧
    (Encloses c (a.update b) ↔ Encloses c a ∧ Encloses c b) := by
  have T := @OrdLaws.le_trans F _ _
  simp only [Bound.update, ha, hb, Encloses, Bool.not_true, if_true, if_false,
    Bool.false_eq_true, true_and]
  constructor
  · rintro ⟨h1, h2, h3, h4⟩
    exact ⟨⟨T _ _ _ h1 (fmin_le_left _ _), T _ _ _ h2 (fmin_le_left _ _),
        T _ _ _ (le_fmax_left _ _) h3, T _ _ _ (le_fmax_left _ _) h4⟩,
      ⟨T _ _ _ h1 (fmin_le_right _ _), T _ _ _ h2 (fmin_le_right _ _),
        T _ _ _ (le_fmax_right _ _) h3, T _ _ _ (le_fmax_right _ _) h4⟩⟩
  · rintro ⟨⟨a1, a2, a3, a4⟩, b1, b2, b3, b4⟩
    exact ⟨le_fmin a1 b1, le_fmin a2 b2, fmax_le a3 b3, fmax_le a4 b4⟩

example : Encloses (Bound.new ⟨0⟩ ⟨0⟩ ⟨9⟩ ⟨9⟩ : Bound Nm) (Bound.new ⟨1⟩ ⟨2⟩ ⟨3⟩ ⟨4⟩) := by
  unfold Encloses; decide

/-- `swap_if_needed` gives an upright box with the same extent in both
directions, and does nothing to an upright box. -/
theorem C49_swap_upright [MonoLaws F] (b : Bound F) :
    Upright b.swapIfNeeded ∧
    ((b.swapIfNeeded.x1 = b.x1 ∧ b.swapIfNeeded.x2 = b.x2) ∨
      (b.swapIfNeeded.x1 = b.x2 ∧ b.swapIfNeeded.x2 = b.x1)) ∧
    ((b.swapIfNeeded.y1 = b.y1 ∧ b.swapIfNeeded.y2 = b.y2) ∨
      (b.swapIfNeeded.y1 = b.y2 ∧ b.swapIfNeeded.y2 = b.y1)) ∧
    b.swapIfNeeded.isBounded = b.isBounded ∧
    b.swapIfNeeded.width = b.width ∧ b.swapIfNeeded.height = b.height ∧
    (Upright b → b.swapIfNeeded = b) := by
  obtain ⟨x1, y1, x2, y2, bb⟩ := b
  simp only [Bound.swapIfNeeded, Upright, Bound.width, Bound.height]
  by_cases hx : lt x2 x1 = true <;> by_cases hy : lt y2 y1 = true <;>
    simp [hx, hy, Flt.le_of_lt, Flt.le_of_not_lt, MonoLaws.abs_sub_comm x2 x1,
      MonoLaws.abs_sub_comm y2 y1]
  · rw [OrdLaws.lt_eq] at hx hy; simp_all
  · rw [OrdLaws.lt_eq] at hx; simp_all
  · rw [OrdLaws.lt_eq] at hy; simp_all

example : (Bound.new ⟨3⟩ ⟨2⟩ ⟨1⟩ ⟨4⟩ : Bound Nm).swapIfNeeded = Bound.new ⟨1⟩ ⟨2⟩ ⟨3⟩ ⟨4⟩ := by
  decide

/-- Width and height are never negative, whichever way round the corners are. -/
theorem C49_extent_nonneg [MonoLaws F] (b : Bound F) :
    le zero b.width = true ∧ le zero b.height = true ∧
    (b.x1 = b.x2 → b.width = zero) ∧ (b.y1 = b.y2 → b.height = zero) := by
  refine ⟨MonoLaws.abs_nonneg _, MonoLaws.abs_nonneg _, ?_, ?_⟩ <;> intro h <;>
    simp [Bound.width, Bound.height, h, MonoLaws.sub_self, MonoLaws.abs_zero]

end Verif
