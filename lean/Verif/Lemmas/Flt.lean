import Verif.Basic.Flt
/-!
# Order lemmas for the abstract number type
-/

namespace Verif.Flt
variable {F : Type} [Flt F]

section
variable [OrdLaws F]

theorem fmin_le_left (a b : F) : le (fmin a b) a = true := by
  rw [OrdLaws.min_eq]
  split
  · exact OrdLaws.le_refl a
  · rename_i h
    rcases OrdLaws.le_total a b with h' | h'
    · exact absurd h' h
    · exact h'

theorem fmin_le_right (a b : F) : le (fmin a b) b = true := by
  rw [OrdLaws.min_eq]
  split
  · assumption
  · exact OrdLaws.le_refl b

theorem le_fmax_left (a b : F) : le a (fmax a b) = true := by
  rw [OrdLaws.max_eq]
  split
  · assumption
  · exact OrdLaws.le_refl a

theorem le_fmax_right (a b : F) : le b (fmax a b) = true := by
  rw [OrdLaws.max_eq]
  split
  · exact OrdLaws.le_refl b
  · rename_i h
    rcases OrdLaws.le_total a b with h' | h'
    · exact absurd h' h
    · exact h'

theorem le_fmin {a b c : F} (h1 : le c a = true) (h2 : le c b = true) : le c (fmin a b) = true := by
  rw [OrdLaws.min_eq]; split <;> assumption

theorem fmax_le {a b c : F} (h1 : le a c = true) (h2 : le b c = true) : le (fmax a b) c = true := by
  rw [OrdLaws.max_eq]; split <;> assumption

theorem fmin_comm (a b : F) : fmin a b = fmin b a :=
  OrdLaws.le_antisymm _ _ (le_fmin (fmin_le_right a b) (fmin_le_left a b))
    (le_fmin (fmin_le_right b a) (fmin_le_left b a))

theorem fmax_comm (a b : F) : fmax a b = fmax b a :=
  OrdLaws.le_antisymm _ _ (fmax_le (le_fmax_right b a) (le_fmax_left b a))
    (fmax_le (le_fmax_right a b) (le_fmax_left a b))

theorem fmin_assoc (a b c : F) : fmin (fmin a b) c = fmin a (fmin b c) := by
  have T := @OrdLaws.le_trans F _ _
  refine OrdLaws.le_antisymm _ _ (le_fmin ?_ (le_fmin ?_ (fmin_le_right _ _)))
    (le_fmin (le_fmin (fmin_le_left _ _) ?_) ?_)
  · exact T _ _ _ (fmin_le_left _ _) (fmin_le_left _ _)
  · exact T _ _ _ (fmin_le_left _ _) (fmin_le_right _ _)
  · exact T _ _ _ (fmin_le_right _ _) (fmin_le_left _ _)
  · exact T _ _ _ (fmin_le_right _ _) (fmin_le_right _ _)

theorem fmax_assoc (a b c : F) : fmax (fmax a b) c = fmax a (fmax b c) := by
  have T := @OrdLaws.le_trans F _ _
  refine OrdLaws.le_antisymm _ _ (fmax_le (fmax_le (le_fmax_left _ _) ?_) ?_)
    (fmax_le ?_ (fmax_le ?_ (le_fmax_right _ _)))
  · exact T _ _ _ (le_fmax_left _ _) (le_fmax_right _ _)
  · exact T _ _ _ (le_fmax_right _ _) (le_fmax_right _ _)
  · exact T _ _ _ (le_fmax_left _ _) (le_fmax_left _ _)
  · exact T _ _ _ (le_fmax_right _ _) (le_fmax_left _ _)

theorem fmin_self (a : F) : fmin a a = a := by rw [OrdLaws.min_eq]; simp
theorem fmax_self (a : F) : fmax a a = a := by rw [OrdLaws.max_eq]; simp

theorem le_of_lt {a b : F} (h : lt a b = true) : le a b = true := by
  rw [OrdLaws.lt_eq] at h
  rcases OrdLaws.le_total a b with h' | h'
  · exact h'
  · simp [h'] at h

theorem le_of_not_lt {a b : F} (h : lt a b ≠ true) : le b a = true := by
  rw [OrdLaws.lt_eq] at h
  simpa using h

end

section
variable [ZeroLaws F]

@[simp] theorem feq_zero_zero : feq (zero : F) zero = true := (ZeroLaws.feq_zero _).2 rfl

theorem eq_zero {a : F} (h : feq a zero = true) : a = zero := (ZeroLaws.feq_zero a).1 h

end

section
variable [EqLaws F]

theorem feq_refl (a : F) : feq a a = true := (EqLaws.feq_iff a a).2 rfl

theorem feq_eq {a b : F} (h : feq a b = true) : a = b := (EqLaws.feq_iff a b).1 h

end

end Verif.Flt
