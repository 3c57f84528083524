import Verif.Lemmas.Flt
/-!
# Exact arithmetic lemmas
-/

namespace Verif.Flt.Exact
open Verif.Flt
variable {F : Type} [Flt F] [ExactLaws F]

theorem zero_add (a : F) : add zero a = a := by
  rw [ExactLaws.add_comm, MonoLaws.add_zero]

theorem neg_add (a : F) : add (neg a) a = zero := by
  rw [ExactLaws.add_comm, ExactLaws.add_neg]

theorem add_neg_cancel_right (a b : F) : add (add a b) (neg b) = a := by
  rw [ExactLaws.add_assoc, ExactLaws.add_neg, MonoLaws.add_zero]

theorem neg_add_cancel_right (a b : F) : add (add a (neg b)) b = a := by
  rw [ExactLaws.add_assoc, neg_add, MonoLaws.add_zero]

theorem add_right_cancel {a b c : F} (h : add a c = add b c) : a = b := by
  have := congrArg (fun x => add x (neg c)) h
  simpa [add_neg_cancel_right] using this

theorem neg_neg (a : F) : neg (neg a) = a := by
  apply add_right_cancel (c := neg a)
  rw [neg_add, ExactLaws.add_neg]

theorem neg_zero : neg (zero : F) = zero := by
  have := ExactLaws.add_neg (zero : F)
  rwa [zero_add] at this

theorem sub_zero (a : F) : sub a zero = a := by
  rw [ExactLaws.sub_eq, neg_zero, MonoLaws.add_zero]

theorem neg_add_rev (a b : F) : neg (add a b) = add (neg a) (neg b) := by
  apply add_right_cancel (c := add a b)
  rw [neg_add, ExactLaws.add_comm a b, ← ExactLaws.add_assoc, neg_add_cancel_right, neg_add]

theorem sub_sub_self (c a : F) : sub c (sub c a) = a := by
  simp only [ExactLaws.sub_eq, neg_add_rev, neg_neg]
  rw [← ExactLaws.add_assoc, ExactLaws.add_neg, zero_add]

theorem le_iff_sub_nonneg (a b : F) : le a b = true ↔ le zero (sub b a) = true := by
  constructor
  · intro h
    have := MonoLaws.sub_mono _ _ a h
    rwa [MonoLaws.sub_self] at this
  · intro h
    have := MonoLaws.add_mono _ _ a h
    rwa [zero_add, ExactLaws.sub_eq, neg_add_cancel_right] at this

theorem le_add_iff (a b c : F) : le (add a c) (add b c) = true ↔ le a b = true := by
  constructor
  · intro h
    have := MonoLaws.add_mono _ _ (neg c) h
    simpa [add_neg_cancel_right] using this
  · exact MonoLaws.add_mono _ _ _

theorem add_add_sub_comm (a b c d : F) : sub (add a b) (add c d) = add (sub a c) (sub b d) := by
  simp only [ExactLaws.sub_eq, neg_add_rev]
  rw [ExactLaws.add_assoc, ExactLaws.add_assoc]
  congr 1
  rw [← ExactLaws.add_assoc b, ExactLaws.add_comm b, ExactLaws.add_assoc]

theorem add_sub_add_right (a b c : F) : sub (add a c) (add b c) = sub a b := by
  rw [add_add_sub_comm, MonoLaws.sub_self, MonoLaws.add_zero]

theorem fmin_add (a b c : F) : fmin (add a c) (add b c) = add (fmin a b) c := by
  simp only [OrdLaws.min_eq, le_add_iff]
  split <;> rfl

theorem fmax_add (a b c : F) : fmax (add a c) (add b c) = add (fmax a b) c := by
  simp only [OrdLaws.max_eq, le_add_iff]
  split <;> rfl

theorem lt_add_iff (a b c : F) : lt (add a c) (add b c) = lt a b := by
  simp only [OrdLaws.lt_eq]
  have := le_add_iff b a c
  cases h1 : le (add b c) (add a c) <;> cases h2 : le b a <;> simp_all

theorem sub_add_cancel (a b : F) : add (sub a b) b = a := by
  rw [ExactLaws.sub_eq, neg_add_cancel_right]

theorem add_sub_cancel (a b : F) : sub (add a b) b = a := by
  rw [ExactLaws.sub_eq, add_neg_cancel_right]

theorem lt_of_lt_of_le {a b c : F} (h1 : lt a b = true) (h2 : le b c = true) : lt a c = true := by
  rw [OrdLaws.lt_eq] at *
  cases h : le c a
  · rfl
  · rw [OrdLaws.le_trans _ _ _ h2 h] at h1; exact h1

theorem lt_of_le_of_lt {a b c : F} (h1 : le a b = true) (h2 : lt b c = true) : lt a c = true := by
  rw [OrdLaws.lt_eq] at *
  cases h : le c a
  · rfl
  · rw [OrdLaws.le_trans _ _ _ h h1] at h2; exact h2

theorem le_sub_iff (a b c : F) : le a (sub b c) = true ↔ le (add a c) b = true := by
  rw [← le_add_iff _ _ c, sub_add_cancel]

theorem lt_sub_iff (a b c : F) : lt a (sub b c) = lt (add a c) b := by
  rw [← lt_add_iff _ _ c, sub_add_cancel]

theorem sub_lt_iff (a b c : F) : lt (sub a c) b = lt a (add b c) := by
  rw [← lt_add_iff _ _ c, sub_add_cancel]

theorem not_lt_of_le {a b : F} (h : le a b = true) : lt b a = false := by
  rw [OrdLaws.lt_eq, h]; rfl

theorem not_le_of_lt {a b : F} (h : lt a b = true) : le b a = false := by
  rw [OrdLaws.lt_eq] at h; simpa using h

theorem add_le_add_left {a b : F} (c : F) (h : le a b = true) : le (add c a) (add c b) = true := by
  rw [ExactLaws.add_comm c, ExactLaws.add_comm c]; exact MonoLaws.add_mono _ _ _ h

end Verif.Flt.Exact
