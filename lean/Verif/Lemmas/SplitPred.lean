import Verif.Basic.Str
/-!
# Splitting at a character
-/

namespace Verif

theorem splitPred_none (p : Char → Bool) (s : Str) (h : ∀ c ∈ s, p c = false) :
    splitPred p s = [s] := by
  induction s with
  | nil => rfl
  | cons c s ih =>
    rw [List.forall_mem_cons] at h
    simp [splitPred, h.1, ih h.2]

theorem splitPred_cons (p : Char → Bool) (a b : Str) (c : Char) (ha : ∀ c ∈ a, p c = false)
    (hc : p c = true) : splitPred p (a ++ c :: b) = a :: splitPred p b := by
  induction a with
  | nil => simp [splitPred, hc]
  | cons x a ih =>
    rw [List.forall_mem_cons] at ha
    simp [splitPred, ha.1, ih ha.2]

theorem splitPred_ne_nil (p : Char → Bool) (s : Str) : splitPred p s ≠ [] := by
  cases s with
  | nil => simp [splitPred]
  | cons c s =>
    simp only [splitPred]
    split
    · simp
    · split <;> simp

/-- A text either has no separator or splits into what is before and after the
first one. -/
theorem splitPred_cases (p : Char → Bool) (s : Str) :
    (∀ c ∈ s, p c = false) ∨ ∃ a c b, s = a ++ c :: b ∧ p c = true ∧ ∀ c ∈ a, p c = false := by
  induction s with
  | nil => left; simp
  | cons x s ih =>
    by_cases hx : p x = true
    · right; exact ⟨[], x, s, rfl, hx, by simp⟩
    · have hx' : p x = false := by simpa using hx
      rcases ih with h | ⟨a, c, b, h1, h2, h3⟩
      · left; simpa [hx'] using h
      · right; exact ⟨x :: a, c, b, by simp [h1], h2, by simpa [hx'] using h3⟩

theorem splitPred_pieces (p : Char → Bool) (s : Str) : ∀ w ∈ splitPred p s, ∀ c ∈ w, p c = false := by
  induction s with
  | nil => simp [splitPred]
  | cons x s ih =>
    by_cases hx : p x = true
    · simpa [splitPred, hx] using ih
    · have hx' : p x = false := by simpa using hx
      simp only [splitPred, hx', Bool.false_eq_true, if_false]
      split
      · simp [hx']
      · rename_i w ws heq
        rw [heq] at ih
        intro u hu
        rcases List.mem_cons.1 hu with rfl | hu
        · intro c hc
          rcases List.mem_cons.1 hc with rfl | hc
          · exact hx'
          · exact ih w (by simp) c hc
        · exact ih u (by simp [hu])

end Verif
