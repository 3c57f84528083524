import Verif.Lemmas.Lines
/-!
# Lemmas: the lines of a text that is cut off
-/

namespace Verif
open Spec

theorem stripCr_or (l : Str) : stripCr l = l ∨ l = stripCr l ++ ['\r'] := by
  induction l with
  | nil => exact Or.inl rfl
  | cons c l ih =>
    by_cases h : c = '\r' ∧ l = []
    · obtain ⟨rfl, rfl⟩ := h
      exact Or.inr rfl
    · rw [stripCr]
      · rcases ih with ih | ih
        · exact Or.inl (by rw [ih])
        · exact Or.inr (by rw [List.cons_append, ← ih])
      · intro h1 h2
        exact h ⟨h1, h2⟩

theorem linesAux_first (cur r : Str) (hc : cur ≠ []) :
    ∃ y more, linesAux cur r = y :: more ∧ (cur.reverse <+: y ∨ cur.reverse = y ++ ['\r']) := by
  induction r generalizing cur with
  | nil =>
    refine ⟨cur.reverse, [], ?_, Or.inl (List.prefix_refl _)⟩
    cases cur with
    | nil => exact absurd rfl hc
    | cons => rfl
  | cons c r ih =>
    rw [linesAux]
    split
    · refine ⟨_, _, rfl, ?_⟩
      rcases stripCr_or cur.reverse with h | h
      · rw [h]; exact Or.inl (List.prefix_refl _)
      · exact Or.inr h
    · obtain ⟨y, more, hy, h⟩ := ih (c :: cur) (by simp)
      refine ⟨y, more, hy, Or.inl ?_⟩
      rw [List.reverse_cons] at h
      rcases h with h | h
      · exact (List.prefix_append _ _).trans h
      · rw [(List.append_inj' h rfl).1]; exact List.prefix_refl _

theorem linesAux_cut (cur p r : Str) :
    linesAux cur (p ++ r) = linesAux cur p ++ lines r ∨
    ∃ a x y more, linesAux cur p = a ++ [x] ∧ x ≠ [] ∧ linesAux cur (p ++ r) = a ++ y :: more ∧
      (x <+: y ∨ x = y ++ ['\r']) := by
  induction p generalizing cur with
  | nil =>
    cases cur with
    | nil => exact Or.inl rfl
    | cons c cur =>
      right
      obtain ⟨y, more, hy, h⟩ := linesAux_first (c :: cur) r (by simp)
      exact ⟨[], (c :: cur).reverse, y, more, rfl, by simp, hy, h⟩
  | cons c p ih =>
    rw [List.cons_append, linesAux, linesAux]
    split
    · rcases ih [] with h | ⟨a, x, y, more, h1, h2, h3, h4⟩
      · exact Or.inl (by rw [h]; rfl)
      · exact Or.inr ⟨_ :: a, x, y, more, by rw [h1]; rfl, h2, by rw [h3]; rfl, h4⟩
    · exact ih (c :: cur)

/-- The lines of a text of which the beginning is left: the same lines, except that the last
one may be shorter or may end in the carriage return of its line end. -/
theorem lines_cut (p r : Str) :
    lines (p ++ r) = lines p ++ lines r ∨
    ∃ a x y more, lines p = a ++ [x] ∧ x ≠ [] ∧ lines (p ++ r) = a ++ y :: more ∧ (x <+: y ∨ x = y ++ ['\r']) :=
  linesAux_cut [] p r

theorem linesAux_take (cur t : Str) (k : Nat) :
    ∃ p r, t = p ++ r ∧ linesAux cur p = (linesAux cur t).take (k + 1) := by
  induction t generalizing cur k with
  | nil =>
    refine ⟨[], [], rfl, ?_⟩
    cases cur <;> simp [linesAux]
  | cons c t ih =>
    by_cases hc : c = '\n'
    · cases k with
      | zero => exact ⟨[c], t, rfl, by simp [linesAux, hc]⟩
      | succ k =>
        obtain ⟨p, r, rfl, h⟩ := ih [] k
        exact ⟨c :: p, r, rfl, by simp [linesAux, hc, h]⟩
    · obtain ⟨p, r, rfl, h⟩ := ih (c :: cur) k
      exact ⟨c :: p, r, rfl, by simp [linesAux, hc, h]⟩

/-- A text can be cut after each of its lines. -/
theorem lines_take (t : Str) (a b : List Str) (h : lines t = a ++ b) : ∃ p r, t = p ++ r ∧ lines p = a := by
  cases a with
  | nil => exact ⟨[], t, rfl, rfl⟩
  | cons x a =>
    obtain ⟨p, r, h1, h2⟩ := linesAux_take [] t a.length
    refine ⟨p, r, h1, ?_⟩
    show linesAux [] p = _
    rw [h2, show linesAux [] t = x :: a ++ b from h]
    simp

/-- The line feed at the end of the last line makes no difference. -/
theorem lines_open (t l : Str) (hl : l ≠ []) (h : OneLine l) : lines (t ++ l) = lines (t ++ l ++ ['\n']) := by
  have last : ∀ (l cur : Str), cur.reverse ++ l ≠ [] → '\n' ∉ l → EndsLine (cur.reverse ++ l) →
      linesAux cur l = linesAux cur (l ++ ['\n']) := by
    intro l
    induction l with
    | nil =>
      intro cur h1 _ h3
      rw [List.append_nil] at h1 h3
      cases cur with
      | nil => exact absurd rfl h1
      | cons c cur =>
        rw [List.nil_append, linesAux, linesAux, if_pos rfl, stripCr_id _ h3]
        rfl
    | cons c l ih =>
      intro cur h1 h2 h3
      rw [List.mem_cons, not_or] at h2
      rw [List.cons_append, linesAux, linesAux, if_neg (fun e => h2.1 e.symm), if_neg (fun e => h2.1 e.symm)]
      exact ih (c :: cur) (by simp) h2.2 (by simpa using h3)
  unfold lines
  suffices hs : ∀ (t cur : Str), (EndsLine l → EndsLine (cur.reverse ++ l)) → linesAux cur (t ++ l) = linesAux cur (t ++ l ++ ['\n']) by
    exact hs t [] (fun h => h)
  intro t
  induction t with
  | nil =>
    intro cur hc
    exact last l cur (by simp [hl]) h.1 (hc h.2)
  | cons c t ih =>
    intro cur hc
    rw [List.cons_append, List.cons_append, linesAux, linesAux]
    split
    · rw [ih [] (fun h => h)]
    · refine ih (c :: cur) fun he => ?_
      unfold EndsLine at he ⊢
      rw [List.getLast?_append]
      cases hg : l.getLast? with
      | none => exact absurd (List.getLast?_eq_none_iff.1 hg) hl
      | some z => rw [hg] at he; exact he

end Verif
