import Verif.Lemmas.Formatter
/-!
# C34: the formatter's nesting is balanced
-/

namespace Verif
open Spec

namespace Fm

/-- State after the flags of `openList` are updated. -/
def openFlags (st : St) (ele : Str) : St :=
  let st := if ele = str! "module" then { st with seenModule := true }
    else if st.parentIs (str! "kicad_pcb") && st.seenModule then { st with seenModule := false }
    else st
  if !st.seenSegment && ele = str! "segment" then { st with seenSegment := true } else st

theorem openFlags_indent (st : St) (ele : Str) : (openFlags st ele).indent = st.indent := by
  simp only [openFlags]
  repeat' split
  all_goals rfl

theorem openFlags_stack (st : St) (ele : Str) : (openFlags st ele).stack = st.stack := by
  simp only [openFlags]
  repeat' split
  all_goals rfl

/-- The state after `openList`, in the two fields of interest. -/
theorem openList_state (st : St) (v : Option Sexp) :
    (openList st v).2.indent =
      (match wantAtom (openFlags st (headAtom v)) (headAtom v) with
        | some _ => st.indent + 1 | none => st.indent) ∧
    (openList st v).2.stack =
      (if (headAtom v).isEmpty then none
        else some (headAtom v, wantAtom (openFlags st (headAtom v)) (headAtom v))) :: st.stack := by
  have e1 : ∀ (p : Prop) [Decidable p] (a b : Str × St), (if p then a else b).2 = if p then a.2 else b.2 := by
    intro p _ a b; split <;> rfl
  rw [← openFlags_indent st (headAtom v), ← openFlags_stack st (headAtom v)]
  simp only [openList]
  generalize hele : headAtom v = ele
  have hfl : (if (!(if ele = str! "module" then (([] : Str), { st with seenModule := true })
      else if (st.parentIs (str! "kicad_pcb") && st.seenModule) = true then
        (indentText st.indent 1, { st with seenModule := false })
      else ([], st)).2.seenSegment && decide (ele = str! "segment")) = true then
        (indentText (if ele = str! "module" then (([] : Str), { st with seenModule := true })
      else if (st.parentIs (str! "kicad_pcb") && st.seenModule) = true then
        (indentText st.indent 1, { st with seenModule := false })
      else ([], st)).2.indent 1,
      { (if ele = str! "module" then (([] : Str), { st with seenModule := true })
      else if (st.parentIs (str! "kicad_pcb") && st.seenModule) = true then
        (indentText st.indent 1, { st with seenModule := false })
      else ([], st)).2 with seenSegment := true })
      else (([] : Str), (if ele = str! "module" then (([] : Str), { st with seenModule := true })
      else if (st.parentIs (str! "kicad_pcb") && st.seenModule) = true then
        (indentText st.indent 1, { st with seenModule := false })
      else ([], st)).2)).2 = openFlags st ele := by
    simp only [e1, openFlags]
  simp only [hfl, wantIndent]
  generalize openFlags st ele = s
  have hi : ∀ (p : Prop) [Decidable p] (a b : St), (if p then a else b).indent =
      if p then a.indent else b.indent := by intro p _ a b; split <;> rfl
  have hk : ∀ (p : Prop) [Decidable p] (a b : St), (if p then a else b).stack =
      if p then a.stack else b.stack := by intro p _ a b; split <;> rfl
  generalize wantAtom s ele = want
  cases want <;> simp only [hi, hk, ite_self] <;> cases ele <;> simp

theorem closeList_stack (st : St) : (closeList st).2.stack = st.stack.tail := by
  unfold closeList
  split
  · rename_i s want rest heq
    cases want <;> simp [heq]
  · rename_i x rest _ heq
    simp [heq]
  · rename_i heq
    simp [heq]

theorem closeList_indent_some (st : St) (s : Str) (w : Indent)
    (rest : List (Option (Str × Option Indent))) (h : st.stack = some (s, some w) :: rest) :
    (closeList st).2.indent = st.indent - 1 := by
  simp [closeList, h]

theorem closeList_indent_none (st : St) (x : Option (Str × Option Indent))
    (rest : List (Option (Str × Option Indent))) (h : st.stack = x :: rest)
    (hx : ∀ s w, x ≠ some (s, some w)) :
    (closeList st).2.indent = st.indent := by
  rcases x with _ | ⟨s, _ | w⟩
  · simp [closeList, h]
  · simp [closeList, h]
  · exact absurd rfl (hx s w)

mutual
theorem ser_stack (q : Str → Bool) (st : St) : ∀ e : Sexp, (ser q st e).2.stack = st.stack
  | .str s => rfl
  | .empty => rfl
  | .list [] => by simp [ser, closeList_stack, openList_state]
  | .list (x :: xs) => by
    simp only [ser, closeList_stack]
    rw [serRest_stack q _ xs, ser_stack q _ x, (openList_state st (some x)).2]
    rfl
theorem serRest_stack (q : Str → Bool) (st : St) : ∀ l : List Sexp,
    (serRest q st l).2.stack = st.stack
  | [] => rfl
  | x :: xs => by
    simp only [serRest]
    rw [serRest_stack q _ xs, ser_stack q _ x]
end

mutual
theorem ser_indent (q : Str → Bool) (st : St) : ∀ e : Sexp, Headed e →
    (ser q st e).2.indent = st.indent
  | .str s, _ => rfl
  | .empty, _ => rfl
  | .list [], h => absurd h (by simp [Headed])
  | .list (x :: xs), h => by
    have h' : (∃ s, x = .str s ∧ s ≠ []) ∧ HeadedL xs := h
    obtain ⟨⟨s, rfl, hs⟩, hxs⟩ := h'
    simp only [ser]
    have h1 := openList_state st (some (.str s))
    have h2 := serRest_stack q (openList st (some (.str s))).2 xs
    have h3 := serRest_indent q (openList st (some (.str s))).2 xs hxs
    have he : (headAtom (some (.str s))).isEmpty = false := by
      cases s with
      | nil => exact absurd rfl hs
      | cons => rfl
    rw [h1.2, he] at h2
    rw [h1.1] at h3
    simp only [Bool.false_eq_true, if_false] at h2
    generalize hw : wantAtom (openFlags st (headAtom (some (.str s)))) (headAtom (some (.str s))) = w at *
    cases w with
    | some w =>
      rw [closeList_indent_some _ _ w _ h2, h3]
      simp
    | none =>
      rw [closeList_indent_none _ _ _ h2 (by simp), h3]
theorem serRest_indent (q : Str → Bool) (st : St) : ∀ l : List Sexp, HeadedL l →
    (serRest q st l).2.indent = st.indent
  | [], _ => rfl
  | x :: xs, h => by
    have h' : Headed x ∧ HeadedL xs := h
    simp only [serRest]
    rw [serRest_indent q _ xs h'.2, ser_indent q _ x h'.1]
end

end Fm

/-- Printing any tree from any state leaves the formatter's context stack as it
was. -/
theorem C34_stack_restored (q : Str → Bool) (st : Fm.St) (e : Sexp) :
    (Fm.ser q st e).2.stack = st.stack :=
  Fm.ser_stack q st e

/-- Printing a tree whose lists all start with a nonempty atom leaves the
indentation as it was. -/
theorem C34_indent_restored (q : Str → Bool) (st : Fm.St) (e : Sexp) (h : Headed e) :
    (Fm.ser q st e).2.indent = st.indent :=
  Fm.ser_indent q st e h

example : Headed (.list [.str (str! "at"), .str [], .list [.str (str! "xyz")]]) := by
  simp only [Headed, HeadedL]
  exact ⟨⟨_, rfl, by decide⟩, trivial, ⟨⟨_, rfl, by decide⟩, trivial⟩, trivial⟩

/-- A list without a head atom leaks one level of indentation wherever the
context asks for indentation whatever the element is: directly inside
`general`, `layers`, `setup`, `pcbplotparams` or `net_class` of a board. -/
theorem C34_headless_list_leaks (q : Str → Bool) (st : Fm.St) (h1 : st.is (str! "kicad_pcb"))
    (h2 : st.parentIs (str! "general") || st.parentIs (str! "layers") || st.parentIs (str! "setup") ||
      st.parentIs (str! "pcbplotparams") || st.parentIs (str! "net_class")) :
    (Fm.ser q st (.list [])).2.indent = st.indent + 1 := by
  have hw : ∃ w, Fm.wantAtom (Fm.openFlags st []) [] = some w := by
    have hp : ∀ a, (Fm.openFlags st []).parentIs a = st.parentIs a := by
      intro a; simp only [Fm.St.parentIs, Fm.openFlags_stack]
    have hi : ∀ a, (Fm.openFlags st []).is a = st.is a := by
      intro a; simp only [Fm.St.is, Fm.openFlags_stack]
    unfold Fm.wantAtom
    split
    · exact ⟨_, rfl⟩
    · have : ∃ w, Fm.wantLayout (Fm.openFlags st []) [] = some w := by
        simp only [Bool.or_eq_true] at h2
        unfold Fm.wantLayout
        simp only [hp, hi, h1]
        rcases h2 with (((h2 | h2) | h2) | h2) | h2 <;> simp [h2] <;> (repeat' split) <;> exact ⟨_, rfl⟩
      obtain ⟨w, hw⟩ := this
      rw [hw]
      exact ⟨_, rfl⟩
  obtain ⟨w, hw⟩ := hw
  have ho := Fm.openList_state st none
  have hh : Fm.headAtom none = [] := rfl
  rw [hh, hw] at ho
  simp only [Fm.ser]
  rw [Fm.closeList_indent_none _ none st.stack (by simpa using ho.2) (by simp), ho.1]

example : let st : Fm.St := ⟨0, [some (str! "setup", none), some (str! "kicad_pcb", none)], 0, false, false⟩
    st.is (str! "kicad_pcb") ∧ st.parentIs (str! "setup") := by decide

end Verif
