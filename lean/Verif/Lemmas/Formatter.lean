import Verif.Model.Formatter
import Verif.Spec.Sexp
/-!
# Printing and reading s-expressions
-/

namespace Verif
open Spec

namespace Sexp.Text

theorem blank_nil : Blank [] := by simp [Blank]

theorem blank_append {a b : Str} (ha : Blank a) (hb : Blank b) : Blank (a ++ b) := by
  intro c hc
  rcases List.mem_append.1 hc with h | h
  · exact ha c h
  · exact hb c h

theorem blank_space : Blank (str! " ") := by simp [Blank, isSexpSpace]
theorem blank_nl : Blank (str! "\n") := by simp [Blank, isSexpSpace]

theorem blank_replicate (n : Nat) (c : Char) (h : isSexpSpace c = true) :
    Blank (List.replicate n c) := by
  intro d hd
  rw [List.eq_of_mem_replicate hd]
  exact h

theorem blank_ite {p : Prop} [Decidable p] {a b : Str} (ha : Blank a) (hb : Blank b) :
    Blank (if p then a else b) := by split <;> assumption

theorem blank_indent (l : Int) (n : Nat) : Blank (Fm.indentText l n) :=
  blank_append (blank_replicate _ _ rfl) (blank_replicate _ _ rfl)

/-! ## Pieces with white space between them -/

theorem spaced_blank {w t : Str} {ps : List Str} (hw : Blank w) (h : Spaced ps t) :
    Spaced ps (w ++ t) := by
  cases h with
  | nil h => exact .nil (blank_append hw h)
  | @cons w' p t ps h1 h2 =>
    have := Spaced.cons (p := p) (blank_append hw h1) h2
    simpa using this

theorem spaced_append {ps qs : List Str} {s t : Str} (h1 : Spaced ps s) (h2 : Spaced qs t) :
    Spaced (ps ++ qs) (s ++ t) := by
  induction h1 with
  | nil h => exact spaced_blank h h2
  | @cons w p u ps hw _ ih =>
    have := Spaced.cons (p := p) hw ih
    simpa using this

theorem spaced_one {w w' p : Str} (h : Blank w) (h' : Blank w') : Spaced [p] (w ++ p ++ w') :=
  .cons h (.nil h')

/-! ## What the formatter writes -/

theorem openList_text (st : Fm.St) (v : Option Sexp) :
    ∃ w, Blank w ∧ (w = [] ∨ ∃ w', w = '\n' :: w') ∧ (Fm.openList st v).1 = w ++ ['('] := by
  have hi : ∀ l n, 0 < n → ∃ w', Fm.indentText l n = '\n' :: w' := by
    intro l n hn
    cases n with
    | zero => omega
    | succ n => exact ⟨_, by rw [Fm.indentText, List.replicate_succ]; rfl⟩
  have key : ∀ {a b : Str}, (Blank a ∧ (a = [] ∨ ∃ w', a = '\n' :: w')) →
      (Blank b ∧ (b = [] ∨ ∃ w', b = '\n' :: w')) →
      Blank (a ++ b) ∧ (a ++ b = [] ∨ ∃ w', a ++ b = '\n' :: w') := by
    rintro a b ⟨ha, ha'⟩ ⟨hb, hb'⟩
    refine ⟨blank_append ha hb, ?_⟩
    rcases ha' with rfl | ⟨w', rfl⟩
    · simpa using hb'
    · right; exact ⟨w' ++ b, rfl⟩
  have hn : Blank ([] : Str) ∧ (([] : Str) = [] ∨ ∃ w', ([] : Str) = '\n' :: w') := ⟨blank_nil, .inl rfl⟩
  have hind : ∀ l n, 0 < n → Blank (Fm.indentText l n) ∧
      (Fm.indentText l n = [] ∨ ∃ w', Fm.indentText l n = '\n' :: w') :=
    fun l n h => ⟨blank_indent l n, .inr (hi l n h)⟩
  simp only [Fm.openList]
  refine ⟨_, ?_, ?_, rfl⟩
  rotate_left
  all_goals
    first
    | refine (key (key ?_ ?_) ?_).1
    | refine (key (key ?_ ?_) ?_).2
    all_goals
      repeat' split
      all_goals first | exact hn | (apply hind; first | assumption | omega) | skip

theorem closeList_text (st : Fm.St) :
    ∃ w w', Blank w ∧ Blank w' ∧ (w = [] ∨ ∃ u, w = '\n' :: u) ∧
      (Fm.closeList st).1 = w ++ [')'] ++ w' := by
  unfold Fm.closeList
  split
  · rename_i s want rest _
    cases want with
    | some indent =>
      refine ⟨(if indent.closingOnNewLine then Fm.indentText (st.indent - 1 + 1) 1 else []) ++
        (if s = str! "module" ∧ rest.isEmpty then str! "\n" else []),
        List.replicate indent.newlineAfter '\n', ?_, blank_replicate _ _ rfl, ?_, rfl⟩
      · exact blank_append (blank_ite (blank_indent _ _) blank_nil) (blank_ite blank_nl blank_nil)
      · split
        · right; exact ⟨_, rfl⟩
        · split
          · right; exact ⟨_, rfl⟩
          · left; rfl
    | none =>
      refine ⟨_, [], ?_, blank_nil, ?_, (List.append_nil _).symm⟩
      · exact blank_ite blank_nl blank_nil
      · split
        · right; exact ⟨_, rfl⟩
        · left; rfl
  · exact ⟨[], [], blank_nil, blank_nil, .inl rfl, rfl⟩
  · exact ⟨[], [], blank_nil, blank_nil, .inl rfl, rfl⟩

theorem element_blank (st : Fm.St) (e : Sexp) : Blank (Fm.element st e) := by
  unfold Fm.element
  repeat' split
  all_goals first | exact blank_space | exact blank_nil

mutual
theorem ser_spaced (q : Str → Bool) (st : Fm.St) : ∀ e : Sexp,
    Spaced (pieces (Fm.atomText q) e) (Fm.ser q st e).1
  | .str s => by
    have := spaced_one (p := Fm.atomText q s) blank_nil blank_nil
    simpa [pieces, Fm.ser] using this
  | .empty => .nil blank_nil
  | .list [] => by
    obtain ⟨w, hw, _, h1⟩ := openList_text st none
    obtain ⟨u, u', hu, hu', _, h2⟩ := closeList_text (Fm.openList st none).2
    have := spaced_append (spaced_one (p := ['(']) hw blank_nil) (spaced_one (p := [')']) hu hu')
    simpa [pieces, piecesL, Fm.ser, h1, h2] using this
  | .list (x :: xs) => by
    simp only [Fm.ser]
    obtain ⟨w, hw, _, h1⟩ := openList_text st (some x)
    have hx := ser_spaced q (Fm.openList st (some x)).2 x
    have hxs := serRest_spaced q (Fm.ser q (Fm.openList st (some x)).2 x).2 xs
    obtain ⟨u, u', hu, hu', _, h2⟩ :=
      closeList_text (Fm.serRest q (Fm.ser q (Fm.openList st (some x)).2 x).2 xs).2
    have := spaced_append (spaced_append (spaced_append (spaced_one (p := ['(']) hw blank_nil) hx) hxs)
      (spaced_one (p := [')']) hu hu')
    simpa [pieces, piecesL, h1, h2] using this
theorem serRest_spaced (q : Str → Bool) (st : Fm.St) : ∀ l : List Sexp,
    Spaced (piecesL (Fm.atomText q) l) (Fm.serRest q st l).1
  | [] => .nil blank_nil
  | x :: xs => by
    simp only [Fm.serRest, piecesL]
    exact spaced_append (spaced_blank (element_blank st x) (ser_spaced q st x))
      (serRest_spaced q _ xs)
end

/-! ## Tokens -/

mutual
/-- The tokens of a tree. -/
def toks : Sexp → List Tok
  | .str s => [.atom s]
  | .empty => []
  | .list l => .op :: (toksL l ++ [.cl])
/-- The tokens of a sequence of trees. -/
def toksL : List Sexp → List Tok
  | [] => []
  | x :: xs => toks x ++ toksL xs
end

/-- The text ends here, or a bare atom before it would. -/
def Stops (r : Str) : Prop :=
  r = [] ∨ ∃ c cs, r = c :: cs ∧ (isSexpSpace c = true ∨ c = '(' ∨ c = ')')

theorem lex_blank {w : Str} (hw : Blank w) (r : Str) : lexAux .gap (w ++ r) = lexAux .gap r := by
  induction w with
  | nil => rfl
  | cons c w ih =>
    have h1 : isSexpSpace c = true := hw c (by simp)
    have h2 : Blank w := fun d hd => hw d (by simp [hd])
    simp [lexAux, h1, ih h2]

theorem lex_bare (s : Str) (hs : ∀ c ∈ s, isSexpSpace c = false ∧ c ≠ '(' ∧ c ≠ ')' ∧ c ≠ '"')
    (cur r : Str) : lexAux (.bare cur) (s ++ r) = lexAux (.bare (s.reverse ++ cur)) r := by
  induction s generalizing cur with
  | nil => rfl
  | cons c s ih =>
    rw [List.forall_mem_cons] at hs
    obtain ⟨⟨h1, h2, h3, h4⟩, hs⟩ := hs
    simp [lexAux, h1, h2, h3, h4, ih hs]

theorem lex_bare_stop {r : Str} (hr : Stops r) (cur : Str) :
    lexAux (.bare cur) r = (lexAux .gap r).map (.atom cur.reverse :: ·) := by
  rcases hr with rfl | ⟨c, cs, rfl, h⟩
  · simp [lexAux]
  · by_cases hc : isSexpSpace c = true
    · simp [lexAux, hc]
    · rcases h with h | rfl | rfl
      · exact absurd h hc
      · simp [lexAux, isSexpSpace, Option.map_map, Function.comp_def]
      · simp [lexAux, isSexpSpace, Option.map_map, Function.comp_def]

theorem escape_cons (c : Char) (s : Str) :
    Fm.escapeQuotes (c :: s) = (if c = '"' then ['\\', '"'] else [c]) ++ Fm.escapeQuotes s := rfl

/-- Inside quotes, what was escaped is read back if its backslashes come in pairs. -/
theorem lex_escaped (s : Str) : ∀ (cur r : Str),
    (pairedAfter false s = true → lexAux (.quoted cur) (Fm.escapeQuotes s ++ '"' :: r) =
      (lexAux .gap r).map (.atom (cur.reverse ++ s) :: ·)) ∧
    (pairedAfter true s = true → lexAux (.esc cur) (Fm.escapeQuotes s ++ '"' :: r) =
      (lexAux .gap r).map (.atom (cur.reverse ++ '\\' :: s) :: ·)) := by
  induction s with
  | nil =>
    intro cur r
    refine ⟨fun _ => ?_, fun h => absurd h (by decide)⟩
    simp [Fm.escapeQuotes, lexAux]
  | cons c s ih =>
    intro cur r
    rw [escape_cons, pairedAfter, pairedAfter]
    by_cases h1 : c = '\\'
    · subst h1
      refine ⟨fun h => ?_, fun h => ?_⟩
      · have := (ih cur r).2 h
        simpa [lexAux] using this
      · have := (ih ('\\' :: '\\' :: cur) r).1 h
        simpa [lexAux] using this
    · by_cases h2 : c = '"'
      · subst h2
        refine ⟨fun h => ?_, fun h => absurd h (by simp)⟩
        have := (ih ('"' :: cur) r).1 (by simpa using h)
        simpa [lexAux] using this
      · rw [if_neg h1, if_neg h1, if_neg h2, if_neg h2, if_neg h2]
        refine ⟨fun h => ?_, fun h => ?_⟩
        · have := (ih (c :: cur) r).1 h
          simpa [lexAux, h1, h2] using this
        · have := (ih (c :: '\\' :: cur) r).1 h
          simpa [lexAux, h1, h2] using this

theorem lex_atom (q : Str → Bool) (s : Str) (hs : OkAtom q s) {r : Str} (hr : Stops r) :
    lexAux .gap (Fm.atomText q s ++ r) = (lexAux .gap r).map (.atom s :: ·) := by
  unfold OkAtom at hs
  unfold Fm.atomText
  split at hs
  · rename_i hq
    rw [if_pos hq]
    have := (lex_escaped s [] r).1 hs
    simpa [lexAux, isSexpSpace] using this
  · rename_i hq
    rw [if_neg hq]
    obtain ⟨h0, hs⟩ := hs
    cases s with
    | nil => exact absurd rfl h0
    | cons c s =>
      rw [List.forall_mem_cons] at hs
      obtain ⟨⟨h1, h2, h3, h4⟩, hs⟩ := hs
      simp only [List.cons_append, lexAux, h1, h2, h3, h4, if_false, Bool.false_eq_true]
      rw [lex_bare s hs, lex_bare_stop hr]
      simp

theorem stops_blank_cons {w r : Str} (hw : w = [] ∨ ∃ u, w = '\n' :: u) {c : Char}
    (hc : isSexpSpace c = true ∨ c = '(' ∨ c = ')') : Stops (w ++ c :: r) := by
  rcases hw with rfl | ⟨u, rfl⟩
  · exact .inr ⟨c, r, rfl, hc⟩
  · exact .inr ⟨'\n', u ++ c :: r, rfl, .inl rfl⟩

theorem stops_serRest (q : Str → Bool) (st : Fm.St) (l : List Sexp) {r : Str} (hr : Stops r) :
    Stops ((Fm.serRest q st l).1 ++ r) := by
  cases l with
  | nil => simpa [Fm.serRest] using hr
  | cons x xs =>
    have hsp : ∀ t : Str, Stops ((' ' :: t) ++ r) := fun t => .inr ⟨' ', t ++ r, rfl, .inl rfl⟩
    cases x with
    | str s =>
      have : Fm.element st (.str s) = str! " " := by
        unfold Fm.element; split <;> rfl
      simp only [Fm.serRest, this]
      exact hsp _
    | empty => exact hsp _
    | list l =>
      have hel : Fm.element st (.list l) = str! " " ∨ Fm.element st (.list l) = [] := by
        unfold Fm.element; split
        · exact .inl rfl
        · exact .inr rfl
      rcases hel with h | h
      · simp only [Fm.serRest, h]
        exact hsp _
      · cases l with
        | nil =>
          obtain ⟨w, _, hw, h1⟩ := openList_text st none
          simp only [Fm.serRest, h, Fm.ser, h1, List.nil_append, List.append_assoc, List.cons_append]
          exact stops_blank_cons hw (.inr (.inl rfl))
        | cons y ys =>
          obtain ⟨w, _, hw, h1⟩ := openList_text st (some y)
          simp only [Fm.serRest, h, Fm.ser, h1, List.nil_append, List.append_assoc, List.cons_append]
          exact stops_blank_cons hw (.inr (.inl rfl))

theorem lex_open (r : Str) : lexAux .gap ('(' :: r) = (lexAux .gap r).map (.op :: ·) := by
  simp [lexAux, isSexpSpace]

theorem lex_close (r : Str) : lexAux .gap (')' :: r) = (lexAux .gap r).map (.cl :: ·) := by
  simp [lexAux, isSexpSpace]

mutual
theorem lex_ser (q : Str → Bool) (st : Fm.St) (r : Str) (hr : Stops r) : ∀ e : Sexp, OkTree q e →
    lexAux .gap ((Fm.ser q st e).1 ++ r) = (lexAux .gap r).map (toks e ++ ·)
  | .str s, h => by
    simpa [Fm.ser, toks] using lex_atom q s h hr
  | .empty, h => absurd h (by simp [OkTree])
  | .list [], _ => by
    obtain ⟨w, hw, _, h1⟩ := openList_text st none
    obtain ⟨u, u', hu, hu', _, h2⟩ := closeList_text (Fm.openList st none).2
    simp only [Fm.ser, h1, h2, List.append_assoc, List.cons_append, List.nil_append, lex_blank hw,
      lex_open, lex_blank hu, lex_close, lex_blank hu', toks, toksL, Option.map_map,
      Function.comp_def]
  | .list (x :: xs), h => by
    have h0 : OkTree q x ∧ OkTrees q xs := h
    obtain ⟨w, hw, _, h1⟩ := openList_text st (some x)
    obtain ⟨u, u', hu, hu', hun, h2⟩ :=
      closeList_text (Fm.serRest q (Fm.ser q (Fm.openList st (some x)).2 x).2 xs).2
    have hs2 : Stops (u ++ (')' :: (u' ++ r))) := stops_blank_cons hun (.inr (.inr rfl))
    simp only [Fm.ser, h1, h2, List.append_assoc, List.cons_append, List.nil_append, lex_blank hw,
      lex_open]
    rw [lex_ser q _ _ (stops_serRest q _ xs hs2) x h0.1, lex_serRest q _ _ hs2 xs h0.2]
    simp only [lex_blank hu, lex_close, lex_blank hu', toks, toksL, Option.map_map,
      Function.comp_def, List.append_assoc, List.cons_append, List.nil_append]
theorem lex_serRest (q : Str → Bool) (st : Fm.St) (r : Str) (hr : Stops r) : ∀ l : List Sexp,
    OkTrees q l → lexAux .gap ((Fm.serRest q st l).1 ++ r) = (lexAux .gap r).map (toksL l ++ ·)
  | [], _ => by simp [Fm.serRest, toksL]
  | x :: xs, h => by
    have h0 : OkTree q x ∧ OkTrees q xs := h
    simp only [Fm.serRest, List.append_assoc, lex_blank (element_blank st x)]
    rw [lex_ser q _ _ (stops_serRest q _ xs hr) x h0.1, lex_serRest q _ _ hr xs h0.2]
    simp only [toksL, Option.map_map, Function.comp_def, List.append_assoc]
end

mutual
theorem parse_toks (l : List Sexp) (st : List (List Sexp)) (r : List Tok) (q : Str → Bool) :
    ∀ e : Sexp, OkTree q e → parseToks (l :: st) (toks e ++ r) = parseToks ((e :: l) :: st) r
  | .str s, _ => by simp [toks, parseToks]
  | .empty, h => absurd h (by simp [OkTree])
  | .list x, h => by
    simp only [toks, List.cons_append, List.append_assoc, List.nil_append]
    rw [parseToks, parse_toksL [] (l :: st) _ q x h]
    simp [parseToks]
theorem parse_toksL (l : List Sexp) (st : List (List Sexp)) (r : List Tok) (q : Str → Bool) :
    ∀ x : List Sexp, OkTrees q x →
      parseToks (l :: st) (toksL x ++ r) = parseToks ((x.reverse ++ l) :: st) r
  | [], _ => by simp [toksL]
  | e :: x, h => by
    have h0 : OkTree q e ∧ OkTrees q x := h
    simp only [toksL, List.append_assoc]
    rw [parse_toks l st _ q e h0.1, parse_toksL _ st _ q x h0.2]
    simp
end

/-- What is printed reads back, from any formatter state. -/
theorem parse_ser (q : Str → Bool) (st : Fm.St) (e : Sexp) (h : OkTree q e) :
    parseSexp (Fm.ser q st e).1 = .ok e := by
  have h1 := lex_ser q st [] (.inl rfl) e h
  simp only [List.append_nil, lexAux, Option.map_some] at h1
  rw [parseSexp, lex, h1]
  cases e with
  | str s => simp [toks, parseToks, finishParse]
  | empty => exact absurd h (by simp [OkTree])
  | list l =>
    simp only [toks, parseToks]
    rw [parse_toksL [] [] [.cl] q l h]
    simp [parseToks, finishParse]

/-- What is printed reads back. -/
theorem parse_toText (q : Str → Bool) (level : Int) (e : Sexp) (h : OkTree q e) :
    parseSexp (Fm.toText q level e) = .ok e := parse_ser q _ e h

/-- Trailing white space does not matter. -/
theorem parse_toText_blank (q : Str → Bool) (level : Int) (e : Sexp) (h : OkTree q e) (w : Str)
    (hw : Blank w) : parseSexp (Fm.toText q level e ++ w) = .ok e := by
  have hst : Stops w := by
    cases w with
    | nil => exact .inl rfl
    | cons c cs => exact .inr ⟨c, cs, rfl, .inl (hw c (by simp))⟩
  have h1 := lex_ser q (Fm.St.new level) w hst e h
  have hl : lexAux .gap w = some [] := by
    have := lex_blank hw []
    simpa [lexAux] using this
  have h2 := lex_ser q (Fm.St.new level) [] (.inl rfl) e h
  have h3 := parse_toText q level e h
  simp only [List.append_nil] at h2
  rw [hl] at h1
  simp only [lexAux] at h2
  rw [parseSexp, lex, Fm.toText, h2] at h3
  rw [parseSexp, lex, Fm.toText, h1]
  exact h3

end Sexp.Text

end Verif
