import Verif.Model.Sexp
import Verif.Spec.Sexp
/-!
# Lemmas: expressions that are cut off
-/

namespace Verif.Sexp
open Verif Spec

theorem lex_gap_nil (r : Str) : lexAux .gap r = some [] ↔ Blank r := by
  unfold Blank
  constructor
  · intro h
    have key : ∀ (m : LexMode) (r : Str), lexAux m r = some [] → m = .gap ∧ ∀ c ∈ r, isSexpSpace c = true := by
      have no : ∀ (f : List Tok → List Tok) (o : Option (List Tok)), (∀ t, f t ≠ []) → o.map f ≠ some [] := by
        intro f o hf h
        obtain ⟨t, _, ht⟩ := Option.map_eq_some_iff.1 h
        exact hf t ht
      intro m r
      induction r generalizing m with
      | nil => cases m <;> simp [lexAux]
      | cons c r ih =>
        intro h
        have bad : ∀ m', lexAux m' r = some [] → m' ≠ .gap → m = .gap ∧ ∀ x ∈ c :: r, isSexpSpace x = true :=
          fun m' h' hm => absurd (ih m' h').1 hm
        cases m with
        | gap =>
          rw [lexAux] at h
          by_cases hc : isSexpSpace c = true
          · rw [if_pos hc] at h
            exact ⟨rfl, List.forall_mem_cons.2 ⟨hc, (ih _ h).2⟩⟩
          rw [if_neg hc] at h
          by_cases h1 : c = '('
          · rw [if_pos h1] at h; exact absurd h (no _ _ (by simp))
          rw [if_neg h1] at h
          by_cases h2 : c = ')'
          · rw [if_pos h2] at h; exact absurd h (no _ _ (by simp))
          rw [if_neg h2] at h
          by_cases h3 : c = '"'
          · rw [if_pos h3] at h; exact bad _ h (by simp)
          rw [if_neg h3] at h
          exact bad _ h (by simp)
        | bare cur =>
          rw [lexAux] at h
          by_cases hc : isSexpSpace c = true
          · rw [if_pos hc] at h; exact absurd h (no _ _ (by simp))
          rw [if_neg hc] at h
          by_cases h1 : c = '('
          · rw [if_pos h1] at h; exact absurd h (no _ _ (by simp))
          rw [if_neg h1] at h
          by_cases h2 : c = ')'
          · rw [if_pos h2] at h; exact absurd h (no _ _ (by simp))
          rw [if_neg h2] at h
          by_cases h3 : c = '"'
          · rw [if_pos h3] at h; exact absurd h (no _ _ (by simp))
          rw [if_neg h3] at h
          exact bad _ h (by simp)
        | quoted cur =>
          rw [lexAux] at h
          by_cases h3 : c = '"'
          · rw [if_pos h3] at h; exact absurd h (no _ _ (by simp))
          rw [if_neg h3] at h
          by_cases h4 : c = '\\'
          · rw [if_pos h4] at h; exact bad _ h (by simp)
          rw [if_neg h4] at h
          exact bad _ h (by simp)
        | esc cur =>
          rw [lexAux] at h
          by_cases h3 : c = '"'
          · rw [if_pos h3] at h; exact bad _ h (by simp)
          rw [if_neg h3] at h
          exact bad _ h (by simp)
    exact (key .gap r h).2
  · intro h
    induction r with
    | nil => rfl
    | cons c r ih =>
      rw [lexAux, if_pos (h c List.mem_cons_self)]
      exact ih fun c hc => h c (List.mem_cons_of_mem _ hc)

theorem gap_skip (p r : Str) (hb : Blank p) : lexAux .gap (p ++ r) = lexAux .gap r := by
  induction p with
  | nil => rfl
  | cons c p ih =>
    rw [List.cons_append, lexAux, if_pos (hb c List.mem_cons_self)]
    exact ih fun c hc => hb c (List.mem_cons_of_mem _ hc)

theorem quoted_open (r : Str) (hr : Blank r) (cur : Str) : lexAux (.quoted cur) r = none := by
  induction r generalizing cur with
  | nil => rfl
  | cons c r ih =>
    have hc := hr c List.mem_cons_self
    have h1 : c ≠ '"' := by rintro rfl; exact absurd hc (by decide)
    have h2 : c ≠ '\\' := by rintro rfl; exact absurd hc (by decide)
    rw [lexAux, if_neg h1, if_neg h2]
    exact ih (fun c hc => hr c (List.mem_cons_of_mem _ hc)) _

/-- After a closing parenthesis reading starts afresh. -/
theorem lex_closed (m : LexMode) (p r : Str) (ts : List Tok) (h : lexAux m p = some ts) (hl : ts.getLast? = some .cl) :
    lexAux m (p ++ r) = (lexAux .gap r).map (ts ++ ·) := by
  have last_cons : ∀ (x : Tok) (us : List Tok), x ≠ .cl → (x :: us).getLast? = some .cl → us.getLast? = some .cl := by
    intro x us hx h
    cases us with
    | nil => simp at h; exact absurd h hx
    | cons y us => rwa [List.getLast?_cons_cons] at h
  induction p generalizing m ts with
  | nil => cases m <;> simp [lexAux] at h <;> subst h <;> simp at hl
  | cons c p ih =>
    have step : ∀ (m' : LexMode) (x : Tok), x ≠ .cl → (lexAux m' p).map (x :: ·) = some ts →
        (lexAux m' (p ++ r)).map (x :: ·) = (lexAux .gap r).map (ts ++ ·) := by
      intro m' x hx h
      obtain ⟨us, hu, rfl⟩ := Option.map_eq_some_iff.1 h
      rw [ih m' us hu (last_cons x us hx hl)]
      cases lexAux .gap r <;> rfl
    have stepCl : ∀ (xs : List Tok) , (lexAux .gap p).map (fun t => xs ++ .cl :: t) = some ts →
        (lexAux .gap (p ++ r)).map (fun t => xs ++ .cl :: t) = (lexAux .gap r).map (ts ++ ·) := by
      intro xs h
      obtain ⟨us, hu, rfl⟩ := Option.map_eq_some_iff.1 h
      cases us with
      | nil =>
        have hb := (lex_gap_nil p).1 hu
        have : lexAux .gap (p ++ r) = lexAux .gap r := gap_skip p r hb
        rw [this]
        cases lexAux .gap r <;> simp
      | cons u us =>
        have hl' : (u :: us).getLast? = some .cl := by
          rw [List.getLast?_append] at hl
          simpa using hl
        rw [ih .gap _ hu hl']
        cases lexAux .gap r <;> simp
    cases m with
    | gap =>
      rw [lexAux] at h
      rw [List.cons_append, lexAux]
      split
      · rename_i hc; rw [if_pos hc] at h; exact ih _ _ h hl
      rename_i hc; rw [if_neg hc] at h
      split
      · rename_i hc; rw [if_pos hc] at h; exact step _ _ (by simp) h
      rename_i hc; rw [if_neg hc] at h
      split
      · rename_i hc; rw [if_pos hc] at h; exact stepCl [] h
      rename_i hc; rw [if_neg hc] at h
      split
      · rename_i hc; rw [if_pos hc] at h; exact ih _ _ h hl
      rename_i hc; rw [if_neg hc] at h
      exact ih _ _ h hl
    | bare cur =>
      rw [lexAux] at h
      rw [List.cons_append, lexAux]
      split
      · rename_i hc; rw [if_pos hc] at h; exact step _ _ (by simp) h
      rename_i hc; rw [if_neg hc] at h
      split
      · rename_i hc
        rw [if_pos hc] at h
        obtain ⟨us, hu, rfl⟩ := Option.map_eq_some_iff.1 h
        rw [ih .gap us hu (last_cons .op us (by simp) (last_cons _ _ (by simp) hl))]
        cases lexAux .gap r <;> rfl
      rename_i hc; rw [if_neg hc] at h
      split
      · rename_i hc; rw [if_pos hc] at h; exact stepCl [.atom cur.reverse] h
      rename_i hc; rw [if_neg hc] at h
      split
      · rename_i hc; rw [if_pos hc] at h; exact step _ _ (by simp) h
      rename_i hc; rw [if_neg hc] at h
      exact ih _ _ h hl
    | quoted cur =>
      rw [lexAux] at h
      rw [List.cons_append, lexAux]
      split
      · rename_i hc; rw [if_pos hc] at h; exact step _ _ (by simp) h
      rename_i hc; rw [if_neg hc] at h
      split
      · rename_i hc; rw [if_pos hc] at h; exact ih _ _ h hl
      rename_i hc; rw [if_neg hc] at h
      exact ih _ _ h hl
    | esc cur =>
      rw [lexAux] at h
      rw [List.cons_append, lexAux]
      split
      · rename_i hc; rw [if_pos hc] at h; exact ih _ _ h hl
      rename_i hc; rw [if_neg hc] at h
      exact ih _ _ h hl

/-- Reading a list ends with a closing parenthesis, and nothing may come after it. -/
theorem parseToks_list (st : List (List Sexp)) (ts : List Tok) (l : List Sexp) (h : parseToks st ts = .ok (.list l)) :
    ts.getLast? = some .cl ∧ ∀ us e, parseToks st (ts ++ us) = .ok e → us = [] ∧ e = .list l := by
  have fin : ∀ (e e' : Sexp) ts, finishParse e ts = .ok e' → ts = [] ∧ e = e' := by
    intro e e' ts h
    cases ts with
    | nil => cases h; exact ⟨rfl, rfl⟩
    | cons => cases h
  have last : ∀ (x : Tok) (us : List Tok), us.getLast? = some .cl → (x :: us).getLast? = some .cl := by
    intro x us h
    cases us with
    | nil => cases h
    | cons y us => rwa [List.getLast?_cons_cons]
  induction ts generalizing st with
  | nil => cases st <;> simp [parseToks] at h
  | cons t ts ih =>
    match st, t with
    | [], .op =>
      rw [parseToks] at h
      obtain ⟨h1, h2⟩ := ih _ h
      exact ⟨last _ _ h1, fun us e => by rw [List.cons_append, parseToks]; exact h2 us e⟩
    | [], .cl => simp [parseToks] at h
    | [], .atom a =>
      rw [parseToks] at h
      have := (fin _ _ _ h).2
      cases this
    | x :: st, .op =>
      rw [parseToks] at h
      obtain ⟨h1, h2⟩ := ih _ h
      exact ⟨last _ _ h1, fun us e => by rw [List.cons_append, parseToks]; exact h2 us e⟩
    | x :: st, .atom a =>
      rw [parseToks] at h
      obtain ⟨h1, h2⟩ := ih _ h
      exact ⟨last _ _ h1, fun us e => by rw [List.cons_append, parseToks]; exact h2 us e⟩
    | [x], .cl =>
      rw [parseToks] at h
      obtain ⟨rfl, hl⟩ := fin _ _ _ h
      refine ⟨rfl, fun us e he => ?_⟩
      rw [List.cons_append, parseToks, List.nil_append] at he
      obtain ⟨h1, h2⟩ := fin _ _ _ he
      exact ⟨h1, by rw [← h2, hl]⟩
    | x :: y :: st, .cl =>
      rw [parseToks] at h
      obtain ⟨h1, h2⟩ := ih _ h
      exact ⟨last _ _ h1, fun us e => by rw [List.cons_append, parseToks]; exact h2 us e⟩

/-- If a text and a beginning of it are both read and the beginning is a list, then only
white space is missing. -/
theorem parse_cut (p r : Str) (l : List Sexp) (e : Sexp) (h : parseSexp p = .ok (.list l)) (h' : parseSexp (p ++ r) = .ok e) :
    Blank r ∧ e = .list l := by
  unfold parseSexp lex at h h'
  cases hp : lexAux .gap p with
  | none => rw [hp] at h; cases h
  | some ts =>
    rw [hp] at h
    obtain ⟨h1, h2⟩ := parseToks_list [] ts l h
    rw [lex_closed .gap p r ts hp h1] at h'
    cases hr : lexAux .gap r with
    | none => rw [hr] at h'; cases h'
    | some us =>
      rw [hr] at h'
      obtain ⟨rfl, he⟩ := h2 us e h'
      exact ⟨(lex_gap_nil r).1 hr, he⟩

theorem lex_trailing (m : LexMode) (p r : Str) (hr : Blank r) : lexAux m (p ++ r) = lexAux m p := by
  induction p generalizing m with
  | nil =>
    rw [List.nil_append]
    cases m with
    | gap => rw [(lex_gap_nil r).2 hr]; rfl
    | bare cur =>
      cases r with
      | nil => rfl
      | cons c r =>
        have hr' : Blank r := fun c hc => hr c (List.mem_cons_of_mem _ hc)
        have hc := hr c List.mem_cons_self
        simp only [lexAux, hc, if_true, (lex_gap_nil r).2 hr']
        rfl
    | quoted cur => rw [quoted_open r hr]; rfl
    | esc cur =>
      cases r with
      | nil => rfl
      | cons c r =>
        have hc := hr c List.mem_cons_self
        have h1 : c ≠ '"' := by rintro rfl; exact absurd hc (by decide)
        have hr' : Blank r := fun c hc => hr c (List.mem_cons_of_mem _ hc)
        simp only [lexAux, h1, if_false, quoted_open r hr']
  | cons c p ih => cases m <;> simp only [List.cons_append, lexAux, ih]

theorem parse_blank (p r : Str) (hr : Blank r) : parseSexp (p ++ r) = parseSexp p := by
  unfold parseSexp lex
  rw [lex_trailing .gap p r hr]

end Verif.Sexp
