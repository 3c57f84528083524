import Verif.Spec.TreeGrammar
import Verif.Lemmas.Numerals
import Verif.Lemmas.Sexp
import Verif.Lemmas.Calm
/-!
# Lemmas: reading trees from texts
-/

set_option linter.unusedSimpArgs false

namespace Verif
open Spec

/-! ## Tokens -/

/-- The tokens of a text. -/
inductive TokText : Str → List Tok → Prop
  | nil : TokText [] []
  | space {c t ts} (hc : isSexpSpace c = true) (h : TokText t ts) : TokText (c :: t) ts
  | op {t ts} (h : TokText t ts) : TokText ('(' :: t) (.op :: ts)
  | cl {t ts} (h : TokText t ts) : TokText (')' :: t) (.cl :: ts)
  | bare {w t ts} (hw : BareSafe w) (he : WordEnds t) (h : TokText t ts) : TokText (w ++ t) (.atom w :: ts)
  | quoted {w s t ts} (hw : Quoted w s) (h : TokText t ts) : TokText ('"' :: (w ++ '"' :: t)) (.atom s :: ts)

theorem lexAux_quoted {w s : Str} (h : Quoted w s) (cur t : Str) :
    lexAux (.quoted cur) (w ++ '"' :: t) = (lexAux .gap t).map (.atom (cur.reverse ++ s) :: ·) := by
  induction h generalizing cur with
  | nil => simp [lexAux]
  | plain h1 h2 h ih => rw [List.cons_append, lexAux, if_neg h1, if_neg h2, ih]; simp
  | quote h ih =>
    rw [List.cons_append, lexAux, if_neg (by decide), if_pos rfl, List.cons_append, lexAux, if_pos rfl, ih]; simp
  | slash h1 h ih =>
    rw [List.cons_append, lexAux, if_neg (by decide), if_pos rfl, List.cons_append, lexAux, if_neg h1, ih]; simp

theorem lex_bare_ends {t : Str} (he : WordEnds t) (cur : Str) :
    lexAux (.bare cur) t = (lexAux .gap t).map (.atom cur.reverse :: ·) := by
  cases t with
  | nil => rfl
  | cons c r =>
    rw [lexAux, lexAux]
    rcases he c r rfl with h | h | h | h
    · rw [if_pos h, if_pos h]
    · subst h
      rw [if_neg (by decide), if_pos rfl, if_neg (by decide), if_pos rfl]
      cases lexAux .gap r <;> rfl
    · subst h
      rw [if_neg (by decide), if_neg (by decide), if_pos rfl, if_neg (by decide), if_neg (by decide), if_pos rfl]
      cases lexAux .gap r <;> rfl
    · subst h
      rw [if_neg (by decide), if_neg (by decide), if_neg (by decide), if_pos rfl, if_neg (by decide),
        if_neg (by decide), if_neg (by decide), if_pos rfl]

theorem lexAux_bare {w : Str} (h : ∀ c ∈ w, isSexpSpace c = false ∧ c ≠ '(' ∧ c ≠ ')' ∧ c ≠ '"') (cur t : Str) :
    lexAux (.bare cur) (w ++ t) = lexAux (.bare (w.reverse ++ cur)) t := by
  induction w generalizing cur with
  | nil => rfl
  | cons c w ih =>
    obtain ⟨h1, h2, h3, h4⟩ := h c (by simp)
    rw [List.cons_append, lexAux, if_neg (by simp [h1]), if_neg h2, if_neg h3, if_neg h4,
      ih fun c hc => h c (by simp [hc])]
    simp

theorem TokText.lex {t : Str} {ts : List Tok} (h : TokText t ts) : Verif.lex t = some ts := by
  unfold Verif.lex
  induction h with
  | nil => rfl
  | space hc h ih => rw [lexAux, if_pos hc, ih]
  | op h ih => rw [lexAux, if_neg (by decide), if_pos rfl, ih]; rfl
  | cl h ih => rw [lexAux, if_neg (by decide), if_neg (by decide), if_pos rfl, ih]; rfl
  | @bare w t ts hw he h ih =>
    obtain ⟨h0, hw⟩ := hw
    cases w with
    | nil => exact absurd rfl h0
    | cons c w =>
      obtain ⟨h1, h2, h3, h4⟩ := hw c (by simp)
      rw [List.cons_append, lexAux, if_neg (by simp [h1]), if_neg h2, if_neg h3, if_neg h4,
        lexAux_bare (fun c hc => hw c (by simp [hc])), lex_bare_ends he, ih]
      simp
  | quoted hw h ih =>
    rw [lexAux, if_neg (by decide), if_neg (by decide), if_neg (by decide), if_pos rfl, lexAux_quoted hw, ih]
    rfl

theorem lex_quoted_inv : ∀ (n : Nat) (cur t : Str) (ts : List Tok), t.length ≤ n → lexAux (.quoted cur) t = some ts →
    ∃ w s t' ts', t = w ++ '"' :: t' ∧ Quoted w s ∧ lexAux .gap t' = some ts' ∧
      ts = .atom (cur.reverse ++ s) :: ts' := by
  intro n
  induction n with
  | zero =>
    intro cur t ts hn h
    cases t with
    | nil => cases h
    | cons => simp at hn
  | succ n ih =>
    intro cur t ts hn h
    cases t with
    | nil => cases h
    | cons c t =>
      simp only [List.length_cons, Nat.succ_le_succ_iff] at hn
      rw [lexAux] at h
      split at h
      · rename_i e
        subst e
        obtain ⟨ts', h1, h2⟩ := Option.map_eq_some_iff.1 h
        exact ⟨[], [], t, ts', rfl, .nil, h1, by simp [← h2]⟩
      · rename_i h1
        split at h
        · rename_i e
          subst e
          cases t with
          | nil => cases h
          | cons d t =>
            simp only [List.length_cons] at hn
            rw [lexAux] at h
            split at h
            · rename_i e
              subst e
              obtain ⟨w, s, t', ts', rfl, h2, h3, rfl⟩ := ih _ t ts (by omega) h
              exact ⟨_, _, t', ts', rfl, .quote h2, h3, by simp⟩
            · rename_i hd
              obtain ⟨w, s, t', ts', rfl, h2, h3, rfl⟩ := ih _ t ts (by omega) h
              exact ⟨_, _, t', ts', rfl, .slash hd h2, h3, by simp⟩
        · rename_i h2
          obtain ⟨w, s, t', ts', rfl, h3, h4, rfl⟩ := ih _ t ts hn h
          exact ⟨_, _, t', ts', rfl, .plain h1 h2 h3, h4, by simp⟩

theorem lex_bare_inv : ∀ (t cur : Str) (ts : List Tok), lexAux (.bare cur) t = some ts →
    ∃ w t' ts', t = w ++ t' ∧ (∀ c ∈ w, isSexpSpace c = false ∧ c ≠ '(' ∧ c ≠ ')' ∧ c ≠ '"') ∧ WordEnds t' ∧
      lexAux .gap t' = some ts' ∧ ts = .atom (cur.reverse ++ w) :: ts' := by
  intro t
  induction t with
  | nil =>
    intro cur ts h
    cases h
    exact ⟨[], [], [], rfl, by simp, by simp [WordEnds], rfl, by simp⟩
  | cons c t ih =>
    intro cur ts h
    by_cases hc : isSexpSpace c = true ∨ c = '(' ∨ c = ')' ∨ c = '"'
    · have he : WordEnds (c :: t) := by
        intro d r e
        cases e
        exact hc
      rw [lex_bare_ends he] at h
      obtain ⟨ts', h1, h2⟩ := Option.map_eq_some_iff.1 h
      exact ⟨[], c :: t, ts', rfl, by simp, he, h1, by simp [← h2]⟩
    · simp only [not_or] at hc
      obtain ⟨h1, h2, h3, h4⟩ := hc
      rw [lexAux, if_neg h1, if_neg h2, if_neg h3, if_neg h4] at h
      obtain ⟨w, t', ts', rfl, h5, h6, h7, rfl⟩ := ih _ _ h
      refine ⟨c :: w, t', ts', rfl, ?_, h6, h7, by simp⟩
      intro d hd
      rcases List.mem_cons.1 hd with rfl | hd
      · exact ⟨by simpa using h1, h2, h3, h4⟩
      · exact h5 d hd

theorem lex_tokText : ∀ (n : Nat) (t : Str) (ts : List Tok), t.length ≤ n → lex t = some ts → TokText t ts := by
  intro n
  induction n with
  | zero =>
    intro t ts hn h
    cases t with
    | nil => cases h; exact .nil
    | cons => simp at hn
  | succ n ih =>
    intro t ts hn h
    cases t with
    | nil => cases h; exact .nil
    | cons c t =>
      simp only [List.length_cons, Nat.succ_le_succ_iff] at hn
      unfold lex at h
      rw [lexAux] at h
      split at h
      · exact .space (by assumption) (ih t ts hn h)
      rename_i h1
      split at h
      · rename_i e
        subst e
        obtain ⟨ts', h2, rfl⟩ := Option.map_eq_some_iff.1 h
        exact .op (ih t ts' hn h2)
      rename_i h2
      split at h
      · rename_i e
        subst e
        obtain ⟨ts', h2, rfl⟩ := Option.map_eq_some_iff.1 h
        exact .cl (ih t ts' hn h2)
      rename_i h3
      split at h
      · rename_i e
        subst e
        obtain ⟨w, s, t', ts', rfl, hw, ht, rfl⟩ := lex_quoted_inv _ _ t ts (Nat.le_refl _) h
        exact .quoted hw (ih t' ts' (by simp at hn; omega) ht)
      rename_i h4
      obtain ⟨w, t', ts', rfl, hw, he, ht, rfl⟩ := lex_bare_inv t _ ts h
      refine TokText.bare (w := c :: w) ⟨by simp, ?_⟩ he (ih t' ts' (by simp at hn; omega) ht)
      intro d hd
      rcases List.mem_cons.1 hd with rfl | hd
      · exact ⟨by simpa using h1, h2, h3, h4⟩
      · exact hw d hd

theorem lex_iff (t : Str) (ts : List Tok) : lex t = some ts ↔ TokText t ts :=
  ⟨lex_tokText _ t ts (Nat.le_refl _), TokText.lex⟩

/-! ## Trees -/

theorem wordEnds_append {t : Str} (h : WordEnds t) (u : Str) (hu : WordEnds u) : WordEnds (t ++ u) := by
  cases t with
  | nil => exact hu
  | cons c t =>
    intro d r e
    cases e
    exact h c t rfl

theorem wordEnds_close (u : Str) : WordEnds (')' :: u) := by
  intro c r e
  cases e
  exact .inr (.inr (.inl rfl))

theorem TokText.append_close {t u : Str} {ts us : List Tok} (h : TokText t ts) (hu : TokText u us) :
    TokText (t ++ ')' :: u) (ts ++ .cl :: us) := by
  induction h with
  | nil => exact .cl hu
  | space hc h ih => exact .space hc ih
  | op h ih => exact .op ih
  | cl h ih => exact .cl ih
  | bare hw he h ih =>
    rw [List.append_assoc]
    exact .bare hw (wordEnds_append he _ (wordEnds_close u)) ih
  | quoted hw h ih =>
    have := TokText.quoted hw ih
    simpa using this

theorem treesText_toks {t : Str} {es : List Sexp} (h : TreesText t es) :
    ∃ ts, TokText t ts ∧ ∀ l st rest, parseToks (l :: st) (ts ++ rest) = parseToks ((es.reverse ++ l) :: st) rest := by
  induction h with
  | nil => exact ⟨[], .nil, fun l st rest => rfl⟩
  | space hc h ih =>
    obtain ⟨ts, h1, h2⟩ := ih
    exact ⟨ts, .space hc h1, h2⟩
  | bare hw he h ih =>
    obtain ⟨ts, h1, h2⟩ := ih
    refine ⟨_, .bare hw he h1, fun l st rest => ?_⟩
    rw [List.cons_append, parseToks, h2]
    simp
  | quoted hw h ih =>
    obtain ⟨ts, h1, h2⟩ := ih
    refine ⟨_, .quoted hw h1, fun l st rest => ?_⟩
    rw [List.cons_append, parseToks, h2]
    simp
  | list hl h ihl ih =>
    obtain ⟨ts, h1, h2⟩ := ih
    obtain ⟨us, h3, h4⟩ := ihl
    refine ⟨_, .op (h3.append_close h1), fun l st rest => ?_⟩
    rw [List.cons_append, parseToks, List.append_assoc, h4, List.cons_append, parseToks, h2]
    simp

/-- What happens after a list has been closed. -/
def afterClose (l : List Sexp) : List (List Sexp) → List Tok → Res Sexp
  | [], r => finishParse (.list l) r
  | l' :: st, r => parseToks ((.list l :: l') :: st) r

theorem toks_trees : ∀ (n : Nat) (t : Str) (ts : List Tok), t.length ≤ n → TokText t ts → ∀ l st e,
    parseToks (l :: st) ts = .ok e → ∃ body es t' ts', t = body ++ ')' :: t' ∧ TreesText body es ∧ TokText t' ts' ∧
      afterClose ((es.reverse ++ l).reverse) st ts' = .ok e := by
  intro n
  induction n with
  | zero =>
    intro t ts hn ht l st e h
    cases t with
    | nil =>
      have : ts = [] := by
        have := ht.lex
        simpa [lex, lexAux] using this.symm
      subst this
      cases h
    | cons => simp at hn
  | succ n ih =>
    intro t ts hn ht l st e h
    cases ht with
    | nil => cases h
    | space hc ht =>
      obtain ⟨body, es, t', ts', rfl, h1, h2, h3⟩ := ih _ _ (by simpa using hn) ht l st e h
      exact ⟨_, es, t', ts', rfl, .space hc h1, h2, h3⟩
    | @op t ts ht =>
      rw [parseToks] at h
      obtain ⟨body, es, t', ts', rfl, h1, h2, h3⟩ := ih _ _ (by simpa using hn) ht [] (l :: st) e h
      rw [afterClose] at h3
      obtain ⟨body2, es2, t2, ts2, rfl, h4, h5, h6⟩ := ih _ _ (by simp at hn; omega) h2 _ st e h3
      refine ⟨'(' :: (body ++ ')' :: body2), .list es :: es2, t2, ts2, by simp, .list h1 h4, h5, ?_⟩
      simpa using h6
    | @cl t ts ht =>
      refine ⟨[], [], t, ts, rfl, .nil, ht, ?_⟩
      cases st with
      | nil => rw [parseToks] at h; exact h
      | cons l' st => rw [parseToks] at h; exact h
    | @bare w t ts hw he ht =>
      rw [parseToks] at h
      have hw0 : 0 < w.length := List.length_pos_iff.2 hw.1
      obtain ⟨body, es, t', ts', rfl, h1, h2, h3⟩ := ih _ _ (by simp at hn ⊢; omega) ht _ st e h
      refine ⟨w ++ body, .str w :: es, t', ts', by simp, .bare hw ?_ h1, h2, ?_⟩
      · intro c r e
        subst e
        exact he c _ rfl
      · simpa using h3
    | @quoted w s t ts hw ht =>
      rw [parseToks] at h
      obtain ⟨body, es, t', ts', rfl, h1, h2, h3⟩ := ih _ _ (by simp at hn ⊢; omega) ht _ st e h
      refine ⟨'"' :: (w ++ '"' :: body), .str s :: es, t', ts', by simp, .quoted hw h1, h2, ?_⟩
      simpa using h3

theorem tokText_nil {t : Str} (h : TokText t []) : TreesText t [] := by
  generalize hts : ([] : List Tok) = ts at h
  induction h with
  | nil => exact .nil
  | space hc h ih => exact .space hc (ih hts)
  | op => cases hts
  | cl => cases hts
  | bare => cases hts
  | quoted => cases hts

theorem finish_iff (e e' : Sexp) (ts : List Tok) : finishParse e ts = .ok e' ↔ ts = [] ∧ e = e' := by
  cases ts <;> simp [finishParse]

theorem toks_tree {t : Str} {ts : List Tok} (h : TokText t ts) : ∀ e, parseToks [] ts = .ok e → TreeText t e := by
  induction h with
  | nil => intro e h; cases h; exact .inr ⟨.nil, rfl⟩
  | space hc h ih =>
    intro e he
    rcases ih e he with h1 | ⟨h1, h2⟩
    · exact .inl (.space hc h1)
    · exact .inr ⟨.space hc h1, h2⟩
  | op h ih =>
    intro e he
    rw [parseToks] at he
    obtain ⟨body, es, t', ts', rfl, h1, h2, h3⟩ := toks_trees _ _ _ (Nat.le_refl _) h _ _ e he
    rw [afterClose, finish_iff] at h3
    obtain ⟨rfl, rfl⟩ := h3
    refine .inl ?_
    have := TreesText.list h1 (tokText_nil h2)
    simpa using this
  | cl => intro e h; cases h
  | bare hw hE h ih =>
    intro e he
    rw [parseToks, finish_iff] at he
    obtain ⟨rfl, rfl⟩ := he
    exact .inl (.bare hw hE (tokText_nil h))
  | quoted hw h ih =>
    intro e he
    rw [parseToks, finish_iff] at he
    obtain ⟨rfl, rfl⟩ := he
    exact .inl (.quoted hw (tokText_nil h))

theorem treesText_blank {t : Str} (h : TreesText t []) : TokText t [] := by
  generalize hes : ([] : List Sexp) = es at h
  induction h with
  | nil => exact .nil
  | space hc h ih => exact .space hc (ih hes)
  | bare => cases hes
  | quoted => cases hes
  | list => cases hes

theorem tree_toks {t : Str} {e : Sexp} (h : TreesText t [e]) : ∃ ts, TokText t ts ∧ parseToks [] ts = .ok e := by
  generalize hes : [e] = es at h
  induction h with
  | nil => cases hes
  | space hc h ih =>
    obtain ⟨ts, h1, h2⟩ := ih hes
    exact ⟨ts, .space hc h1, h2⟩
  | bare hw he h ih =>
    cases hes
    exact ⟨_, .bare hw he (treesText_blank h), rfl⟩
  | quoted hw h ih =>
    cases hes
    exact ⟨_, .quoted hw (treesText_blank h), rfl⟩
  | list hl h ihl ih =>
    cases hes
    obtain ⟨us, h3, h4⟩ := treesText_toks hl
    refine ⟨_, .op (h3.append_close (treesText_blank h)), ?_⟩
    rw [parseToks, h4, parseToks]
    simp [finishParse]

/-- A text is read as a tree exactly if it follows the grammar. -/
theorem parseSexp_iff (t : Str) (e : Sexp) : parseSexp t = .ok e ↔ TreeText t e := by
  unfold parseSexp
  constructor
  · intro h
    cases hl : lex t with
    | none => rw [hl] at h; cases h
    | some ts =>
      rw [hl] at h
      exact toks_tree ((lex_iff ..).1 hl) e h
  · intro h
    rcases h with h | ⟨h, rfl⟩
    · obtain ⟨ts, h1, h2⟩ := tree_toks h
      rw [h1.lex]
      exact h2
    · rw [(treesText_blank h).lex]
      rfl

end Verif
