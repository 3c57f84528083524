import Verif.Lemmas.Formatter
import Verif.Lemmas.Calm
/-!
# Lemmas: a tree is read back only if its atoms survive
-/

namespace Verif.Sexp.Text
open Verif Spec

/-- What has been read of a quoted atom stays at its front. -/
theorem quoted_front (t : Str) : ∀ (cur a : Str) (us : List Tok),
    (lexAux (.quoted cur) t = some (.atom a :: us) → ∃ b, a = cur.reverse ++ b) ∧
    (lexAux (.esc cur) t = some (.atom a :: us) → ∃ b, a = cur.reverse ++ b) := by
  induction t with
  | nil => intro cur a us; exact ⟨fun h => (by cases h), fun h => (by cases h)⟩
  | cons c t ih =>
    intro cur a us
    constructor
    · intro h
      rw [lexAux] at h
      by_cases h1 : c = '"'
      · rw [if_pos h1] at h
        obtain ⟨us', _, h3⟩ := Option.map_eq_some_iff.1 h
        cases h3
        exact ⟨[], by simp⟩
      rw [if_neg h1] at h
      by_cases h2 : c = '\\'
      · rw [if_pos h2] at h
        exact (ih cur a us).2 h
      rw [if_neg h2] at h
      obtain ⟨b, hb⟩ := (ih _ a us).1 h
      exact ⟨c :: b, by simpa using hb⟩
    · intro h
      rw [lexAux] at h
      by_cases h1 : c = '"'
      · rw [if_pos h1] at h
        obtain ⟨b, hb⟩ := (ih _ a us).1 h
        exact ⟨'"' :: b, by simpa using hb⟩
      rw [if_neg h1] at h
      obtain ⟨b, hb⟩ := (ih _ a us).1 h
      exact ⟨'\\' :: c :: b, by simpa using hb⟩

/-- If a quoted atom is read back, its backslashes come in pairs, and reading continues behind it. -/
theorem escaped_inv (s : Str) : ∀ (cur r : Str) (us : List Tok),
    (lexAux (.quoted cur) (Fm.escapeQuotes s ++ '"' :: r) = some (.atom (cur.reverse ++ s) :: us) →
      pairedAfter false s = true ∧ lexAux .gap r = some us) ∧
    (lexAux (.esc cur) (Fm.escapeQuotes s ++ '"' :: r) = some (.atom (cur.reverse ++ '\\' :: s) :: us) →
      pairedAfter true s = true ∧ lexAux .gap r = some us) := by
  induction s with
  | nil =>
    intro cur r us
    constructor
    · intro h
      simp only [Fm.escapeQuotes, List.flatMap_nil, List.nil_append, List.append_nil, lexAux, if_true] at h
      obtain ⟨us', h2, h3⟩ := Option.map_eq_some_iff.1 h
      exact ⟨rfl, by rw [h2, (List.cons.inj h3).2]⟩
    · intro h
      simp only [Fm.escapeQuotes, List.flatMap_nil, List.nil_append, lexAux, if_true] at h
      obtain ⟨b, hb⟩ := (quoted_front _ _ _ _).1 h
      simp at hb
  | cons c s ih =>
    intro cur r us
    rw [escape_cons, pairedAfter, pairedAfter]
    by_cases h1 : c = '\\'
    · subst h1
      refine ⟨fun h => ?_, fun h => ?_⟩
      · refine (ih cur r us).2 ?_
        simpa [lexAux] using h
      · refine (ih ('\\' :: '\\' :: cur) r us).1 ?_
        simpa [lexAux] using h
    · by_cases h2 : c = '"'
      · subst h2
        refine ⟨fun h => ?_, fun h => ?_⟩
        · have := (ih ('"' :: cur) r us).1 (by simpa [lexAux] using h)
          simpa using this
        · simp [lexAux] at h
      · rw [if_neg h1, if_neg h1, if_neg h2, if_neg h2, if_neg h2]
        refine ⟨fun h => ?_, fun h => ?_⟩
        · exact (ih (c :: cur) r us).1 (by simpa [lexAux, h1, h2] using h)
        · exact (ih (c :: '\\' :: cur) r us).1 (by simpa [lexAux, h1, h2] using h)

theorem atom_inv (q : Str → Bool) (hq : QuotesWhenNeeded q) (s r : Str) (us : List Tok) (hr : Stops r)
    (h : lexAux .gap (Fm.atomText q s ++ r) = some (.atom s :: us)) : OkAtom q s ∧ lexAux .gap r = some us := by
  unfold OkAtom
  by_cases hs : q s = true
  · rw [if_pos hs]
    unfold Fm.atomText at h
    rw [if_pos hs] at h
    exact (escaped_inv s [] r us).1 (by simpa [lexAux, isSexpSpace] using h)
  · rw [if_neg hs]
    have hb : BareSafe s := hq s (by simpa using hs)
    have ho : OkAtom q s := by unfold OkAtom; rw [if_neg hs]; exact hb
    rw [lex_atom q s ho hr] at h
    obtain ⟨us', h2, h3⟩ := Option.map_eq_some_iff.1 h
    cases h3
    exact ⟨hb, h2⟩

theorem map_cons_inv {x : Tok} {o : Option (List Tok)} {us : List Tok} (h : o.map (x :: ·) = some (x :: us)) :
    o = some us := by
  obtain ⟨us', h2, h3⟩ := Option.map_eq_some_iff.1 h
  cases h3
  exact h2

theorem Full.list_inv {l : List Sexp} (h : (Sexp.list l).Full) : ∀ x ∈ l, x.Full := by
  cases h with
  | list _ h => exact h

mutual
theorem ser_inv (q : Str → Bool) (hq : QuotesWhenNeeded q) (st : Fm.St) (r : Str) (hr : Stops r) (us : List Tok) :
    ∀ e : Sexp, e.Full → lexAux .gap ((Fm.ser q st e).1 ++ r) = some (toks e ++ us) →
      OkTree q e ∧ lexAux .gap r = some us
  | .str s, _, h => atom_inv q hq s r us hr (by simpa [Fm.ser, toks] using h)
  | .empty, hf, _ => by cases hf
  | .list [], _, h => by
    obtain ⟨w, hw, _, h1⟩ := openList_text st none
    obtain ⟨u, u', hu, hu', _, h2⟩ := closeList_text (Fm.openList st none).2
    simp only [Fm.ser, h1, h2, List.append_assoc, List.cons_append, List.nil_append, lex_blank hw,
      lex_open, lex_blank hu, lex_close, lex_blank hu', toks, toksL] at h
    exact ⟨trivial, map_cons_inv (map_cons_inv h)⟩
  | .list (x :: xs), hf, h => by
    obtain ⟨w, hw, _, h1⟩ := openList_text st (some x)
    obtain ⟨u, u', hu, hu', hun, h2⟩ :=
      closeList_text (Fm.serRest q (Fm.ser q (Fm.openList st (some x)).2 x).2 xs).2
    have hs2 : Stops (u ++ (')' :: (u' ++ r))) := stops_blank_cons hun (.inr (.inr rfl))
    simp only [Fm.ser, h1, h2, List.append_assoc, List.cons_append, List.nil_append, lex_blank hw,
      lex_open, toks, toksL] at h
    have hf' := Full.list_inv hf
    rw [List.forall_mem_cons] at hf'
    obtain ⟨o1, h3⟩ := ser_inv q hq _ _ (stops_serRest q _ xs hs2) _ x hf'.1 (map_cons_inv h)
    obtain ⟨o2, h4⟩ := serRest_inv q hq _ _ hs2 _ xs hf'.2 h3
    rw [lex_blank hu, lex_close, lex_blank hu'] at h4
    exact ⟨⟨o1, o2⟩, map_cons_inv h4⟩
theorem serRest_inv (q : Str → Bool) (hq : QuotesWhenNeeded q) (st : Fm.St) (r : Str) (hr : Stops r) (us : List Tok) :
    ∀ l : List Sexp, (∀ x ∈ l, x.Full) → lexAux .gap ((Fm.serRest q st l).1 ++ r) = some (toksL l ++ us) →
      OkTrees q l ∧ lexAux .gap r = some us
  | [], _, h => ⟨trivial, by simpa [Fm.serRest, toksL] using h⟩
  | x :: xs, hf, h => by
    rw [List.forall_mem_cons] at hf
    simp only [Fm.serRest, List.append_assoc, lex_blank (element_blank st x), toksL] at h
    obtain ⟨o1, h3⟩ := ser_inv q hq _ _ (stops_serRest q _ xs hr) _ x hf.1 h
    obtain ⟨o2, h4⟩ := serRest_inv q hq _ _ hr _ xs hf.2 h3
    exact ⟨⟨o1, o2⟩, h4⟩
end

/-- The tokens of the open lists. -/
def stackToks : List (List Sexp) → List Tok
  | [] => []
  | l :: st => stackToks st ++ .op :: toksL l.reverse

theorem toksL_append (a b : List Sexp) : toksL (a ++ b) = toksL a ++ toksL b := by
  induction a with
  | nil => rfl
  | cons x a ih => simp [toksL, ih]

/-- The tokens of what is read are the tokens read. -/
theorem parseToks_toks (ts : List Tok) : ∀ (st : List (List Sexp)) (e : Sexp), parseToks st ts = .ok e →
    stackToks st ++ ts = toks e := by
  have fin : ∀ (e e' : Sexp) ts, finishParse e ts = .ok e' → ts = [] ∧ e = e' := by
    intro e e' ts h
    cases ts with
    | nil => cases h; exact ⟨rfl, rfl⟩
    | cons => cases h
  induction ts with
  | nil =>
    intro st e h
    cases st with
    | nil => cases h; rfl
    | cons => cases h
  | cons t ts ih =>
    intro st e h
    match st, t with
    | [], .op =>
      rw [parseToks] at h
      simpa [stackToks, toksL] using ih _ _ h
    | [], .cl => simp [parseToks] at h
    | [], .atom a =>
      rw [parseToks] at h
      obtain ⟨rfl, rfl⟩ := fin _ _ _ h
      rfl
    | l :: st, .op =>
      rw [parseToks] at h
      simpa [stackToks, toksL] using ih _ _ h
    | l :: st, .atom a =>
      rw [parseToks] at h
      simpa [stackToks, toksL, toksL_append, toks] using ih _ _ h
    | [l], .cl =>
      rw [parseToks] at h
      obtain ⟨rfl, rfl⟩ := fin _ _ _ h
      simp [stackToks, toks]
    | l :: l' :: st, .cl =>
      rw [parseToks] at h
      simpa [stackToks, toksL, toksL_append, toks] using ih _ _ h

/-- A tree is read back exactly if its atoms survive (or there is nothing to read). -/
theorem parse_ser_iff (q : Str → Bool) (hq : QuotesWhenNeeded q) (st : Fm.St) (e : Sexp) :
    parseSexp (Fm.ser q st e).1 = .ok e ↔ e = .empty ∨ OkTree q e := by
  constructor
  · intro h
    unfold parseSexp at h
    cases hl : lex (Fm.ser q st e).1 with
    | none => rw [hl] at h; cases h
    | some ts =>
      rw [hl] at h
      rcases (parseToks_full ts [] (by simp)).2 e h with hf | hf
      · right
        have ht := parseToks_toks ts [] e h
        refine (ser_inv q hq st [] (.inl rfl) [] e hf ?_).1
        rw [List.append_nil, List.append_nil, ← ht]
        exact hl
      · exact .inl hf
  · rintro (rfl | h)
    · rfl
    · exact parse_ser q st e h

/-! ## Paired backslashes -/

theorem notail_slashes {a : Str} {m : Nat} {c : Str} (h : List.replicate m '\\' = a ++ c)
    (ha : ∀ a', a ≠ a' ++ ['\\']) : a = [] := by
  rcases List.eq_nil_or_concat a with h1 | ⟨a', x, rfl⟩
  · exact h1
  · have : x ∈ List.replicate m '\\' := by rw [h]; simp
    rw [List.eq_of_mem_replicate this, List.concat_eq_append] at ha
    exact absurd rfl (ha a')

theorem run_split {m n : Nat} {c : Char} {s a b : Str} (hc : c ≠ '\\')
    (h : List.replicate m '\\' ++ c :: s = a ++ (List.replicate n '\\' ++ b))
    (ha : ∀ a', a ≠ a' ++ ['\\']) (hb : ∀ b', b ≠ '\\' :: b') :
    (a = [] ∧ n = m ∧ b = c :: s) ∨ ∃ a', s = a' ++ (List.replicate n '\\' ++ b) ∧
      a = List.replicate m '\\' ++ c :: a' := by
  induction m generalizing a n with
  | zero =>
    cases a with
    | nil =>
      left
      cases n with
      | zero => exact ⟨rfl, rfl, by simpa using h.symm⟩
      | succ n =>
        rw [List.replicate_succ] at h
        exact absurd (List.cons.inj h).1 hc
    | cons x a =>
      right
      obtain ⟨rfl, hx⟩ := List.cons.inj h
      exact ⟨a, hx, rfl⟩
  | succ m ih =>
    rw [List.replicate_succ, List.cons_append] at h
    cases a with
    | nil =>
      cases n with
      | zero =>
        exact absurd h.symm (hb _)
      | succ n =>
        rw [List.replicate_succ] at h
        rcases ih (a := []) (List.cons.inj h).2 ha with ⟨h1, h2, h3⟩ | ⟨a', h1, h2⟩
        · exact .inl ⟨rfl, by rw [h2], h3⟩
        · simp at h2
    | cons x a =>
      obtain ⟨rfl, hx⟩ := List.cons.inj h
      have ha' : ∀ a', a ≠ a' ++ ['\\'] := fun a' hh => ha ('\\' :: a') (by rw [hh]; rfl)
      rcases ih hx ha' with ⟨h1, h2, h3⟩ | ⟨a', h1, h2⟩
      · subst h1
        exact absurd rfl (ha [])
      · exact .inr ⟨a', h1, by rw [h2]; rfl⟩

theorem paired_iff (s : Str) : ∀ m : Nat, pairedAfter (m % 2 == 1) s = true ↔
    ∀ (a : Str) (n : Nat) (b : Str), List.replicate m '\\' ++ s = a ++ (List.replicate n '\\' ++ b) →
      (∀ a', a ≠ a' ++ ['\\']) → (b = [] ∨ ∃ b', b = '"' :: b') → n % 2 = 0 := by
  induction s with
  | nil =>
    intro m
    constructor
    · intro h a n b he ha hb
      rw [List.append_nil] at he
      have h0 := notail_slashes he ha
      subst h0
      have hb0 : b = [] := by
        rcases hb with h1 | ⟨b', rfl⟩
        · exact h1
        · have : '"' ∈ List.replicate m '\\' := by rw [he]; simp
          exact absurd (List.eq_of_mem_replicate this) (by decide)
      subst hb0
      have := congrArg List.length he
      simp at this
      subst this
      simp [pairedAfter] at h
      omega
    · intro h
      have := h [] m [] (by simp) (by simp) (.inl rfl)
      simp [pairedAfter]
      omega
  | cons c s ih =>
    intro m
    have key : ∀ x : Bool, x = (0 % 2 == 1) → (pairedAfter x s = true ↔
        ∀ (a : Str) (n : Nat) (b : Str), s = a ++ (List.replicate n '\\' ++ b) →
      (∀ a', a ≠ a' ++ ['\\']) → (b = [] ∨ ∃ b', b = '"' :: b') → n % 2 = 0) := by
      rintro x rfl
      simpa using ih 0
    rw [pairedAfter]
    by_cases h1 : c = '\\'
    · subst h1
      have h2 : (!(m % 2 == 1)) = ((m + 1) % 2 == 1) := by
        rcases Nat.mod_two_eq_zero_or_one m with h | h
        · have : (m + 1) % 2 = 1 := by omega
          rw [h, this]; rfl
        · have : (m + 1) % 2 = 0 := by omega
          rw [h, this]; rfl
      rw [if_pos rfl, h2, ih (m + 1), List.replicate_succ', List.append_assoc]
      rfl
    · rw [if_neg h1]
      have hq : ∀ b : Str, (b = [] ∨ ∃ b', b = '"' :: b') → ∀ b', b ≠ '\\' :: b' := by
        rintro b (rfl | ⟨b', rfl⟩) b'' h <;> cases h
      have tail : ∀ {a : Str}, (∀ a', a ≠ a' ++ ['\\']) →
          ∀ a', List.replicate m '\\' ++ c :: a ≠ a' ++ ['\\'] := by
        intro a ha a' he
        rcases List.eq_nil_or_concat a with rfl | ⟨a2, x, rfl⟩
        · exact h1 (List.cons.inj (List.append_inj' he rfl).2).1
        · rw [List.concat_eq_append] at he ha
          have : List.replicate m '\\' ++ c :: (a2 ++ [x]) = (List.replicate m '\\' ++ c :: a2) ++ [x] := by simp
          rw [this] at he
          exact ha a2 (by rw [(List.append_inj' he rfl).2])
      by_cases h2 : c = '"'
      · rw [if_pos h2, Bool.and_eq_true, key false rfl]
        constructor
        · rintro ⟨h3, h4⟩ a n b he ha hb
          rcases run_split h1 he ha (hq b hb) with ⟨rfl, rfl, rfl⟩ | ⟨a', he', rfl⟩
          · simp at h3; omega
          · refine h4 a' n b he' (fun a2 h => ha (List.replicate m '\\' ++ c :: a2) (by rw [h]; simp)) hb
        · intro h
          refine ⟨?_, fun a n b he ha hb => ?_⟩
          · have := h [] m (c :: s) (by simp) (by simp) (.inr ⟨s, by rw [h2]⟩)
            simp
            omega
          · exact h (List.replicate m '\\' ++ c :: a) n b (by rw [he]; simp) (tail ha) hb
      · rw [if_neg h2, key false rfl]
        constructor
        · intro h4 a n b he ha hb
          rcases run_split h1 he ha (hq b hb) with ⟨rfl, rfl, rfl⟩ | ⟨a', he', rfl⟩
          · rcases hb with hb | ⟨b', hb⟩
            · cases hb
            · exact absurd (List.cons.inj hb).1 h2
          · exact h4 a' n b he' (fun a2 h => ha (List.replicate m '\\' ++ c :: a2) (by rw [h]; simp)) hb
        · intro h a n b he ha hb
          exact h (List.replicate m '\\' ++ c :: a) n b (by rw [he]; simp) (tail ha) hb

end Verif.Sexp.Text
