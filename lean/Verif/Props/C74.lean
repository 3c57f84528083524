import Verif.Model.Split
import Verif.Spec.Cut
/-!
# C74: how a line is cut into words

The old text formats are read line by line, and nearly every line is cut into words
with the same function, which knows quotation marks.  Here is what it does with an
arbitrary line.
-/

namespace Verif

open Spec

/-! ## Lemmas -/

def Spec.Piece.isQuoted : Piece → Bool
  | .bare _ => false
  | .quoted _ => true

theorem Split.run_inside (n : Option Nat) (i : Nat) (hn : n ≠ some i) (v : List Str) (seen : Bool) (q : Str) (hq : '"' ∉ q)
    (cur : Str) : q.foldl (splitStep n) ⟨i, v, true, seen, cur⟩ = ⟨i, v, true, seen, q.reverse ++ cur⟩ := by
  induction q generalizing cur with
  | nil => rfl
  | cons c q ih =>
    rw [List.mem_cons, not_or] at hq
    have hc : (c == '"') = false := by simpa using fun h : c = '"' => hq.1 h.symm
    have : splitStep n ⟨i, v, true, seen, cur⟩ c = ⟨i, v, true, seen, c :: cur⟩ := by
      simp [splitStep, hn, hc]
    rw [List.foldl_cons, this, ih hq.2]
    simp

theorem Split.run_piece (n : Option Nat) (i : Nat) (hn : n ≠ some i) (v : List Str) (seen : Bool) (p : Piece) (hp : p.Good)
    (cur : Str) : p.raw.foldl (splitStep n) ⟨i, v, false, seen, cur⟩ =
      ⟨i, v, false, seen || p.isQuoted, p.value.reverse ++ cur⟩ := by
  cases p with
  | bare c =>
    have h1 : (c == '"') = false := by simpa using hp.2
    have h2 : (c == ' ') = false := by simpa using hp.1
    simp [Piece.raw, splitStep, hn, h1, h2, Piece.isQuoted, Piece.value]
  | quoted q =>
    have h0 : splitStep n ⟨i, v, false, seen, cur⟩ '"' = ⟨i, v, true, seen, cur⟩ := by simp [splitStep, hn]
    have h1 : splitStep n ⟨i, v, true, seen, q.reverse ++ cur⟩ '"' = ⟨i, v, false, true, q.reverse ++ cur⟩ := by
      simp [splitStep, hn]
    rw [Piece.raw, List.cons_append, List.foldl_cons, h0, List.foldl_append, Split.run_inside n i hn v seen q hp,
      List.foldl_cons, h1]
    simp [Piece.isQuoted, Piece.value]

theorem Split.run_pieces (n : Option Nat) (i : Nat) (hn : n ≠ some i) (v : List Str) (ps : List Piece)
    (hp : ∀ p ∈ ps, p.Good) (seen : Bool) (cur : Str) :
    (ps.flatMap Piece.raw).foldl (splitStep n) ⟨i, v, false, seen, cur⟩ =
      ⟨i, v, false, seen || ps.any Piece.isQuoted, (ps.flatMap Piece.value).reverse ++ cur⟩ := by
  induction ps generalizing seen cur with
  | nil => simp
  | cons p ps ih =>
    rw [List.forall_mem_cons] at hp
    rw [List.flatMap_cons, List.foldl_append, Split.run_piece n i hn v seen p hp.1, ih hp.2]
    simp [Bool.or_assoc]

theorem Split.run_rest (i : Nat) (v : List Str) (seen : Bool) (r cur : Str) :
    r.foldl (splitStep (some i)) ⟨i, v, false, seen, cur⟩ = ⟨i, v, false, seen, r.reverse ++ cur⟩ := by
  induction r generalizing cur with
  | nil => rfl
  | cons c r ih =>
    have : splitStep (some i) ⟨i, v, false, seen, cur⟩ c = ⟨i, v, false, seen, c :: cur⟩ := by simp [splitStep]
    rw [List.foldl_cons, this, ih]
    simp

/-- Something is in a word that has pieces. -/
theorem Split.visible (p : Piece) (ps : List Piece) :
    (!((p :: ps).flatMap Piece.value).reverse.isEmpty || (p :: ps).any Piece.isQuoted) = true := by
  cases p with
  | bare c => simp [Piece.value]
  | quoted q => simp [Piece.isQuoted]

theorem Split.cut_run {m : Option Nat} {s : Str} {ws : List Str} (h : Cut m s ws) (i : Nat) (v : List Str) :
    splitFinish (s.foldl (splitStep (m.map (· + i))) ⟨i, v, false, false, []⟩) = v.reverse ++ ws := by
  have ne : ∀ {m : Option Nat} (i : Nat), m ≠ some 0 → m.map (· + i) ≠ some i := by
    intro m i h h'
    cases m with
    | none => cases h'
    | some k =>
      simp only [Option.map_some, Option.some.injEq] at h'
      exact h (by rw [show k = 0 by omega])
  induction h generalizing i v with
  | nothing => simp [splitFinish]
  | @rest c r =>
    have := Split.run_rest i v false (c :: r) []
    simp only [Option.map_some, Nat.zero_add, this]
    simp [splitFinish]
  | @space n s ws h0 _ ih =>
    have : splitStep (n.map (· + i)) ⟨i, v, false, false, []⟩ ' ' = ⟨i, v, false, false, []⟩ := by
      simp [splitStep, ne i h0]
    rw [List.foldl_cons, this, ih]
  | @last n p ps h0 hg =>
    rw [Split.run_pieces _ i (ne i h0) v _ hg, splitFinish, if_pos]
    · simp
    · simpa using Split.visible p ps
  | @word n p ps s ws h0 hg _ ih =>
    rw [List.foldl_append, Split.run_pieces _ i (ne i h0) v _ hg, List.foldl_cons]
    have hs : splitStep (n.map (· + i)) ⟨i, v, false, false || (p :: ps).any Piece.isQuoted,
        ((p :: ps).flatMap Piece.value).reverse ++ []⟩ ' ' =
        ⟨i + 1, (p :: ps).flatMap Piece.value :: v, false, false, []⟩ := by
      have hv := Split.visible p ps
      simp only [splitStep, if_neg (ne i h0), Bool.false_or, List.append_nil]
      rw [if_neg (by simp), if_neg (by simp), if_pos (by simp), if_pos hv]
      simp
    have hm : n.map (· + i) = (n.map (· - 1)).map (· + (i + 1)) := by
      cases n with
      | none => rfl
      | some k =>
        simp only [Option.map_some, Option.some.injEq]
        have : k ≠ 0 := fun h => h0 (by rw [h])
        omega
    rw [hs, hm, ih]
    simp
  | @open_ n ps q h0 hg hq hne =>
    rw [List.foldl_append, Split.run_pieces _ i (ne i h0) v _ hg, List.foldl_cons]
    have hs : ∀ seen cur, splitStep (n.map (· + i)) ⟨i, v, false, seen, cur⟩ '"' = ⟨i, v, true, seen, cur⟩ := by
      intro seen cur
      simp [splitStep, ne i h0]
    rw [hs, Split.run_inside _ i (ne i h0) v _ q hq, splitFinish, if_pos]
    · simp
    · rcases hne with h | h
      · cases ps with
        | nil => exact absurd rfl h
        | cons p ps =>
          have := Split.visible p ps
          rw [Bool.or_eq_true] at this ⊢
          rcases this with h | h
          · left
            simp only [Bool.not_eq_true', List.isEmpty_eq_false_iff] at h ⊢
            simp only [ne_eq, List.append_eq_nil_iff, not_and]
            intro _ h'
            exact absurd h' h
          · right; simpa using h
      · simp [h]
  | @mark n h0 =>
    simp [splitStep, ne i h0, splitFinish]

/-- Every text starts with the pieces of a word. -/
theorem Split.pieces (k : Nat) : ∀ s : Str, s.length ≤ k → ∃ ps : List Piece, (∀ p ∈ ps, p.Good) ∧
    (s = ps.flatMap Piece.raw ∨ (∃ r, s = ps.flatMap Piece.raw ++ ' ' :: r) ∨
      ∃ q, s = ps.flatMap Piece.raw ++ '"' :: q ∧ '"' ∉ q) := by
  induction k with
  | zero =>
    intro s hs
    cases s with
    | nil => exact ⟨[], by simp, .inl rfl⟩
    | cons c s => simp at hs
  | succ k ih =>
    intro s hs
    have add : ∀ (p : Piece) (t : Str), p.Good → s = p.raw ++ t → t.length ≤ k → ∃ ps : List Piece, (∀ p ∈ ps, p.Good) ∧
        (s = ps.flatMap Piece.raw ∨ (∃ r, s = ps.flatMap Piece.raw ++ ' ' :: r) ∨
          ∃ q, s = ps.flatMap Piece.raw ++ '"' :: q ∧ '"' ∉ q) := by
      rintro p t hp rfl ht
      obtain ⟨ps, hg, h⟩ := ih t ht
      refine ⟨p :: ps, List.forall_mem_cons.2 ⟨hp, hg⟩, ?_⟩
      rcases h with rfl | ⟨r, rfl⟩ | ⟨q, rfl, hq⟩
      · exact .inl (by simp)
      · exact .inr (.inl ⟨r, by simp⟩)
      · exact .inr (.inr ⟨q, by simp, hq⟩)
    cases s with
    | nil => exact ⟨[], by simp, .inl rfl⟩
    | cons c s =>
      rw [List.length_cons] at hs
      by_cases h1 : c = ' '
      · subst h1
        exact ⟨[], by simp, .inr (.inl ⟨s, rfl⟩)⟩
      · by_cases h2 : c = '"'
        · subst h2
          by_cases hq : '"' ∈ s
          · obtain ⟨q, r, rfl, hn⟩ := List.eq_append_cons_of_mem hq
            exact add (.quoted q) r hn (by simp [Piece.raw]) (by simp at hs; omega)
          · exact ⟨[], by simp, .inr (.inr ⟨s, rfl, hq⟩)⟩
        · exact add (.bare c) s ⟨h1, h2⟩ rfl (by omega)

/-- Every line can be cut. -/
theorem Split.cut_total (k : Nat) : ∀ (n : Option Nat) (s : Str), s.length ≤ k → ∃ ws, Cut n s ws := by
  induction k with
  | zero =>
    intro n s hs
    cases s with
    | nil => exact ⟨[], .nothing⟩
    | cons c s => simp at hs
  | succ k ih =>
    intro n s hs
    by_cases h0 : n = some 0
    · subst h0
      cases s with
      | nil => exact ⟨[], .nothing⟩
      | cons c s => exact ⟨_, .rest⟩
    · obtain ⟨ps, hg, h⟩ := Split.pieces s.length s (Nat.le_refl _)
      cases ps with
      | nil =>
        rcases h with rfl | ⟨r, rfl⟩ | ⟨q, rfl, hq⟩
        · exact ⟨[], .nothing⟩
        · obtain ⟨ws, hw⟩ := ih n r (by simp at hs; omega)
          exact ⟨ws, .space h0 hw⟩
        · by_cases hq0 : q = []
          · subst hq0
            exact ⟨[], .mark h0⟩
          · exact ⟨_, .open_ h0 hg hq (.inr hq0)⟩
      | cons p ps =>
        rcases h with rfl | ⟨r, rfl⟩ | ⟨q, rfl, hq⟩
        · exact ⟨_, .last h0 hg⟩
        · obtain ⟨ws, hw⟩ := ih (n.map (· - 1)) r (by simp at hs; omega)
          exact ⟨_, .word h0 hg hw⟩
        · exact ⟨_, .open_ h0 hg hq (.inl (by simp))⟩

/-! ## Theorems -/

/-- Cutting a line, exactly. -/
theorem C74_split (s : Str) (ws : List Str) : splitQ s = .ok ws ↔ Cut none s ws := by
  have h : ∀ ws, Cut none s ws → splitQ s = .ok ws := by
    intro ws h
    have := Split.cut_run h 0 []
    simpa [splitQ, splitInt] using this
  refine ⟨fun hs => ?_, h ws⟩
  obtain ⟨ws', hc⟩ := Split.cut_total s.length none s (Nat.le_refl _)
  have := h ws' hc
  rw [hs] at this
  cases this
  exact hc

/-- Cutting never fails. -/
theorem C74_split_total (s : Str) : ∃ ws, splitQ s = .ok ws := by
  obtain ⟨ws, hc⟩ := Split.cut_total s.length none s (Nat.le_refl _)
  exact ⟨ws, (C74_split s ws).2 hc⟩

/-- Cutting off `n` words fails if there are less, and otherwise gives them and the
rest of the line. -/
theorem C74_split_n (n : Nat) (s : Str) : ∃ ws, Cut (some n) s ws ∧
    (∀ ws', Cut (some n) s ws' → ws' = ws) ∧
    splitN n s = if ws.length < n then .err .other else .ok ws := by
  have key : ∀ ws, Cut (some n) s ws → splitFinish (s.foldl (splitStep (some n)) ⟨0, [], false, false, []⟩) = ws :=
    fun ws h => by simpa using Split.cut_run h 0 []
  obtain ⟨ws, hc⟩ := Split.cut_total s.length (some n) s (Nat.le_refl _)
  refine ⟨ws, hc, fun ws' h' => (key ws' h').symm.trans (key ws hc), ?_⟩
  simp [splitN, splitInt, key ws hc]

/-- The number of words is the limit or one more. -/
theorem C74_split_count (n : Nat) (s : Str) (ws : List Str) (h : splitN n s = .ok ws) :
    n ≤ ws.length ∧ ws.length ≤ n + 1 := by
  obtain ⟨ws', hc, _, h'⟩ := C74_split_n n s
  rw [h] at h'
  have key : ∀ (m : Option Nat) (s : Str) (ws : List Str), Cut m s ws → ∀ k, m = some k → ws.length ≤ k + 1 := by
    intro m s ws hc
    induction hc with
    | word h0 _ _ ih =>
      rintro k rfl
      have := ih (k - 1) rfl
      have : k ≠ 0 := fun h => h0 (by rw [h])
      simp only [List.length_cons]
      omega
    | space h0 _ ih => exact ih
    | _ => intro k _; simp
  split at h' <;> cases h'
  exact ⟨by omega, key _ _ _ hc n rfl⟩

/-! ## Examples -/

/-- Words, quoted words, a quoted piece inside a word, an empty word. -/
example : splitQ (str! "F 0 \"R 1\"  \"\" a\"b c\"d ") = .ok [str! "F", str! "0", str! "R 1", [], str! "ab cd"] := by decide

/-- The rest of a line is kept as it is. -/
example : splitN 2 (str! "Title \"a b\" c  \"d\" ") = .ok [str! "Title", str! "a b", str! "c  \"d\" "] := by decide

/-- An open quotation mark. -/
example : splitQ (str! "a \"b c") = .ok [str! "a", str! "b c"] ∧ splitQ (str! "a \"") = .ok [str! "a"] ∧
    splitN 3 (str! "a \"") = .err .other := by decide

end Verif
