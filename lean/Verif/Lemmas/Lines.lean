import Verif.Spec.Lines
import Verif.Model.Split
import Verif.Lemmas.Num
import Mathlib.Tactic.Tauto
/-!
# Lines, words and quoted words
-/

set_option linter.unusedSectionVars false

namespace Verif
open Flt Spec

/-! ### Lines -/

theorem stripCr_id (s : Str) (h : EndsLine s) : stripCr s = s := by
  induction s with
  | nil => rfl
  | cons c s ih =>
    cases s with
    | nil =>
      have hc : c ≠ '\r' := fun e => h (by rw [e]; rfl)
      unfold stripCr
      split
      · rename_i heq; cases heq
      · rename_i heq; cases heq; exact absurd rfl hc
      · rename_i heq; cases heq; rfl
    | cons d s => 
      rw [EndsLine, List.getLast?_cons_cons] at h
      simp [stripCr, ih h]

theorem stripCr_append (s : Str) : stripCr (s ++ ['\r']) = s := by
  induction s with
  | nil => rfl
  | cons c s ih =>
    cases s with
    | nil => simp [stripCr]
    | cons d s =>
      have : stripCr (c :: d :: s ++ ['\r']) = c :: stripCr (d :: s ++ ['\r']) := by simp [stripCr]
      rw [this, ih]

theorem linesAux_line (cur l : Str) (rest : Str) (h : '\n' ∉ l) :
    linesAux cur (l ++ '\n' :: rest) = stripCr (cur.reverse ++ l) :: linesAux [] rest := by
  induction l generalizing cur with
  | nil => simp [linesAux]
  | cons c l ih =>
    simp only [List.mem_cons, not_or] at h
    have hc : c ≠ '\n' := fun e => h.1 e.symm
    simp [linesAux, hc, ih _ h.2]

/-- The first line of a text that starts with a complete line. -/
theorem lines_line (l rest : Str) (h : OneLine l) : lines (l ++ '\n' :: rest) = l :: lines rest := by
  rw [lines, linesAux_line _ _ _ h.1]
  simp [lines, stripCr_id _ h.2]

/-- Reading the lines of a text made of texts without line breaks: a carriage return at
the end of each is lost. -/
theorem lines_unlines_strip (ls : List Str) (h : ∀ l ∈ ls, '\n' ∉ l) : lines (unlines ls) = ls.map stripCr := by
  induction ls with
  | nil => rfl
  | cons l ls ih =>
    rw [List.forall_mem_cons] at h
    rw [unlines, lines, linesAux_line _ _ _ h.1, List.map_cons, ← ih h.2]
    simp [lines]

/-- Reading the lines of a text made of lines. -/
theorem lines_unlines (ls : List Str) (h : ∀ l ∈ ls, OneLine l) : lines (unlines ls) = ls := by
  induction ls with
  | nil => rfl
  | cons l ls ih =>
    rw [List.forall_mem_cons] at h
    rw [unlines, lines_line _ _ h.1, ih h.2]

theorem unlines_append (a b : List Str) : unlines (a ++ b) = unlines a ++ unlines b := by
  induction a with
  | nil => rfl
  | cons l a ih => simp [unlines, ih]

theorem unlines_flatMap {α : Type} (f : α → List Str) (l : List α) :
    unlines (l.flatMap f) = (l.map fun a => unlines (f a)).flatten := by
  induction l with
  | nil => rfl
  | cons a l ih => simp [unlines_append, ih]

theorem getLast?_append_ne {α : Type} (a : List α) {b : List α} (hb : b ≠ []) : (a ++ b).getLast? = b.getLast? := by
  rw [List.getLast?_append]
  cases h : b.getLast? with
  | none => rw [List.getLast?_eq_none_iff] at h; exact absurd h hb
  | some c => rfl

theorem endsLine_append (a : Str) {b : Str} (hb : b ≠ []) : EndsLine (a ++ b) ↔ EndsLine b := by
  unfold EndsLine
  rw [getLast?_append_ne _ hb]

theorem endsLine_cons (c : Char) {s : Str} (hs : s ≠ []) : EndsLine (c :: s) ↔ EndsLine s :=
  endsLine_append [c] hs

theorem oneLine_append (a : Str) {b : Str} (hb : b ≠ []) : OneLine (a ++ b) ↔ '\n' ∉ a ∧ OneLine b := by
  unfold OneLine
  rw [endsLine_append _ hb]
  simp only [List.mem_append, not_or]
  tauto

theorem oneLine_cons (c : Char) {s : Str} (hs : s ≠ []) : OneLine (c :: s) ↔ c ≠ '\n' ∧ OneLine s := by
  have := oneLine_append [c] hs
  simp only [List.singleton_append, List.mem_singleton] at this
  rw [this, ne_comm]

/-- A separator before the end of a line never makes the line end badly. -/
theorem endsLine_sep {c : Char} (hc : c ≠ '\r') {s : Str} (hs : EndsLine s) (a : Str) : EndsLine (a ++ c :: s) := by
  rw [endsLine_append _ (by simp)]
  cases s with
  | nil => simpa [EndsLine] using hc
  | cons d s => exact (endsLine_cons c (by simp)).2 hs

theorem stripCr_sep (a : Str) {c : Char} (hc : c ≠ '\r') (s : Str) : stripCr (a ++ c :: s) = a ++ c :: stripCr s := by
  rcases List.eq_nil_or_concat s with rfl | ⟨t, d, rfl⟩
  · exact stripCr_id _ (endsLine_sep hc (by simp [EndsLine]) a)
  · by_cases hd : d = '\r'
    · subst hd
      have : a ++ c :: (t.concat '\r') = (a ++ c :: t) ++ ['\r'] := by simp
      rw [this, stripCr_append, List.concat_eq_append, stripCr_append]
    · have hs : EndsLine (t.concat d) := by simpa [EndsLine] using hd
      rw [stripCr_id _ hs, stripCr_id _ (endsLine_sep hc hs a)]

theorem mem_stripCr {c : Char} {s : Str} (h : c ∈ stripCr s) : c ∈ s := by
  rcases List.eq_nil_or_concat s with rfl | ⟨t, d, rfl⟩
  · exact h
  · by_cases hd : d = '\r'
    · subst hd
      rw [List.concat_eq_append, stripCr_append] at h
      simp [h]
    · rwa [stripCr_id _ (by simpa [EndsLine] using hd)] at h

/-- Removing a carriage return changes nothing exactly if there is none. -/
theorem stripCr_eq_self {s : Str} : stripCr s = s ↔ EndsLine s := by
  refine ⟨fun h => ?_, stripCr_id s⟩
  rcases List.eq_nil_or_concat s with rfl | ⟨t, d, rfl⟩
  · decide
  · intro hd
    have : d = '\r' := by simpa using hd
    subst this
    rw [List.concat_eq_append, stripCr_append] at h
    exact absurd (congrArg List.length h) (by simp)

theorem oneLine_nil : OneLine [] := by decide

theorem Spec.Quotable.noLf {s : Str} (h : Quotable s) : '\n' ∉ s := h.1
theorem Spec.Word.noLf {s : Str} (h : Word s) : '\n' ∉ s := h.2.1.1
theorem Spec.Word.quotable {s : Str} (h : Word s) : Quotable s := h.2.1
theorem Spec.LastWord.oneLine {s : Str} (h : LastWord s) : OneLine s := ⟨h.1.noLf, h.2⟩

/-- A text without double quotes and without the character `x`. -/
def QuotBut (x : Char) (s : Str) : Prop := x ∉ s ∧ '"' ∉ s

instance (x : Char) (s : Str) : Decidable (QuotBut x s) := inferInstanceAs (Decidable (_ ∧ _))

/-- A line feed or a carriage return. -/
class LineBreak (x : Char) : Prop where
  out : x = '\n' ∨ x = '\r'

instance : LineBreak '\n' := ⟨Or.inl rfl⟩
instance : LineBreak '\r' := ⟨Or.inr rfl⟩

theorem quotBut_lit {x : Char} [LineBreak x] {s : Str} (h : QuotBut '\n' s ∧ QuotBut '\r' s) : QuotBut x s := by
  rcases (LineBreak.out : x = '\n' ∨ x = '\r') with rfl | rfl
  · exact h.1
  · exact h.2

theorem noLf_of_chars {s cs : Str} (h : ∀ c ∈ s, c ∈ cs) (hcs : '\n' ∉ cs) : '\n' ∉ s := fun hc => hcs (h _ hc)

theorem oneLine_of_chars {s cs : Str} (h : ∀ c ∈ s, c ∈ cs) (hcs : '\n' ∉ cs ∧ '\r' ∉ cs) : OneLine s :=
  ⟨fun hc => hcs.1 (h _ hc), fun hc => hcs.2 (h _ (List.mem_of_getLast? hc))⟩

theorem lastWord_of_chars {s cs : Str} (h0 : s ≠ []) (h : ∀ c ∈ s, c ∈ cs)
    (hcs : ('\n' ∉ cs ∧ '\r' ∉ cs) ∧ '"' ∉ cs ∧ ' ' ∉ cs) : LastWord s :=
  ⟨⟨h0, ⟨noLf_of_chars h hcs.1.1, fun hc => hcs.2.1 (h _ hc)⟩, fun hc => hcs.2.2 (h _ hc)⟩,
    (oneLine_of_chars h hcs.1).2⟩

theorem lastWord_showInt (i : Int) : LastWord (showInt i) :=
  lastWord_of_chars (showInt_ne_nil i) (showInt_chars i) (by decide)

theorem noCr_showInt (i : Int) : '\r' ∉ showInt i := fun h => absurd (showInt_chars i _ h) (by decide)

theorem noCr_showNat (i : Nat) : '\r' ∉ showNat i := fun h => absurd (showNat_chars i _ h) (by decide)

theorem noCr_toStr {F : Type} [Flt F] [TextLaws F] (x : F) : '\r' ∉ toStr x :=
  fun h => absurd (TextLaws.toStr_chars x _ h) (by decide)

theorem noCr_padRight {s : Str} (h : '\r' ∉ s) (n : Nat) : '\r' ∉ padRight n s := by
  simp only [padRight, List.mem_append, not_or]
  exact ⟨h, fun hc => absurd (List.eq_of_mem_replicate hc) (by decide)⟩

theorem word_showInt (i : Int) : Word (showInt i) := (lastWord_showInt i).1

theorem lastWord_showNat (n : Nat) : LastWord (showNat n) :=
  lastWord_of_chars (showNat_ne_nil n) (showNat_chars n) (by decide)

theorem word_showNat (n : Nat) : Word (showNat n) := (lastWord_showNat n).1

theorem lastWord_toStr {F : Type} [Flt F] [TextLaws F] (x : F) : LastWord (toStr x) :=
  lastWord_of_chars (TextLaws.toStr_ne_nil x) (TextLaws.toStr_chars x) (by decide)

theorem word_toStr {F : Type} [Flt F] [TextLaws F] (x : F) : Word (toStr x) := (lastWord_toStr x).1

theorem noLf_padRight {s : Str} (h : '\n' ∉ s) (n : Nat) : '\n' ∉ padRight n s := by
  simp only [padRight, List.mem_append, not_or]
  exact ⟨h, fun hc => absurd (List.eq_of_mem_replicate hc) (by decide)⟩

theorem oneLine_padRight {s : Str} (h : OneLine s) (n : Nat) : OneLine (padRight n s) := by
  refine ⟨noLf_padRight h.1 n, ?_⟩
  rw [EndsLine, padRight, List.getLast?_append]
  cases hk : (List.replicate (n - s.length) ' ').getLast? with
  | none => exact h.2
  | some c =>
    rw [List.eq_of_mem_replicate (List.mem_of_getLast? hk)]
    simp

theorem padRight_ne {s : Str} (h : s ≠ []) (n : Nat) : padRight n s ≠ [] := by
  simp [padRight, h]

/-! ### White space separated words -/

theorem splitWs_nil : splitWs [] = [] := rfl

theorem splitWs_space {c : Char} (h : isWs c = true) (t : Str) : splitWs (c :: t) = splitWs t := by
  simp [splitWs, splitWsAux, h]

theorem splitWsAux_word (cur w t : Str) (h : ∀ c ∈ w, isWs c = false) :
    splitWsAux cur (w ++ t) = splitWsAux (w.reverse ++ cur) t := by
  induction w generalizing cur with
  | nil => rfl
  | cons c w ih =>
    rw [List.forall_mem_cons] at h
    simp [splitWsAux, h.1, ih _ h.2]

theorem splitWs_word {w : Str} (h : Solid w) {c : Char} (hc : isWs c = true) (t : Str) :
    splitWs (w ++ c :: t) = w :: splitWs t := by
  rw [splitWs, splitWsAux_word _ _ _ h.2]
  have : w.reverse.isEmpty = false := by
    rw [List.isEmpty_eq_false_iff]; simpa using h.1
  simp [splitWsAux, hc, this, splitWs]

theorem splitWs_last {w : Str} (h : Solid w) : splitWs w = [w] := by
  have := splitWsAux_word [] w [] h.2
  rw [List.append_nil] at this
  rw [splitWs, this]
  have : w.reverse.isEmpty = false := by
    rw [List.isEmpty_eq_false_iff]; simpa using h.1
  simp [splitWsAux, this]

theorem splitWs_pad {w : Str} (h : Solid w) (n : Nat) (t : Str) :
    splitWs (padRight n w ++ ' ' :: t) = w :: splitWs t := by
  have hs : isWs ' ' = true := by decide
  have hr : ∀ k, splitWs (List.replicate k ' ' ++ ' ' :: t) = splitWs t := by
    intro k
    induction k with
    | zero => exact splitWs_space hs t
    | succ k ih => rw [List.replicate_succ, List.cons_append, splitWs_space hs, ih]
  rw [padRight, List.append_assoc]
  generalize n - w.length = k
  cases k with
  | zero => exact splitWs_word h hs t
  | succ k => rw [List.replicate_succ, List.cons_append, splitWs_word h hs, hr]

theorem splitWs_pad_last {w : Str} (h : Solid w) (n : Nat) : splitWs (padRight n w) = [w] := by
  have hs : isWs ' ' = true := by decide
  have hr : ∀ k, splitWs (List.replicate k ' ') = [] := by
    intro k
    induction k with
    | zero => rfl
    | succ k ih => rw [List.replicate_succ, splitWs_space hs, ih]
  rw [padRight]
  generalize n - w.length = k
  cases k with
  | zero => rw [List.replicate_zero, List.append_nil]; exact splitWs_last h
  | succ k => rw [List.replicate_succ, splitWs_word h hs, hr]

theorem splitWs_snoc (s : Str) {c : Char} (hc : isWs c = true) : splitWs (s ++ [c]) = splitWs s := by
  have key : ∀ cur, splitWsAux cur (s ++ [c]) = splitWsAux cur s := by
    induction s with
    | nil =>
      intro cur
      simp [splitWsAux, hc]
    | cons d s ih => intro cur; simp [splitWsAux, ih]
  exact key []

theorem splitWs_stripCr (s : Str) : splitWs (stripCr s) = splitWs s := by
  rcases List.eq_nil_or_concat s with rfl | ⟨t, d, rfl⟩
  · rfl
  · by_cases hd : d = '\r'
    · subst hd
      rw [List.concat_eq_append, stripCr_append, splitWs_snoc _ (by decide)]
    · rw [stripCr_id _ (by simpa [EndsLine] using hd)]

theorem firstWord_stripCr (s : Str) : firstWord (stripCr s) = firstWord s := by
  rw [firstWord, splitWs_stripCr, firstWord]

theorem firstWord_word {w : Str} (h : Solid w) {c : Char} (hc : isWs c = true) (t : Str) :
    firstWord (w ++ c :: t) = some w := by
  rw [firstWord, splitWs_word h hc]; rfl

theorem firstWord_last {w : Str} (h : Solid w) : firstWord w = some w := by
  rw [firstWord, splitWs_last h]; rfl

theorem solid_of_chars {s cs : Str} (h0 : s ≠ []) (h : ∀ c ∈ s, c ∈ cs) (hcs : ∀ c ∈ cs, isWs c = false) :
    Solid s := ⟨h0, fun c hc => hcs c (h c hc)⟩

theorem solid_showInt (i : Int) : Solid (showInt i) :=
  solid_of_chars (showInt_ne_nil i) (showInt_chars i) (by decide)

theorem solid_showNat (i : Nat) : Solid (showNat i) :=
  solid_of_chars (showNat_ne_nil i) (showNat_chars i) (by decide)

theorem solid_toStr {F : Type} [Flt F] [TextLaws F] (x : F) : Solid (toStr x) :=
  solid_of_chars (TextLaws.toStr_ne_nil x) (TextLaws.toStr_chars x) (by decide)

/-- White space is what separates words: the words of a text are solid. -/
theorem splitWs_solid (s : Str) : ∀ w ∈ splitWs s, Solid w := by
  have key : ∀ (s cur : Str), (∀ c ∈ cur, isWs c = false) → ∀ w ∈ splitWsAux cur s, Solid w := by
    intro s
    induction s with
    | nil =>
      intro cur hcur w hw
      simp only [splitWsAux] at hw
      split at hw
      · simp at hw
      · rename_i hne
        simp only [List.mem_singleton] at hw
        subst hw
        exact ⟨by simpa using hne, fun c hc => hcur c (by simpa using hc)⟩
    | cons c s ih =>
      intro cur hcur w hw
      simp only [splitWsAux] at hw
      split at hw
      · split at hw
        · exact ih [] (by simp) w hw
        · rename_i hne
          rcases List.mem_cons.1 hw with rfl | hw
          · exact ⟨by simpa using hne, fun c hc => hcur c (by simpa using hc)⟩
          · exact ih [] (by simp) w hw
      · rename_i hc
        refine ih (c :: cur) ?_ w hw
        simpa using ⟨by simpa using hc, hcur⟩
  exact key s [] (by simp)

/-! ### Words and quoted words -/

/-- `Words ws t`: the text `t` consists of the words `ws`, each bare or in quotes,
separated by one or more spaces; spaces may come first. -/
inductive Words : List Str → Str → Prop
  | bare1 {w : Str} : Word w → Words [w] w
  | quoted1 {w : Str} : '"' ∉ w → Words [w] ('"' :: (w ++ ['"']))
  | bare {w t : Str} {ws : List Str} : Word w → Words ws t → Words (w :: ws) (w ++ ' ' :: t)
  | quoted {w t : Str} {ws : List Str} : '"' ∉ w → Words ws t →
      Words (w :: ws) ('"' :: (w ++ '"' :: ' ' :: t))
  | space {t : Str} {ws : List Str} : Words ws t → Words ws (' ' :: t)

theorem Words.length_pos {ws : List Str} {t : Str} (h : Words ws t) : 0 < ws.length := by
  induction h <;> simp_all

theorem Words.pad {w t : Str} {ws : List Str} (n : Nat) (hw : Word w) (h : Words ws t) :
    Words (w :: ws) (padRight n w ++ ' ' :: t) := by
  have hr : ∀ k, Words ws (List.replicate k ' ' ++ ' ' :: t) := by
    intro k
    induction k with
    | zero => exact h.space
    | succ k ih => rw [List.replicate_succ, List.cons_append]; exact ih.space
  rw [padRight, List.append_assoc]
  generalize n - w.length = k
  cases k with
  | zero => exact Words.bare hw h
  | succ k => rw [List.replicate_succ, List.cons_append]; exact Words.bare hw (hr k)

/-- Scanning a bare word. -/
theorem split_bare (n : Option Nat) (i : Nat) (v : List Str) (seen : Bool) (cur w t : Str)
    (hn : n ≠ some i) (h : ∀ c ∈ w, c ≠ ' ' ∧ c ≠ '"') :
    (w ++ t).foldl (splitStep n) ⟨i, v, false, seen, cur⟩ =
      t.foldl (splitStep n) ⟨i, v, false, seen, w.reverse ++ cur⟩ := by
  induction w generalizing cur with
  | nil => rfl
  | cons c w ih =>
    rw [List.forall_mem_cons] at h
    have : splitStep n ⟨i, v, false, seen, cur⟩ c = ⟨i, v, false, seen, c :: cur⟩ := by
      simp [splitStep, hn, h.1.1, h.1.2]
    rw [List.cons_append, List.foldl_cons, this, ih _ h.2]
    simp

/-- Scanning the inside of a quoted word. -/
theorem split_inside (n : Option Nat) (i : Nat) (v : List Str) (seen : Bool) (cur w t : Str)
    (hn : n ≠ some i) (h : '"' ∉ w) :
    (w ++ t).foldl (splitStep n) ⟨i, v, true, seen, cur⟩ =
      t.foldl (splitStep n) ⟨i, v, true, seen, w.reverse ++ cur⟩ := by
  induction w generalizing cur with
  | nil => rfl
  | cons c w ih =>
    simp only [List.mem_cons, not_or] at h
    have hc : c ≠ '"' := fun e => h.1 e.symm
    have : splitStep n ⟨i, v, true, seen, cur⟩ c = ⟨i, v, true, seen, c :: cur⟩ := by
      simp [splitStep, hn, hc]
    rw [List.cons_append, List.foldl_cons, this, ih _ h.2]
    simp

/-- Scanning a quoted word. -/
theorem split_quoted (n : Option Nat) (i : Nat) (v : List Str) (w t : Str)
    (hn : n ≠ some i) (h : '"' ∉ w) :
    ('"' :: (w ++ '"' :: t)).foldl (splitStep n) ⟨i, v, false, false, []⟩ =
      t.foldl (splitStep n) ⟨i, v, false, true, w.reverse⟩ := by
  have h1 : splitStep n ⟨i, v, false, false, []⟩ '"' = ⟨i, v, true, false, []⟩ := by
    simp [splitStep, hn]
  have h2 : splitStep n ⟨i, v, true, false, w.reverse⟩ '"' = ⟨i, v, false, true, w.reverse⟩ := by
    simp [splitStep, hn]
  rw [List.foldl_cons, h1, split_inside n i v false [] w _ hn h, List.append_nil, List.foldl_cons, h2]

/-- A space after a nonempty part or after a quoted part ends the part. -/
theorem split_space (n : Option Nat) (i : Nat) (v : List Str) (seen : Bool) (cur t : Str)
    (hn : n ≠ some i) (h : cur ≠ [] ∨ seen = true) :
    (' ' :: t).foldl (splitStep n) ⟨i, v, false, seen, cur⟩ =
      t.foldl (splitStep n) ⟨i + 1, cur.reverse :: v, false, false, []⟩ := by
  have : splitStep n ⟨i, v, false, seen, cur⟩ ' ' = ⟨i + 1, cur.reverse :: v, false, false, []⟩ := by
    rcases h with h | h
    · have : cur.isEmpty = false := by rw [List.isEmpty_eq_false_iff]; exact h
      simp [splitStep, hn, this]
    · simp [splitStep, hn, h]
  rw [List.foldl_cons, this]

theorem split_skip (n : Option Nat) (i : Nat) (v : List Str) (t : Str) (hn : n ≠ some i) :
    (' ' :: t).foldl (splitStep n) ⟨i, v, false, false, []⟩ =
      t.foldl (splitStep n) ⟨i, v, false, false, []⟩ := by
  simp [splitStep, hn]

theorem Words.fold {ws : List Str} {t : Str} (h : Words ws t) (n : Option Nat) (i : Nat) (v : List Str)
    (hn : ∀ k, n = some k → i + ws.length ≤ k) :
    splitFinish (t.foldl (splitStep n) ⟨i, v, false, false, []⟩) = v.reverse ++ ws := by
  induction h generalizing i v with
  | bare1 hw =>
    rename_i w
    have hne : n ≠ some i := fun e => by have := hn i e; simp at this; omega
    have := split_bare n i v false [] w [] hne fun c hc =>
      ⟨fun e => hw.2.2 (e ▸ hc), fun e => hw.2.1.2 (e ▸ hc)⟩
    rw [List.append_nil] at this
    rw [this]
    have : w.reverse.isEmpty = false := by
      rw [List.isEmpty_eq_false_iff]; simpa using hw.1
    simp [splitFinish, this]
  | quoted1 hw =>
    rename_i w
    have hne : n ≠ some i := fun e => by have := hn i e; simp at this; omega
    rw [split_quoted n i v w [] hne hw]
    simp [splitFinish]
  | @bare w t ws hw _ ih =>
    have hne : n ≠ some i := fun e => by have := hn i e; simp at this; omega
    rw [split_bare n i v false [] w _ hne fun c hc =>
      ⟨fun e => hw.2.2 (e ▸ hc), fun e => hw.2.1.2 (e ▸ hc)⟩,
      split_space n i v false _ t hne (Or.inl (by simpa using hw.1)), ih]
    · simp
    · intro k hk; have := hn k hk; simp at this; omega
  | @quoted w t ws hw _ ih =>
    have hne : n ≠ some i := fun e => by have := hn i e; simp at this; omega
    rw [split_quoted n i v w _ hne hw, split_space n i v true _ t hne (Or.inr rfl), ih]
    · simp
    · intro k hk; have := hn k hk; simp at this; omega
  | space h ih =>
    rename_i t ws
    have hlen := h.length_pos
    have hne : n ≠ some i := fun e => by have := hn i e; omega
    rw [split_skip n i v t hne, ih i v hn]

/-- Splitting a text that consists of words gives the words. -/
theorem Words.splitN {ws : List Str} {t : Str} (h : Words ws t) : Verif.splitN ws.length t = .ok ws := by
  have := h.fold (some ws.length) 0 [] (by simp)
  simp [Verif.splitN, splitInt, this]

theorem Words.splitQ {ws : List Str} {t : Str} (h : Words ws t) : Verif.splitQ t = .ok ws := by
  have := h.fold none 0 [] (by simp)
  simp [Verif.splitQ, splitInt, this]

theorem Words.ne {ws : List Str} {t : Str} (h : Words ws t) : t ≠ [] := by
  cases h with
  | bare1 hw => exact hw.1
  | quoted1 _ => simp
  | bare _ _ => simp
  | quoted _ _ => simp
  | space _ => simp

theorem Words.but {x : Char} (hx : x ≠ ' ' ∧ x ≠ '"') {ws : List Str} {t : Str} (h : Words ws t)
    (hw : ∀ w ∈ ws, x ∉ w) : x ∉ t := by
  induction h with
  | bare1 _ => exact hw _ (List.mem_singleton.2 rfl)
  | quoted1 _ =>
    have := hw _ (List.mem_singleton.2 rfl)
    simp [this, hx]
  | bare _ _ ih =>
    rw [List.forall_mem_cons] at hw
    simp [hw.1, ih hw.2, hx]
  | quoted _ _ ih =>
    rw [List.forall_mem_cons] at hw
    simp [hw.1, ih hw.2, hx]
  | space _ ih => simp [ih hw, hx]

theorem Words.noLf {ws : List Str} {t : Str} (h : Words ws t) (hw : ∀ w ∈ ws, '\n' ∉ w) : '\n' ∉ t :=
  h.but (by decide) hw

/-- A text of words is a line if its words have no line breaks and the last one can end a line. -/
theorem Words.oneLine {ws : List Str} {t : Str} (h : Words ws t) (hw : ∀ w ∈ ws, '\n' ∉ w)
    (hl : ∀ w ∈ ws.getLast?, EndsLine w) : OneLine t := by
  refine ⟨h.noLf hw, ?_⟩
  clear hw
  induction h with
  | bare1 _ => exact hl _ rfl
  | quoted1 _ => 
    rw [← List.cons_append, endsLine_append _ (by simp)]
    decide
  | @bare w t ws _ h ih =>
    have hlen := h.length_pos
    have hne := h.ne
    cases ws with
    | nil => simp at hlen
    | cons a ws =>
      have := ih (by rwa [List.getLast?_cons_cons] at hl)
      have e := List.append_cons w ' ' t
      rw [e, endsLine_append _ hne]
      exact this
  | @quoted w t ws _ h ih =>
    have hlen := h.length_pos
    have hne := h.ne
    cases ws with
    | nil => simp at hlen
    | cons a ws =>
      have := ih (by rwa [List.getLast?_cons_cons] at hl)
      have e : '"' :: (w ++ '"' :: ' ' :: t) = ('"' :: (w ++ ['"', ' '])) ++ t := by simp
      rw [e, endsLine_append _ hne]
      exact this
  | @space t ws h ih => 
    rw [endsLine_cons _ h.ne]
    exact ih hl

end Verif
