import Verif.Lemmas.LibTrace
import Verif.Props.C91
import Verif.Props.C16
/-!
# C92 – the error message of the symbol library reader is about the first line at fault
-/

namespace Verif
open Lib Spec

variable {F : Type} [Flt F]

/-- After these lines a library is still possible: some text that begins with them is read. -/
def Spec.LibStillPossible (F : Type) [Flt F] (ls : List Str) : Prop :=
  ∃ t more, lines t = ls ++ more ∧ ∃ s : SymbolLib F, Lib.parseStr t = .ok s

namespace Lib.Msg

/-- After the lines `b` the reader can still succeed. -/
def ViaA {α : Type} (k : List Str → Said α) (b : List Str) : Prop :=
  ∃ r, (∀ l ∈ r, '\n' ∉ l) ∧ ∃ x, k (b ++ r) = .ok x

/-- Like `Tr`, for a reader that reads to the end. -/
def TrA (F : Type) [Flt F] {α : Type} (k : List Str → Said α) : Prop :=
  ∀ p m, k p = .err m → (m = str! "end of file reached" ∧ ViaA k p) ∨
    ∃ b l a, p = b ++ l :: a ∧ LibBlames F l m ∧ (∀ a', k (b ++ l :: a') = .err m) ∧ ViaA k b

theorem trA_ass {α : Type} {e : Str} {k f : List Str → Said α} (hf : ∀ p, f p = Sch.Msg.assumeLine e p >>= k) (hk : TrA F k)
    (hv : ViaA f []) (he0 : e ∈ fixedLines := by decide) : TrA F f := by
  intro p m h
  have hc : ∀ z, f (e :: z) = k z := by
    intro z
    rw [hf, Sch.Msg.assumeLine, if_neg (by simp)]
    rfl
  have hvia : ∀ b, ViaA k b → ViaA f (e :: b) := by
    rintro b ⟨r, h0, x, h1⟩
    exact ⟨r, h0, x, by rw [List.cons_append, hc]; exact h1⟩
  cases p with
  | nil => rw [hf] at h; cases h; exact .inl ⟨rfl, hv⟩
  | cons s p =>
    by_cases hs : s = e
    · subst hs
      rw [hc] at h
      rcases hk p m h with ⟨hm, h1⟩ | ⟨b, l, a, rfl, h1, h2, h3⟩
      · exact .inl ⟨hm, hvia _ h1⟩
      · exact .inr ⟨s :: b, l, a, rfl, h1, fun a' => by rw [List.cons_append, hc]; exact h2 a', hvia _ h3⟩
    · have he : ∀ z, f (s :: z) = .err (str! "expected '" ++ e ++ str! "', got '" ++ s ++ str! "'") := by
        intro z
        rw [hf, Sch.Msg.assumeLine, if_pos hs]
        rfl
      rw [he] at h
      cases h
      exact .inr ⟨[], s, p, rfl, .common (.line he0 hs), he, hv⟩

theorem tr_all (hz : ∃ x : F, Flt.ofStr (str! "0") = some x) : TrA F (fun p : List Str =>
    (parseSymbols p.length [] p : Said (List (Symbol F))) >>= fun s => .ok (⟨s⟩ : SymbolLib F)) := by
  intro p m h
  rcases Said.bind_eq_err.1 h with h | ⟨_, _, h⟩
  · rcases tr_symbols hz _ _ p m h with ⟨hm, r, hr, h1⟩ | ⟨b, l, a, rfl, h1, h2, r, hr, h3⟩
    · obtain ⟨x, hx⟩ := h1 _ (Nat.le_refl _)
      exact .inl ⟨hm, r, hr, ⟨x⟩, by dsimp only; rw [hx]; rfl⟩
    · obtain ⟨x, hx⟩ := h3 _ (Nat.le_refl _)
      exact .inr ⟨b, l, a, rfl, h1, fun a' => by dsimp only; rw [h2 a' _ (Nat.le_refl _)]; rfl, r, hr, ⟨x⟩, by dsimp only; rw [hx]; rfl⟩
  · cases h

theorem tr_lines (hz : ∃ x : F, Flt.ofStr (str! "0") = some x) : TrA F (parseLines : List Str → Said (SymbolLib F)) :=
  trA_ass (e := str! "EESchema-LIBRARY Version 2.3") (fun _ => rfl)
    (trA_ass (e := str! "#encoding utf-8") (fun _ => rfl)
      (trA_ass (e := str! "#") (fun _ => rfl) (tr_all hz) ⟨[str! "#"], by decide, _, rfl⟩)
      ⟨[str! "#encoding utf-8", str! "#"], by decide, _, rfl⟩)
    ⟨[str! "EESchema-LIBRARY Version 2.3", str! "#encoding utf-8", str! "#"], by decide, _, rfl⟩

theorem libBlames_not_eof {l m : Str} (h : LibBlames F l m) : m ≠ str! "end of file reached" := by
  cases h with
  | common h => exact Sch.Msg.blames_not_eof h
  | _ => intro h'; simp at h'

end Lib.Msg

/-- Reading with messages is reading: without the texts the outcomes are those of the reader. -/
theorem C92_same (t : Str) : (Msg.parseStr t : Said (SymbolLib F)).forget = Lib.parseStr t :=
  Msg.parseLines_forget (lines t)

theorem Lib.Msg.possible {t : Str} {b : List Str} (hb : ∀ l ∈ b, l ∈ lines t)
    (h : ViaA (Msg.parseLines : List Str → Said (SymbolLib F)) b) : LibStillPossible F b := by
  obtain ⟨r, hr, x, hx⟩ := h
  obtain ⟨t', ht'⟩ := Sch.text_of_lines (b ++ r) (by
    intro s hs
    rcases List.mem_append.1 hs with hs | hs
    · exact Sch.lines_noLf t s (hb s hs)
    · exact hr s hs)
  refine ⟨t', r, ht', x, ?_⟩
  rw [← C92_same, Msg.parseStr, ht', hx]
  rfl

/-- A text is refused with the message `m` exactly if either nothing is wrong with its
lines except that there are too few of them, and `m` says so, or `m` is true of one of its lines, a
library was still possible before this line, and every text with the same lines up to it
is refused with the same message.  (That `0` is a number is needed to complete a definition.) -/
theorem C92_first (hz : ∃ x : F, Flt.ofStr (str! "0") = some x) (t m : Str) : (Msg.parseStr t : Said (SymbolLib F)) = .err m ↔
    (m = str! "end of file reached" ∧ (∀ s : SymbolLib F, Lib.parseStr t ≠ .ok s) ∧ (Lib.parseStr t : Res (SymbolLib F)) ≠ .panic ∧
      LibStillPossible F (lines t)) ∨
    ∃ before line after, lines t = before ++ line :: after ∧ LibBlames F line m ∧ LibStillPossible F before ∧
      ∀ t' after', lines t' = before ++ line :: after' → (Msg.parseStr t' : Said (SymbolLib F)) = .err m := by
  have key : ∀ m, (Msg.parseStr t : Said (SymbolLib F)) = .err m → (m = str! "end of file reached" ∧ LibStillPossible F (lines t)) ∨
    ∃ before line after, lines t = before ++ line :: after ∧ LibBlames F line m ∧ LibStillPossible F before ∧
      ∀ t' after', lines t' = before ++ line :: after' → (Msg.parseStr t' : Said (SymbolLib F)) = .err m := by
    intro m h
    rcases Msg.tr_lines hz (lines t) m h with ⟨hm, h1⟩ | ⟨b, l, a, hv, h1, h2, h3⟩
    · exact .inl ⟨hm, Msg.possible (t := t) (fun _ h => h) h1⟩
    · refine .inr ⟨b, l, a, hv, h1, Msg.possible (t := t) (fun s hs => by rw [hv]; exact List.mem_append_left _ hs) h3,
        fun t' a' ht => ?_⟩
      rw [Msg.parseStr, ht]
      exact h2 a'
  constructor
  · intro h
    rcases key m h with ⟨hm, h1⟩ | h1
    · have hs := C92_same (F := F) t
      rw [h] at hs
      exact .inl ⟨hm, (fun s e => by rw [← hs] at e; cases e), (fun e => by rw [← hs] at e; cases e), h1⟩
    · exact .inr h1
  · rintro (⟨rfl, h1, h2, h3⟩ | ⟨b, l, a, ht, _, _, h⟩)
    · have hs := C92_same (F := F) t
      cases hr : (Msg.parseStr t : Said (SymbolLib F)) with
      | ok s => rw [hr] at hs; exact absurd hs.symm (h1 s)
      | panic => rw [hr] at hs; exact absurd hs.symm h2
      | diverge => rw [hr] at hs; exact absurd hs.symm (C16_parse_terminates t)
      | err m =>
        rcases key m hr with ⟨rfl, _⟩ | ⟨b, l, a, ht, _, _, h⟩
        · rfl
        · obtain ⟨t', more, ht', s, hs'⟩ := h3
          have := h t' (a ++ more) (by rw [ht', ht, List.append_assoc]; rfl)
          rw [← C92_same, this] at hs'
          cases hs'
    · exact h t a ht

/-- The message about a missing end is only given for texts that could go on and be a library. -/
theorem C92_end (hz : ∃ x : F, Flt.ofStr (str! "0") = some x) (t : Str)
    (h : (Msg.parseStr t : Said (SymbolLib F)) = .err (str! "end of file reached")) : LibStillPossible F (lines t) := by
  rcases (C92_first hz t _).1 h with ⟨_, _, _, h⟩ | ⟨_, l, _, _, h, _⟩
  · exact h
  · exact absurd rfl (Msg.libBlames_not_eof h)

/-- There is only one first line at fault. -/
theorem C92_unique {b b' : List Str} {l l' : Str} {a a' : List Str} (h : b ++ l :: a = b' ++ l' :: a')
    (hb : LibStillPossible F b) (hb' : LibStillPossible F b')
    (hl : ∀ t r, lines t = b ++ l :: r → ∀ s : SymbolLib F, Lib.parseStr t ≠ .ok s)
    (hl' : ∀ t r, lines t = b' ++ l' :: r → ∀ s : SymbolLib F, Lib.parseStr t ≠ .ok s) : b = b' ∧ l = l' ∧ a = a' := by
  obtain ⟨t, r, ht, s, hs⟩ := hb
  obtain ⟨t', r', ht', s', hs'⟩ := hb'
  rcases List.append_eq_append_iff.1 h with ⟨c, h1, h2⟩ | ⟨c, h1, h2⟩
  · cases c with
    | nil =>
      rw [List.append_nil] at h1
      obtain ⟨rfl, rfl⟩ := List.cons.inj h2
      exact ⟨h1.symm, rfl, rfl⟩
    | cons x c =>
      obtain ⟨rfl, rfl⟩ := List.cons.inj h2
      exact absurd hs' (hl t' (c ++ r') (by rw [ht', h1, List.append_assoc]; rfl) s')
  · cases c with
    | nil =>
      rw [List.append_nil] at h1
      obtain ⟨rfl, rfl⟩ := List.cons.inj h2
      exact ⟨h1, rfl, rfl⟩
    | cons x c =>
      obtain ⟨rfl, rfl⟩ := List.cons.inj h2
      exact absurd hs (hl' t (c ++ r) (by rw [ht, h1, List.append_assoc]; rfl) s)

/-! ## Concrete cases -/

/-- A library whose first symbol has a pin on a side that does not exist. -/
def C92_text : Str := str! "EESchema-LIBRARY Version 2.3\n#encoding utf-8\n#\n# R\n#\nDEF R R 0 0 N N 1 F N\nF0 \"R\" 0 0 50 H V C CNN\nDRAW\nX A 1 0 0 10 Q 50 50 1 1 P\nENDDRAW\nENDDEF\n#\n#End Library\n"

/-- The message says what is wrong with the pin. -/
example : (Msg.parseStr C92_text : Said (SymbolLib Nm)) = .err (str! "unknown pin orientation Q") := by
  unfold Msg.parseStr Msg.parseLines
  decide +kernel

/-- The theorem applies to it. -/
example : ∃ before line after, lines C92_text = before ++ line :: after ∧
    LibBlames Nm line (str! "unknown pin orientation Q") ∧ LibStillPossible Nm before := by
  have h : (Msg.parseStr C92_text : Said (SymbolLib Nm)) = .err (str! "unknown pin orientation Q") := by
    unfold Msg.parseStr Msg.parseLines
    decide +kernel
  rcases (C92_first (F := Nm) (Option.isSome_iff_exists.1 (by decide)) C92_text _).1 h with ⟨h, _⟩ | ⟨b, l, a, h, h1, h2, _⟩
  · exact absurd h (by decide)
  · exact ⟨b, l, a, h, h1, h2⟩

/-- A library that breaks off in the drawing of a symbol. -/
example : (Msg.parseStr (str! "EESchema-LIBRARY Version 2.3\n#encoding utf-8\n#\n# R\n#\nDEF R R 0 0 N N 1 F N\nDRAW\n") :
    Said (SymbolLib Nm)) = .err (str! "end of file reached") := by
  unfold Msg.parseStr Msg.parseLines
  decide +kernel

end Verif
