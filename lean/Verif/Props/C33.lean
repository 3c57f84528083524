import Verif.Lemmas.SexpExact
/-!
# C33: pretty printing never changes the data
-/

namespace Verif
open Spec

/-- From every formatter state, the text written for a tree consists of the
pieces of that tree (parentheses and spelled atoms) in order, with nothing but
white space between them.  No condition on the atoms. -/
theorem C33_only_white_space (q : Str → Bool) (st : Fm.St) (e : Sexp) :
    Spaced (pieces (Fm.atomText q) e) (Fm.ser q st e).1 :=
  Sexp.Text.ser_spaced q st e

/-- Two formatter states write the same tokens for the same tree. -/
theorem C33_state_irrelevant (q : Str → Bool) (st st' : Fm.St) (e : Sexp) (h : OkTree q e) :
    lex (Fm.ser q st e).1 = lex (Fm.ser q st' e).1 := by
  have h1 := Sexp.Text.lex_ser q st [] (.inl rfl) e h
  have h2 := Sexp.Text.lex_ser q st' [] (.inl rfl) e h
  simp only [List.append_nil] at h1 h2
  rw [lex, lex, h1, h2]

/-- The text written for a tree reads back as that tree, whatever the state of
the formatter (in particular for every starting indentation) and whatever the
quoting policy, as long as every atom can be written. -/
theorem C33_reads_back (q : Str → Bool) (st : Fm.St) (e : Sexp) (h : OkTree q e) :
    parseSexp (Fm.ser q st e).1 = .ok e :=
  Sexp.Text.parse_ser q st e h

/-- Exactly the trees all of whose atoms survive (and the tree nothing is written for) are read
back: if one atom does not survive, the whole file is read as something else or not at all. -/
theorem C33_reads_back_iff (q : Str → Bool) (hq : QuotesWhenNeeded q) (st : Fm.St) (e : Sexp) :
    parseSexp (Fm.ser q st e).1 = .ok e ↔ e = .empty ∨ OkTree q e :=
  Sexp.Text.parse_ser_iff q hq st e

/-- A text survives being written in quotes exactly if every run of backslashes in front of a
double quote or at the end has even length. -/
theorem C33_survives_quoting_iff (s : Str) : Clean s ↔
    ∀ (a : Str) (n : Nat) (b : Str), s = a ++ (List.replicate n '\\' ++ b) →
      (∀ a', a ≠ a' ++ ['\\']) → (b = [] ∨ ∃ b', b = '"' :: b') → n % 2 = 0 := by
  simpa [Clean] using Sexp.Text.paired_iff s 0

/-- The sign for inches survives; a Windows path that ends with a backslash does not. -/
example : Clean (str! "1/4\"") ∧ ¬ Clean (str! "C:\\") := by decide

/-- Two different trees are never printed as the same text, whatever formatter
states they are printed from. -/
theorem C33_injective (q : Str → Bool) (st st' : Fm.St) (e e' : Sexp) (h : OkTree q e)
    (h' : OkTree q e') (heq : (Fm.ser q st e).1 = (Fm.ser q st' e').1) : e = e' := by
  have h1 := C33_reads_back q st e h
  have h2 := C33_reads_back q st' e' h'
  rw [heq, h2] at h1
  exact (Res.ok.inj h1).symm

/-- White space after the text does not matter either. -/
theorem C33_trailing_white_space (q : Str → Bool) (level : Int) (e : Sexp) (h : OkTree q e)
    (w : Str) (hw : Blank w) : parseSexp (Fm.toText q level e ++ w) = .ok e :=
  Sexp.Text.parse_toText_blank q level e h w hw

example : OkTree Fm.stdQuote (.list [.str (str! "module"), .str (str! "a b"), .str [],
    .list [.str (str! "at"), .str (str! "1"), .str (str! "-2.5")]]) := by
  simp only [OkTree, OkTrees]
  decide

example : Blank (str! "\n  ") := by simp [Blank, isSexpSpace]

end Verif
