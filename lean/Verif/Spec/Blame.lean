import Verif.Spec.SchematicGrammar
/-!
# What an error message says about a line of a schematic
-/

namespace Verif.Spec
open Verif Sch

/-- One of the words of a line, cut at spaces outside quotation marks or at white space. -/
def WordOf (line w : Str) : Prop := ∃ ws, ((∃ n, Cut n line ws) ∨ SpacedWords line ws) ∧ w ∈ ws

/-- Lines that are the same in every file. -/
def fixedLines : List Str :=
  [str! "EESchema Schematic File Version 2", str! "EELAYER END", str! "EESchema-LIBRARY Version 2.3", str! "#encoding utf-8",
   str! "#", str! "DRAW", str! "ENDDEF"]

/-- First words that are the same in every file. -/
def fixedWords : List Str :=
  [str! "Title", str! "Date", str! "Rev", str! "Comp", str! "Comment1", str! "Comment2", str! "Comment3", str! "Comment4",
   str! "DEF"]

/-- The words for yes and no. -/
def yesNo : List (Str × Str) :=
  [(str! "0000", str! "0001"), (str! "V", str! "I"), (str! "Y", str! "N"), (str! "L", str! "F"), (str! "P", str! "N")]

/-- The letters for yes and no. -/
def yesNoLetters : List (Char × Char) := [('I', 'N'), ('B', 'N')]

/-- `Blames F line message`: the message says something about the line, and it is true. -/
inductive Blames (F : Type) [Flt F] (line : Str) : Str → Prop
  /-- another line was expected -/
  | line {e} : e ∈ fixedLines → line ≠ e → Blames F line (str! "expected '" ++ e ++ str! "', got '" ++ line ++ str! "'")
  /-- the line of the layers was expected -/
  | layers : (¬ ∃ r, line = str! "EELAYER " ++ r) → Blames F line (str! "expecting EELAYER, got " ++ line)
  /-- the last line of the title block was expected -/
  | descr : line ≠ str! "$EndDescr" → Blames F line (str! "expecting: $EndDescr, actually: " ++ line)
  /-- too few words -/
  | few {n ws} : Cut (some n) line ws → ws.length < n →
      Blames F line (str! "expecting " ++ showNat n ++ str! " elements in " ++ line)
  /-- not the right number of words -/
  | count {n ws} : SpacedWords line ws → ws.length ≠ n →
      Blames F line (str! "expecting " ++ showNat n ++ str! " elements in " ++ line)
  /-- too few words for a text -/
  | text {ws} : SpacedWords line ws → ws.length < 8 → Blames F line (str! "expecting 8 or 9 elements in " ++ line)
  /-- not the right number of words for a field -/
  | parts {ws} : HasWords line ws → ws.length ≠ 10 → ws.length ≠ 11 →
      Blames F line (str! "expecting 10 or 11 parts got " ++ showNat ws.length ++ str! " in " ++ line)
  /-- a word is not an integer -/
  | int {w} : WordOf line w → (∀ i, ¬ IntWord w i) →
      Blames F line (str! "int parse error in " ++ w ++ str! "; line: " ++ line)
  /-- the number after the `F` of a sheet is not an integer -/
  | number {w} : WordOf line ('F' :: w) → (∀ i, ¬ IntWord w i) →
      Blames F line (str! "int parse error in " ++ w ++ str! "; line: " ++ line)
  /-- a word is not a number -/
  | float {w} : WordOf line w → (∀ x : F, ¬ FloatWord w x) →
      Blames F line (str! "float parse error in " ++ w ++ str! "; line: " ++ line)
  /-- there is no such kind of text -/
  | textKind {w} : WordOf line w → (∀ k, (w, k) ∉ textKinds) →
      Blames F line (str! "Unknown text type " ++ w ++ str! " at " ++ line)
  /-- another word was expected -/
  | word {e w} : e ∈ fixedWords → WordOf line w → w ≠ e → Blames F line (str! "expecting: " ++ e ++ str! ", actually: " ++ w)
  /-- the word `Sheet` was expected -/
  | sheet {w} : WordOf line w → w ≠ str! "Sheet" → Blames F line (str! "Expecting 'Sheet'")
  /-- there is no such direction -/
  | direction {c r} : WordOf line (c :: r) → (∀ o, (c, o) ∉ directions) →
      Blames F line (str! "unknown orientation " ++ [c])
  /-- there is no such alignment -/
  | alignment {c r} : WordOf line (c :: r) → (∀ j, (c, j) ∉ alignments) →
      Blames F line (str! "unexpected justify: " ++ [c])
  /-- neither of two words -/
  | choice {w t f} : (t, f) ∈ yesNo → WordOf line w → w ≠ t → w ≠ f →
      Blames F line (str! "unknown boolean " ++ w ++ str! ", expected " ++ t ++ str! " or " ++ f)
  /-- neither of two characters -/
  | character {w c t f} : (t, f) ∈ yesNoLetters → WordOf line w → c ∈ w → c ≠ t → c ≠ f →
      Blames F line (str! "unknown boolean " ++ [c] ++ str! ", expected " ++ [t] ++ str! " or " ++ [f])
  /-- a field without a name -/
  | nameless {ws n i} : HasWords line ws → ws.length = 10 → ws[1]? = some n → IntWord n i → (∀ s, (i, s) ∉ fixedNames) →
      Blames F line (str! "expecting name for componentfield > 3")
  /-- there is no such form of label -/
  | form {w} : WordOf line w → (∀ k, (w, k) ∉ labelForms) → Blames F line (str! "unknown labelform " ++ w)
  /-- there is no such side -/
  | side {w} : WordOf line w → (∀ k, (w, k) ∉ labelSides) → Blames F line (str! "unknown labelside " ++ w)

end Verif.Spec
