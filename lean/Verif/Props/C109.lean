import Verif.Props.C87
import Verif.Props.C104
import Verif.Basic.Nm
/-!
# C109: an edit to a symbol library changes only the lines that are about it
-/

set_option linter.unusedSectionVars false

namespace Verif
open Spec Flt Lib

variable {F : Type} [Flt F] [TextLaws F]

/-- A line that begins differently. -/
theorem Diff.head {P Q : Str → Prop} {a a' : Str} (ha : '\n' ∉ a) (ha' : '\n' ∉ a') (hP : ∀ z, P (a ++ z))
    (hQ : ∀ z, Q (a' ++ z)) (c : Str) : DifferOnly P Q (a ++ c) (a' ++ c) := by
  obtain ⟨l, ls, h1, h2⟩ := Diff.lines_word a c ha
  obtain ⟨m, ms, h3, h4⟩ := Diff.lines_word a' c ha'
  obtain ⟨rfl, rfl⟩ := List.cons.inj (h1.symm.trans h3)
  unfold DifferOnly
  rw [h2, h4]
  exact .cons (.inr ⟨hP l, hQ l⟩) (List.forall₂_same.2 fun _ _ => .inl rfl)

/-- A line that is another. -/
theorem Diff.single {P Q : Str → Prop} {a a' : Str} (ha : '\n' ∉ a) (ha' : '\n' ∉ a') (hP : P a) (hQ : Q a') :
    DifferOnly P Q a a' := by
  obtain ⟨l, ls, h1, h2⟩ := Diff.lines_word a [] ha
  obtain ⟨m, ms, h3, h4⟩ := Diff.lines_word a' [] ha'
  cases h1
  cases h3
  rw [List.append_nil] at h2 h4
  unfold DifferOnly
  rw [h2, h4]
  exact .cons (.inr ⟨hP, hQ⟩) .nil

theorem Diff.five {P Q : Str → Prop} {a a' b b' c c' : Str} (h1 : DifferOnly P Q a a') (h2 : DifferOnly P Q b b')
    (h3 : DifferOnly P Q c c') (x y : Str) (ls : List Str) :
    DifferOnly P Q (unlines ([a, x, b, y, c] ++ ls)) (unlines ([a', x, b', y, c'] ++ ls)) :=
  Diff.break h1 (Diff.prefix _ (Diff.break h2 (Diff.prefix _ (Diff.break h3 (Diff.refl _ _ _)))))

namespace Lib

/-- A library can be saved exactly when all symbols have two fields. -/
theorem saved_iff (l : SymbolLib F) (t : Str) :
    l.show = .ok t ↔ (∀ s ∈ l.symbols, 2 ≤ s.fields.length) ∧ t = unlines l.lns := by
  constructor
  · intro h
    have h2 : ∀ s ∈ l.symbols, 2 ≤ s.fields.length := by
      by_contra hc
      push Not at hc
      rw [C14_few_fields_panic l hc] at h
      cases h
    exact ⟨h2, Res.ok.inj (h.symm.trans (l.show_eq h2))⟩
  · rintro ⟨h, rfl⟩
    exact l.show_eq h

/-- The lines before and after a symbol. -/
theorem lns_split (a : List (Symbol F)) (s : Symbol F) (b : List (Symbol F)) :
    (⟨a ++ s :: b⟩ : SymbolLib F).lns =
      (str! "EESchema-LIBRARY Version 2.3" :: str! "#encoding utf-8" :: str! "#" :: a.flatMap Symbol.lns) ++ s.lns ++
        (b.flatMap Symbol.lns ++ [str! "#End Library"]) := by
  simp [SymbolLib.lns]

/-- Changing one symbol of a saved library: the lines before and after it stay. -/
theorem edit_lines (i : Nat) (e : SymEdit F) (l l' : SymbolLib F) (t : Str) (h : (LibEdit.edit i e).run l = .ok l')
    (ht : l.show = .ok t) (hf : ∀ s s', e.run s = .ok s' → s.fields.length ≤ s'.fields.length) :
    ∃ s s' A B, l.symbols[i]? = some s ∧ e.run s = .ok s' ∧ 2 ≤ s.fields.length ∧
      t = unlines (A ++ s.lns ++ B) ∧ l'.show = .ok (unlines (A ++ s'.lns ++ B)) := by
  obtain ⟨ss, h1, h2⟩ := Res.bind_eq_ok.1 h
  cases h2
  obtain ⟨a, s, s', b, h3, h4, h5, rfl⟩ := (Lib.editAt_iff _ _ _ _).1 h1
  obtain ⟨l⟩ := l
  dsimp only at h3
  subst h3
  obtain ⟨k, rfl⟩ := (saved_iff _ _).1 ht
  have hs : 2 ≤ s.fields.length := k s (by simp)
  refine ⟨s, s', _, _, by rw [← h4]; simp, h5, hs, by rw [lns_split], ?_⟩
  rw [← lns_split, saved_iff]
  refine ⟨?_, rfl⟩
  intro x hx
  simp only [List.mem_append, List.mem_cons] at hx
  rcases hx with hx | rfl | hx
  · exact k x (by simp [hx])
  · exact hs.trans (hf _ _ h5)
  · exact k x (by simp [hx])

/-- The `DEF` line after the reference. -/
def Symbol.defRest (s : Symbol F) : Str :=
  toStr s.textOffset ++ str! " " ++ (if s.drawPinnumber then str! "Y" else str! "N") ++ str! " " ++
    (if s.drawPinname then str! "Y" else str! "N") ++ str! " " ++ showInt s.unitCount ++ str! " " ++
    (if s.unitLocked then str! "L" else str! "F") ++ str! " " ++ (if s.isPower then str! "P" else str! "N")

theorem Symbol.defLine_eq (s : Symbol F) :
    s.defLine = str! "DEF " ++ s.name ++ str! " " ++ s.reference ++ str! " 0 " ++ s.defRest := by
  simp only [Symbol.defLine, Symbol.defRest, List.append_assoc]

/-- The line of a field after the value. -/
def Field.rest (f : Field F) : Str :=
  str! " " ++ toStr f.x ++ str! " " ++
  toStr f.y ++ str! " " ++ showInt f.dimension ++ str! " " ++ f.orientation.show ++ str! " " ++
  (if f.visible then str! "V" else str! "I") ++ str! " " ++ f.hjustify.show ++ str! " " ++
  f.vjustify.show ++ (if f.italic then str! "I" else str! "N") ++
  (if f.bold then str! "I" else str! "N") ++
  (if f.i > 3 then str! " \"" ++ f.name ++ str! "\"" else [])

theorem Field.show_eq (f : Field F) :
    f.show = str! "F" ++ showInt f.i ++ str! " \"" ++ f.value ++ '"' :: f.rest := by
  unfold Field.show Field.rest
  generalize (if f.visible then str! "V" else str! "I") = a
  generalize (if f.italic then str! "I" else str! "N") = b
  generalize (if f.bold then str! "I" else str! "N") = c
  generalize (if f.i > 3 then str! " \"" ++ f.name ++ str! "\"" else []) = d
  generalize toStr f.x = x
  generalize toStr f.y = y
  simp only [List.append_assoc, List.cons_append, List.nil_append]

/-- The lines after the fields. -/
def Symbol.tailLns (s : Symbol F) : List Str :=
  aliasLns s.aliases ++ (str! "DRAW" :: (s.draw.map Draw.show ++ [str! "ENDDRAW", str! "ENDDEF", str! "#"]))

theorem Symbol.lns_eq (s : Symbol F) :
    s.lns = [str! "# " ++ s.value, str! "#", s.defLine] ++ s.fields.map Field.show ++ s.tailLns := by
  simp only [Symbol.lns, Symbol.lnsWith, Symbol.body, Symbol.tailLns, List.cons_append, List.nil_append]

/-- What `set_name` changes. -/
theorem setName_ok (s s' : Symbol F) (n : Str) (h : s.setName n = .ok s') :
    ∃ f0 f1 fs, s.fields = f0 :: f1 :: fs ∧
      s' = { s with name := if s.name.head? = some '~' then '~' :: n else n,
                    fields := f0 :: { f1 with value := n } :: fs } := by
  obtain ⟨c, hc, hn⟩ := Res.bind_eq_ok.1 h
  have hx : s.name.head? = some c := by
    cases hs : s.name with
    | nil => rw [hs] at hc; cases hc
    | cons d r => rw [hs] at hc; cases hc; rfl
  rw [hx]
  simp only [Option.some.injEq]
  match hf : s.fields, hn with
  | f0 :: f1 :: fs, hn =>
    exact ⟨f0, f1, fs, rfl, (Res.ok.inj hn).symm⟩
  | [], hn => cases hn
  | [_], hn => cases hn

end Lib

/-- **C109.** Renaming a symbol (`set_name`) changes three lines: the comment line before the
symbol, the name in the `DEF` line and the value in the line of the second field. -/
theorem C109_name (i : Nat) (n : Str) (l l' : SymbolLib F) (t : Str)
    (h : (LibEdit.edit i (.setName n)).run l = .ok l') (ht : l.show = .ok t) :
    ∃ (s : Symbol F) (f : Lib.Field F) (A B : List Str) (x w v first : Str),
      l.symbols[i]? = some s ∧ s.fields[1]? = some f ∧
      x = (if s.name.head? = some '~' then '~' :: n else n) ∧
      t = unlines (A ++
        [str! "# " ++ f.value, str! "#", str! "DEF " ++ s.name ++ ' ' :: w, first,
          str! "F" ++ showInt f.i ++ str! " \"" ++ f.value ++ '"' :: v] ++ B) ∧
      l'.show = .ok (unlines (A ++
        [str! "# " ++ n, str! "#", str! "DEF " ++ x ++ ' ' :: w, first,
          str! "F" ++ showInt f.i ++ str! " \"" ++ n ++ '"' :: v] ++ B)) := by
  obtain ⟨s, s', A, B, h1, h2, h3, h4, h5⟩ := Lib.edit_lines i _ l l' t h ht (by
    intro s s' h
    obtain ⟨f0, f1, fs, e, rfl⟩ := Lib.setName_ok s s' n h
    rw [e]
    exact le_rfl)
  obtain ⟨f0, f1, fs, e, rfl⟩ := Lib.setName_ok s s' n h2
  refine ⟨s, f1, A, fs.map Lib.Field.show ++ s.tailLns ++ B, _, s.reference ++ str! " 0 " ++ s.defRest, f1.rest, f0.show,
    h1, by rw [e]; rfl, rfl, ?_, ?_⟩
  · rw [h4, Symbol.lns_eq, Symbol.defLine_eq, Symbol.value, e]
    simp only [List.map_cons, Lib.Field.show_eq f1, List.getElem?_cons_succ, List.getElem?_cons_zero, List.append_assoc,
      List.cons_append, List.nil_append]
  · rw [h5, Symbol.lns_eq, Symbol.defLine_eq, Symbol.value]
    simp only [List.map_cons, Lib.Field.show_eq { f1 with value := n }, List.getElem?_cons_succ, List.getElem?_cons_zero,
      List.append_assoc, List.cons_append, List.nil_append]
    rfl

/-- Changing the reference prefix changes the `DEF` line of the symbol, and in it only the
reference. -/
theorem C109_reference (i : Nat) (r : Str) (l l' : SymbolLib F) (t : Str)
    (h : (LibEdit.edit i (.setReference r)).run l = .ok l') (ht : l.show = .ok t) :
    ∃ (s : Symbol F) (A B : List Str) (w : Str), l.symbols[i]? = some s ∧
      t = unlines (A ++ [str! "DEF " ++ s.name ++ str! " " ++ s.reference ++ ' ' :: w] ++ B) ∧
      l'.show = .ok (unlines (A ++ [str! "DEF " ++ s.name ++ str! " " ++ r ++ ' ' :: w] ++ B)) := by
  obtain ⟨s, s', A, B, h1, h2, h3, h4, h5⟩ := Lib.edit_lines i _ l l' t h ht (by
    intro s s' h; cases h; exact le_rfl)
  cases h2
  refine ⟨s, A ++ [str! "# " ++ s.value, str! "#"], s.fields.map Lib.Field.show ++ s.tailLns ++ B, str! "0 " ++ s.defRest,
    h1, ?_, ?_⟩
  · rw [h4, Symbol.lns_eq, Symbol.defLine_eq]
    simp only [List.append_assoc, List.cons_append, List.nil_append]
  · rw [h5, Symbol.lns_eq, Symbol.defLine_eq]
    simp only [List.append_assoc, List.cons_append, List.nil_append]
    rfl

/-- Changing the offset of the text, the number of units or the switches changes the `DEF` line of
the symbol, after the name and the reference. -/
theorem C109_numbers (i : Nat) (e : SymEdit F) (l l' : SymbolLib F) (t : Str)
    (he : (∃ x, e = .setTextOffset x) ∨ (∃ a b c d, e = .setFlags a b c d) ∨ ∃ n, e = .setUnitCount n)
    (h : (LibEdit.edit i e).run l = .ok l') (ht : l.show = .ok t) :
    ∃ (s : Symbol F) (A B : List Str) (w w' : Str), l.symbols[i]? = some s ∧
      t = unlines (A ++ [str! "DEF " ++ s.name ++ str! " " ++ s.reference ++ str! " 0 " ++ w] ++ B) ∧
      l'.show = .ok (unlines (A ++ [str! "DEF " ++ s.name ++ str! " " ++ s.reference ++ str! " 0 " ++ w'] ++ B)) := by
  obtain ⟨s, s', A, B, h1, h2, h3, h4, h5⟩ := Lib.edit_lines i _ l l' t h ht (by
    intro s s' h
    rcases he with ⟨x, rfl⟩ | ⟨a, b, c, d, rfl⟩ | ⟨n, rfl⟩ <;> cases h <;> exact le_rfl)
  have hs : s'.name = s.name ∧ s'.reference = s.reference ∧ s'.fields = s.fields ∧ s'.aliases = s.aliases ∧
      s'.draw = s.draw := by
    rcases he with ⟨x, rfl⟩ | ⟨a, b, c, d, rfl⟩ | ⟨n, rfl⟩ <;> cases h2 <;> exact ⟨rfl, rfl, rfl, rfl, rfl⟩
  obtain ⟨e1, e2, e3, e4, e5⟩ := hs
  refine ⟨s, A ++ [str! "# " ++ s.value, str! "#"], s.fields.map Lib.Field.show ++ s.tailLns ++ B, s.defRest, s'.defRest,
    h1, ?_, ?_⟩
  · rw [h4, Symbol.lns_eq, Symbol.defLine_eq]
    simp only [List.append_assoc, List.cons_append, List.nil_append]
  · rw [h5, Symbol.lns_eq, Symbol.defLine_eq, Symbol.value, Symbol.tailLns, e1, e2, e3, e4, e5]
    simp only [Symbol.value, Symbol.tailLns, List.append_assoc, List.cons_append, List.nil_append]

/-- Adding a field adds one line, after the lines of the other fields. -/
theorem C109_field (i : Nat) (f : Lib.Field F) (l l' : SymbolLib F) (t : Str)
    (h : (LibEdit.edit i (.addField f)).run l = .ok l') (ht : l.show = .ok t) :
    ∃ (s : Symbol F) (A B : List Str), l.symbols[i]? = some s ∧
      t = unlines (A ++ s.fields.map Lib.Field.show ++ B) ∧
      l'.show = .ok (unlines (A ++ s.fields.map Lib.Field.show ++ [f.show] ++ B)) := by
  obtain ⟨s, s', A, B, h1, h2, h3, h4, h5⟩ := Lib.edit_lines i _ l l' t h ht (by
    intro s s' h; cases h; simp)
  cases h2
  refine ⟨s, A ++ [str! "# " ++ s.value, str! "#", s.defLine], s.tailLns ++ B, h1, ?_, ?_⟩
  · rw [h4, Symbol.lns_eq]
    simp only [List.append_assoc, List.cons_append, List.nil_append]
  · rw [h5, Symbol.lns_eq]
    simp only [Symbol.value, List.getElem?_append_left h3, List.map_append, List.map_cons, List.map_nil, List.append_assoc,
      List.cons_append, List.nil_append]
    rfl

/-- Adding a pin, rectangle or other drawing adds one line, after the other drawings. -/
theorem C109_drawing (i : Nat) (d : Draw) (l l' : SymbolLib F) (t : Str)
    (h : (LibEdit.edit i (.addDraw d)).run l = .ok l') (ht : l.show = .ok t) :
    ∃ (s : Symbol F) (A B : List Str), l.symbols[i]? = some s ∧
      t = unlines (A ++ str! "DRAW" :: s.draw.map Draw.show ++ str! "ENDDRAW" :: B) ∧
      l'.show = .ok (unlines (A ++ str! "DRAW" :: s.draw.map Draw.show ++ [d.show] ++ str! "ENDDRAW" :: B)) := by
  obtain ⟨s, s', A, B, h1, h2, h3, h4, h5⟩ := Lib.edit_lines i _ l l' t h ht (by
    intro s s' h; cases h; simp)
  cases h2
  refine ⟨s, A ++ [str! "# " ++ s.value, str! "#", s.defLine] ++ s.fields.map Lib.Field.show ++ aliasLns s.aliases,
    [str! "ENDDEF", str! "#"] ++ B, h1, ?_, ?_⟩
  · rw [h4, Symbol.lns_eq]
    simp only [Symbol.tailLns, List.append_assoc, List.cons_append, List.nil_append]
  · rw [h5, Symbol.lns_eq]
    simp only [Symbol.tailLns, List.map_append, List.map_cons, List.map_nil, List.append_assoc, List.cons_append,
      List.nil_append]
    rfl

/-- Adding an alias lengthens the `ALIAS` line, which stands after the fields; the first alias adds
that line. -/
theorem C109_alias (i : Nat) (x : Str) (l l' : SymbolLib F) (t : Str)
    (h : (LibEdit.edit i (.addAlias x)).run l = .ok l') (ht : l.show = .ok t) :
    ∃ (s : Symbol F) (A B : List Str), l.symbols[i]? = some s ∧
      (s.aliases = [] → t = unlines (A ++ s.fields.map Lib.Field.show ++ str! "DRAW" :: B) ∧
        l'.show = .ok (unlines (A ++ s.fields.map Lib.Field.show ++ [str! "ALIAS " ++ x] ++ str! "DRAW" :: B))) ∧
      (s.aliases ≠ [] → ∃ w, t = unlines (A ++ s.fields.map Lib.Field.show ++ [str! "ALIAS" ++ w] ++ str! "DRAW" :: B) ∧
        l'.show = .ok (unlines (A ++ s.fields.map Lib.Field.show ++ [str! "ALIAS" ++ w ++ ' ' :: x] ++
          str! "DRAW" :: B)) ∧ w = s.aliases.flatMap (' ' :: ·)) := by
  obtain ⟨s, s', A, B, h1, h2, h3, h4, h5⟩ := Lib.edit_lines i _ l l' t h ht (by
    intro s s' h; cases h; simp)
  cases h2
  refine ⟨s, A ++ [str! "# " ++ s.value, str! "#", s.defLine],
    s.draw.map Draw.show ++ [str! "ENDDRAW", str! "ENDDEF", str! "#"] ++ B, h1, fun he => ⟨?_, ?_⟩,
    fun he => ⟨s.aliases.flatMap (' ' :: ·), ?_, ?_, rfl⟩⟩
  · rw [h4]
    simp only [Symbol.lns, Symbol.lnsWith, Symbol.body, he, aliasLns, List.isEmpty_nil, if_true, List.append_assoc,
      List.cons_append, List.nil_append]
  · rw [h5]
    simp [Symbol.lns, Symbol.lnsWith, Symbol.body, Symbol.value, Symbol.defLine, he, aliasLns, aliasText]
  · rw [h4]
    simp [Symbol.lns, Symbol.lnsWith, Symbol.body, Symbol.value, Symbol.defLine, he, aliasLns, aliasText,
      List.flatMap_def]
  · rw [h5]
    simp [Symbol.lns, Symbol.lnsWith, Symbol.body, Symbol.value, Symbol.defLine, aliasLns, aliasText,
      List.flatMap_def]

/-- Adding a symbol adds its lines before the last line. -/
theorem C109_add (l : SymbolLib F) (s : Symbol F) (t x : Str) (ht : l.show = .ok t) (hx : s.show = .ok x) :
    ∃ l' p, (LibEdit.add s).run l = .ok l' ∧ t = p ++ str! "#End Library\n" ∧
      l'.show = .ok (p ++ x ++ str! "#End Library\n") := by
  obtain ⟨l⟩ := l
  obtain ⟨k, rfl⟩ := (Lib.saved_iff _ _).1 ht
  have hs : 2 ≤ s.fields.length := by
    by_contra hc
    have : s.fields[1]? = none := by simp; omega
    simp [Symbol.show, this] at hx
  have e := Res.ok.inj (hx.symm.trans (s.show_eq hs))
  refine ⟨_, unlines (str! "EESchema-LIBRARY Version 2.3" :: str! "#encoding utf-8" :: str! "#" :: l.flatMap Symbol.lns),
    rfl, ?_, ?_⟩
  · simp [SymbolLib.lns, unlines, unlines_append]
  · rw [SymbolLib.show_eq]
    · simp [SymbolLib.lns, unlines, unlines_append, e]
    · intro y hy
      simp only [List.mem_append, List.mem_singleton] at hy
      rcases hy with hy | rfl
      · exact k y hy
      · exact hs

/-- Removing a symbol by its name removes its lines and no others: a name that one symbol has. -/
theorem C109_remove (a : List (Symbol F)) (s : Symbol F) (b : List (Symbol F)) (t : Str)
    (hu : ∀ x ∈ a ++ b, x.name ≠ s.name) (ht : (⟨a ++ s :: b⟩ : SymbolLib F).show = .ok t) :
    ∃ l' p x r, (LibEdit.remove s.name).run ⟨a ++ s :: b⟩ = .ok l' ∧ s.show = .ok x ∧
      t = p ++ str! "\n" ++ x ++ r ∧ l'.show = .ok (p ++ str! "\n" ++ r) := by
  obtain ⟨k, rfl⟩ := (Lib.saved_iff _ _).1 ht
  have hs : 2 ≤ s.fields.length := k s (by simp)
  have hf : (a ++ s :: b).filter (fun x => x.name ≠ s.name) = a ++ b := by
    rw [List.filter_append, List.filter_cons_of_neg (by simp), ← List.filter_append, List.filter_eq_self]
    exact fun x hx => by simpa using hu x hx
  have hA : ∃ p, unlines (str! "EESchema-LIBRARY Version 2.3" :: str! "#encoding utf-8" :: str! "#" ::
      a.flatMap Symbol.lns) = p ++ str! "\n" := by
    rcases List.eq_nil_or_concat (str! "#" :: a.flatMap Symbol.lns) with h | ⟨ls, x, h⟩
    · cases h
    · refine ⟨unlines (str! "EESchema-LIBRARY Version 2.3" :: str! "#encoding utf-8" :: ls) ++ x, ?_⟩
      rw [h]
      simp [unlines, unlines_append]
  obtain ⟨p, hp⟩ := hA
  refine ⟨⟨a ++ b⟩, p, unlines s.lns, unlines (b.flatMap Symbol.lns ++ [str! "#End Library"]), ?_, s.show_eq hs, ?_, ?_⟩
  · simp only [LibEdit.run, hf]
  · rw [Lib.lns_split, unlines_append, unlines_append, hp]
  · rw [SymbolLib.show_eq, ← hp, ← unlines_append]
    · simp [SymbolLib.lns]
    · intro x hx
      simp only [List.mem_append] at hx
      exact k x (by simp only [List.mem_append, List.mem_cons]; tauto)

/-- Saved libraries: merging the lines of the files gives the file of the merged symbols. -/
theorem C109_merge {b o t r : List (Symbol F)} {wb wo wt : Str} (hm : Merged b o t r)
    (hb : (⟨b⟩ : SymbolLib F).show = .ok wb) (ho : (⟨o⟩ : SymbolLib F).show = .ok wo)
    (ht : (⟨t⟩ : SymbolLib F).show = .ok wt) :
    ∃ wr, (⟨r⟩ : SymbolLib F).show = .ok wr ∧ Merged (fileLines wb) (fileLines wo) (fileLines wt) (fileLines wr) := by
  obtain ⟨_, rfl⟩ := (Lib.saved_iff _ _).1 hb
  obtain ⟨ko, rfl⟩ := (Lib.saved_iff _ _).1 ho
  obtain ⟨kt, rfl⟩ := (Lib.saved_iff _ _).1 ht
  refine ⟨_, (Lib.saved_iff _ _).2 ⟨fun s hs => (Mrg.perm_mem hm s hs).elim (ko s) (kt s), rfl⟩, ?_⟩
  have key : ∀ ls : List Str, fileLines (unlines ls) = ls.flatMap fileLines ++ [[]] := by
    intro ls
    have : unlines ls = ls.flatMap (fun x => x ++ str! "\n") ++ [] := by
      induction ls with
      | nil => rfl
      | cons x ls ih => simp [unlines, ih]
    rw [this, Mrg.lines_before (fun x => x)]
    rfl
  rw [key, key, key, key]
  simp only [SymbolLib.lns]
  refine Mrg.suffix _ (Mrg.flatMap _ ?_)
  exact .same [str! "EESchema-LIBRARY Version 2.3", str! "#encoding utf-8", str! "#"] (Mrg.suffix _ (Mrg.flatMap _ hm))

/-- Seen as lines: renaming keeps the number of lines; a line that differs was the comment line, the
`DEF` line or the line of the second field, and now has the new name. -/
theorem C109_name_lines (i : Nat) (n : Str) (l l' : SymbolLib F) (t t' : Str) (hl : FitsLib l) (hn : '\n' ∉ n)
    (h : (LibEdit.edit i (.setName n)).run l = .ok l') (ht : l.show = .ok t) (ht' : l'.show = .ok t') :
    ∃ s ∈ l.symbols, ∃ f ∈ s.fields,
      DifferOnly (fun x => x = str! "# " ++ f.value ∨ (str! "DEF " ++ s.name ++ str! " ") <+: x ∨
          (str! "F" ++ showInt f.i ++ str! " \"" ++ f.value ++ str! "\"") <+: x)
        (fun x => x = str! "# " ++ n ∨ (str! "DEF " ++ n ++ str! " ") <+: x ∨ (str! "DEF ~" ++ n ++ str! " ") <+: x ∨
          (str! "F" ++ showInt f.i ++ str! " \"" ++ n ++ str! "\"") <+: x) t t' := by
  obtain ⟨s, f, A, B, x, w, v, first, h1, h2, h3, h4, h5⟩ := C109_name i n l l' t h ht
  have hs := List.mem_of_getElem? h1
  have hf := List.mem_of_getElem? h2
  cases ht'.symm.trans h5
  have hr := read_of_line (hl s hs).1
  have hv : '\n' ∉ f.value := (hr.2.2.2.1 f hf).2.2.1.1
  have hm : '\n' ∉ s.name := hr.1.1
  have hi : '\n' ∉ showInt f.i := (word_showInt f.i).noLf
  have hx : '\n' ∉ x := by rw [h3]; split <;> simp [hn]
  refine ⟨s, hs, f, hf, ?_⟩
  subst h4
  generalize hP : (fun y => y = str! "# " ++ f.value ∨ (str! "DEF " ++ s.name ++ str! " ") <+: y ∨
    (str! "F" ++ showInt f.i ++ str! " \"" ++ f.value ++ str! "\"") <+: y) = P
  generalize hQ : (fun y => y = str! "# " ++ n ∨ (str! "DEF " ++ n ++ str! " ") <+: y ∨
    (str! "DEF ~" ++ n ++ str! " ") <+: y ∨ (str! "F" ++ showInt f.i ++ str! " \"" ++ n ++ str! "\"") <+: y) = Q
  have key : DifferOnly P Q
      (unlines ([str! "# " ++ f.value, str! "#", str! "DEF " ++ s.name ++ ' ' :: w, first,
        str! "F" ++ showInt f.i ++ str! " \"" ++ f.value ++ '"' :: v] ++ B))
      (unlines ([str! "# " ++ n, str! "#", str! "DEF " ++ x ++ ' ' :: w, first,
        str! "F" ++ showInt f.i ++ str! " \"" ++ n ++ '"' :: v] ++ B)) := by
    refine Diff.five (Diff.single (by simp [hv]) (by simp [hn]) (by subst hP; exact .inl rfl)
      (by subst hQ; exact .inl rfl)) ?_ ?_ _ _ _
    · have := Diff.head (P := P) (Q := Q) (a := str! "DEF " ++ s.name ++ str! " ") (a' := str! "DEF " ++ x ++ str! " ")
        (by simp [hm]) (by simp [hx]) (by subst hP; exact fun z => .inr (.inl ⟨z, rfl⟩))
        (by
          subst hQ h3
          intro z
          split
          · exact .inr (.inr (.inl ⟨z, by simp⟩))
          · exact .inr (.inl ⟨z, rfl⟩)) w
      simpa using this
    · have := Diff.head (P := P) (Q := Q) (a := str! "F" ++ showInt f.i ++ str! " \"" ++ f.value ++ str! "\"")
        (a' := str! "F" ++ showInt f.i ++ str! " \"" ++ n ++ str! "\"")
        (by simp [hv, hi]) (by simp [hn, hi]) (by subst hP; exact fun z => .inr (.inr ⟨z, rfl⟩))
        (by subst hQ; exact fun z => .inr (.inr (.inr ⟨z, rfl⟩))) v
      simpa using this
  rw [List.append_assoc A, List.append_assoc A, unlines_append A, unlines_append A]
  rcases List.eq_nil_or_concat A with rfl | ⟨A, y, rfl⟩
  · exact key
  · have : unlines (A.concat y) = (unlines A ++ y) ++ str! "\n" := by simp [unlines_append, unlines]
    rw [this, List.append_assoc (unlines A ++ y), List.append_assoc (unlines A ++ y)]
    exact Diff.prefix _ key

/-! ## Examples -/

/-- A library with two symbols. -/
def Spec.twoSymbols : SymbolLib Nm :=
  let f : Lib.Field Nm := { Field.dflt with value := str! "R", name := str! "Reference" }
  let g : Lib.Field Nm := { Field.dflt with i := 1, value := str! "R", name := str! "Value" }
  ⟨[{ Symbol.new (str! "~R") (str! "R") with fields := [f, g], draw := [.rectangle { Rectangle.dflt with x2 := 50 }] },
    { Symbol.new (str! "C") (str! "C") with fields := [{ f with value := str! "C" }, { g with value := str! "C" }],
                                            aliases := [str! "CAP"] }]⟩

example : FitsLib twoSymbols := by decide +kernel

example : ∃ t l', twoSymbols.show = .ok t ∧ (LibEdit.edit 0 (.setName (str! "RES"))).run twoSymbols = .ok l' ∧
    ∃ t', l'.show = .ok t' ∧ t ≠ t' := ⟨_, _, rfl, rfl, _, rfl, by decide +kernel⟩

example : ∃ l', (LibEdit.edit 1 (.addAlias (str! "CP"))).run twoSymbols = .ok l' ∧
    ∃ t p r, twoSymbols.show = .ok t ∧ t = p ++ str! "\nALIAS CAP\n" ++ r ∧
      l'.show = .ok (p ++ str! "\nALIAS CAP CP\n" ++ r) := by
  obtain ⟨l', h⟩ : ∃ l', (LibEdit.edit 1 (.addAlias (str! "CP"))).run twoSymbols = .ok l' := ⟨_, rfl⟩
  obtain ⟨t, ht⟩ : ∃ t, twoSymbols.show = .ok t := ⟨_, rfl⟩
  obtain ⟨s, A, B, h1, _, h2⟩ := C109_alias 1 _ _ _ t h ht
  cases h1
  obtain ⟨w, h3, h4, h5⟩ := h2 (by decide)
  have h5 : w = str! " CAP" := h5
  subst h5
  rcases List.eq_nil_or_concat (A ++ (twoSymbols.symbols[1].fields.map Lib.Field.show)) with e | ⟨A', y, e⟩
  · simp [twoSymbols] at e
  · refine ⟨l', h, t, unlines A' ++ y, unlines (str! "DRAW" :: B), ht, ?_, ?_⟩
    · rw [h3]
      show unlines ((A ++ twoSymbols.symbols[1].fields.map Lib.Field.show) ++ _ ++ _) = _
      rw [e]
      simp [unlines, unlines_append]
    · rw [h4]
      show Res.ok (unlines ((A ++ twoSymbols.symbols[1].fields.map Lib.Field.show) ++ _ ++ _)) = _
      rw [e]
      simp [unlines, unlines_append]

/-- A symbol is renamed by one, another one is added by the other. -/
example (s c d e : Symbol F) : Merged [s, d] [c, d] [s, d, e] [c, d, e] :=
  .ours [s] [c] (.same [d] (.theirs [] [e] .nil))

end Verif
