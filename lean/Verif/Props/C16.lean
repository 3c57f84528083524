import Verif.Lemmas.LibPanic
import Verif.Lemmas.LibBreak
import Verif.Lemmas.LibTerm
import Verif.Props.C14
/-!
# C16: reading a symbol library ends and rejects foreign files

The reader can panic; `C16_panics_iff` says on which texts, `C16_panic_cause` lists the
kinds of damage that make it panic.
-/

namespace Verif
open Lib Spec Flt

variable {F : Type} [Flt F]

/-- Reading a symbol library ends for every text. -/
theorem C16_parse_terminates (t : Str) : (parseStr t : Res (SymbolLib F)) ≠ .diverge := parseStr_ends t

/-- The reason: each symbol uses up at least one line. -/
theorem C16_symbol_uses_lines (p p' : List Str) (s : Symbol F) (h : parseSymbol p = .ok (s, p')) :
    p'.length < p.length := (parseSymbol_ends p).2 s p' h

/-- A text that does not start with the three header lines of a symbol library is
rejected with an error. -/
theorem C16_foreign_rejected (t : Str)
    (h : ¬ [str! "EESchema-LIBRARY Version 2.3", str! "#encoding utf-8", str! "#"] <+: lines t) :
    (parseStr t : Res (SymbolLib F)) = .err .other := by
  unfold parseStr parseLines
  generalize hv : lines t = v at h ⊢
  match v with
  | [] => rfl
  | a :: v =>
    by_cases ha : a = str! "EESchema-LIBRARY Version 2.3"
    · subst ha
      match v with
      | [] => rfl
      | b :: v =>
        by_cases hb : b = str! "#encoding utf-8"
        · subst hb
          match v with
          | [] => rfl
          | c :: v =>
            by_cases hc : c = str! "#"
            · subst hc
              exact absurd ⟨v, rfl⟩ h
            · simp [Sch.assumeLine, hc]
        · simp [Sch.assumeLine, hb]
    · simp [Sch.assumeLine, ha]

example : ¬ [str! "EESchema-LIBRARY Version 2.3", str! "#encoding utf-8", str! "#"] <+:
    lines (str! "EESchema-LIBRARY Version 2.4\n#encoding utf-8\n#\n") := by decide

/-- The reader panics only on a text that has, after the three header lines, one of the
kinds of damage listed in `Verif/Spec/SymbolDefects.lean`. -/
theorem C16_panic_cause (t : Str) (h : (parseStr t : Res (SymbolLib F)) = .panic) : LibDefect ((lines t).drop 3) :=
  parseLines_panic h

/-- A text without such damage is read or rejected with an error. -/
theorem C16_undamaged (t : Str) (h : ¬ LibDefect ((lines t).drop 3)) :
    (∃ l : SymbolLib F, parseStr t = .ok l) ∨ ∃ e, (parseStr t : Res (SymbolLib F)) = .err e := by
  cases hp : (parseStr t : Res (SymbolLib F)) with
  | ok s => exact Or.inl ⟨s, rfl⟩
  | err e => exact Or.inr ⟨e, rfl⟩
  | panic => exact absurd (C16_panic_cause t hp) h
  | diverge => exact absurd hp (C16_parse_terminates t)

/-- The reader panics on exactly the texts described in `Verif/Spec/SymbolPanics.lean`: after
complete symbols comes one that breaks off before its drawing, or with an empty line there, or
with a field in which a letter is missing. -/
theorem C16_panics_iff (t : Str) : (parseStr t : Res (SymbolLib F)) = .panic ↔ LibraryPanics F (lines t) :=
  lines_breaks (lines t)

/-- Every text that neither follows the grammar of symbol libraries (C75) nor makes the reader
panic is rejected with an error. -/
theorem C16_error_iff (t : Str) : (∃ e, (parseStr t : Res (SymbolLib F)) = .err e) ↔
    (∀ l : SymbolLib F, ¬ LibraryLines (lines t) l) ∧ ¬ LibraryPanics F (lines t) := by
  simp only [← C75_grammar, ← C16_panics_iff]
  cases hp : (parseStr t : Res (SymbolLib F)) with
  | ok s => simp
  | err e => simp
  | panic => simp
  | diverge => exact absurd hp (C16_parse_terminates t)

/-- A field with a missing letter after a complete symbol. -/
example : LibraryPanics Nm (lines (str! "EESchema-LIBRARY Version 2.3\n#encoding utf-8\n#\n\
    # A\n#\nDEF A U 0 0 N Y 1 F N\nDRAW\nENDDRAW\nENDDEF\n#\n\
    # R\n#\nDEF R R 0 0 N Y 1 F N\nF0 \"R\" 0 0 50 H V C CN\nDRAW\nENDDRAW\nENDDEF\n#\n#End Library\n")) := by
  rw [← C16_panics_iff]
  decide +kernel

/-- The same, but the damage comes after an error. -/
example : ¬ LibraryPanics Nm (lines (str! "EESchema-LIBRARY Version 2.3\n#encoding utf-8\n#\n\
    # A\n#\nDEF A U 0 0 N Y 1 F N\nDRAW\nENDDRAW\n#\n\
    # R\n#\nDEF R R 0 0 N Y 1 F N\nF0 \"R\" 0 0 50 H V C CN\nDRAW\nENDDRAW\nENDDEF\n#\n#End Library\n")) := by
  rw [← C16_panics_iff]
  decide +kernel

theorem Lib.symbols_truncated {p : List Str} {ss : List (Symbol F)} (h : SymbolList p ss) :
    ∀ (more : List Str) (ts : List (Symbol F)), SymbolList (p ++ more) ts → ss <+: ts := by
  induction h with
  | eof => intros; exact List.nil_prefix
  | mark => intros; exact List.nil_prefix
  | @symbol a b s ss hs hh hr ih =>
    intro more ts ht
    have h1 := (Lib.symbol_iff (a ++ b ++ more) (b ++ more) s).2 ⟨a, by simp, hs⟩
    have hne : ∃ x y, a = x :: y := by
      obtain ⟨x, _, _, _, _, _, rfl, _⟩ := hs
      exact ⟨_, _, rfl⟩
    obtain ⟨x, y, rfl⟩ := hne
    generalize hp : x :: y ++ b ++ more = p at ht h1
    cases ht with
    | eof => simp at hp
    | mark =>
      simp only [List.cons_append, List.cons.injEq] at hp
      rw [hp.1] at hh
      simp at hh
    | @symbol a' b' s' ts hs' hh' hr' =>
      have h2 := (Lib.symbol_iff (a' ++ b') b' s').2 ⟨a', rfl, hs'⟩
      rw [h1] at h2
      simp only [Res.ok.injEq, Prod.mk.injEq] at h2
      obtain ⟨rfl, rfl⟩ := h2
      exact (List.prefix_cons_inj _).2 (ih more ts hr')

/-- If what is left of a good library of which only the first lines are left is read at all,
the symbols are the first ones of the whole library. -/
theorem C16_truncation_reads (t : Str) (more : List Str) (l m : SymbolLib F) (h : LibraryLines (lines t ++ more) l)
    (hm : parseStr t = .ok m) : m.symbols <+: l.symbols := by
  obtain ⟨body, h1, h⟩ := h
  obtain ⟨b, h2, hb⟩ := (C75_grammar t m).1 hm
  rw [h2] at h1
  simp only [List.cons_append, List.cons.injEq, true_and] at h1
  rw [← h1] at h
  exact Lib.symbols_truncated hb more _ h

example : ∃ (t : Str) (more : List Str) (l m : SymbolLib Nm), LibraryLines (lines t ++ more) l ∧
    parseStr t = .ok m ∧ m.symbols.length = 1 ∧ l.symbols.length = 2 := by
  obtain ⟨a, ha⟩ : ∃ a, a = str! "EESchema-LIBRARY Version 2.3\n#encoding utf-8\n#\n\
    # A\n#\nDEF A U 0 0 N Y 1 F N\nDRAW\nENDDRAW\nENDDEF\n#\n" := ⟨_, rfl⟩
  obtain ⟨b, hb⟩ : ∃ b, b = str! "# R\n#\nDEF R R 0 0 N Y 1 F N\nDRAW\nENDDRAW\nENDDEF\n#\n#End Library\n" := ⟨_, rfl⟩
  have e : lines (a ++ b) = lines a ++ lines b := by rw [ha, hb]; decide +kernel
  obtain ⟨u, hu⟩ : ∃ u : Symbol Nm, u = { Symbol.new (str! "A") (str! "U") with drawPinname := true } := ⟨_, rfl⟩
  obtain ⟨v, hv⟩ : ∃ v : Symbol Nm, v = { Symbol.new (str! "R") (str! "R") with drawPinname := true } := ⟨_, rfl⟩
  refine ⟨a, lines b, ⟨[u, v]⟩, ⟨[u]⟩, ?_, ?_, rfl, rfl⟩
  · rw [← e, ← C75_grammar, ha, hb, hu, hv]
    decide +kernel
  · rw [ha, hu]
    decide +kernel

/-- A library text with one symbol. -/
def Spec.smallLib : Str :=
  str! "EESchema-LIBRARY Version 2.3\n#encoding utf-8\n#\n# R\n#\nDEF R R 0 0 N Y 1 F N\n\
    F0 \"R\" 0 0 50 H V C CNN\n$FPLIST\n R_*\n$ENDFPLIST\nDRAW\nENDDRAW\nENDDEF\n#\n#End Library\n"

/-- A text without damage. -/
example : ¬ LibDefect ((lines smallLib).drop 3) := by
  generalize hl : (lines smallLib).drop 3 = ls
  have hls : ls = [str! "# R", str! "#", str! "DEF R R 0 0 N Y 1 F N", str! "F0 \"R\" 0 0 50 H V C CNN",
      str! "$FPLIST", str! " R_*", str! "$ENDFPLIST", str! "DRAW", str! "ENDDRAW", str! "ENDDEF", str! "#",
      str! "#End Library"] := by rw [← hl]; decide +kernel
  clear hl
  have hlast : ls.getLast? = some (str! "#End Library") := by rw [hls]; rfl
  intro h
  cases h with
  | emptyLine h => rw [hls] at h; exact absurd h (by decide)
  | @field _ l hm h =>
    obtain ⟨⟨r, hr⟩, v, hv, _, h3⟩ := h
    have hl : l = str! "F0 \"R\" 0 0 50 H V C CNN" := by
      rw [hls] at hm
      subst hr
      simpa using hm
    rw [hl] at hv
    have : splitQ (str! "F0 \"R\" 0 0 50 H V C CNN") = .ok [str! "F0", str! "R", str! "0", str! "0", str! "50",
        str! "H", str! "V", str! "C", str! "CNN"] := by decide +kernel
    rw [this] at hv
    cases hv
    revert h3
    simp
  | cutComment => simp at hlast
  | @cutDefinition a l v h hv =>
    simp only [List.getLast?_append, List.getLast?_singleton, Option.some_or, Option.some.injEq] at hlast
    subst hlast
    have : splitQ (str! "#End Library") = .ok [str! "#End", str! "Library"] := by decide +kernel
    rw [this] at h
    cases h
    simp at hv
  | cutField => simp at hlast
  | @cutFilters a b h =>
    have h1 : ∀ (a b : List Str), [str! "# R", str! "#", str! "DEF R R 0 0 N Y 1 F N", str! "F0 \"R\" 0 0 50 H V C CNN",
      str! "$FPLIST", str! " R_*", str! "$ENDFPLIST", str! "DRAW", str! "ENDDRAW", str! "ENDDEF", str! "#",
      str! "#End Library"] = a ++ str! "$FPLIST" :: b → b = [str! " R_*", str! "$ENDFPLIST", str! "DRAW",
        str! "ENDDRAW", str! "ENDDEF", str! "#", str! "#End Library"] := by
      intro a b hab
      match a, hab with
      | [], hab => simp at hab
      | [_], hab => simp at hab
      | [_, _], hab => simp at hab
      | [_, _, _], hab => simp at hab
      | [_, _, _, _], hab => simp at hab; exact hab.2.2.2.2.symm
      | [_, _, _, _, _], hab => simp at hab
      | [_, _, _, _, _, _], hab => simp at hab
      | [_, _, _, _, _, _, _], hab => simp at hab
      | [_, _, _, _, _, _, _, _], hab => simp at hab
      | [_, _, _, _, _, _, _, _, _], hab => simp at hab
      | [_, _, _, _, _, _, _, _, _, _], hab => simp at hab
      | [_, _, _, _, _, _, _, _, _, _, _], hab => simp at hab
      | _ :: _ :: _ :: _ :: _ :: _ :: _ :: _ :: _ :: _ :: _ :: _ :: a, hab => simp at hab
    rw [h1 a b hls.symm] at h
    exact h (by decide)

/-- The call panics. -/
def Spec.aborts {α : Type} (r : Res α) : Bool := match r with | .panic => true | _ => false

/-- Each kind of damage does make the reader panic in some file. -/
theorem C16_damage_panics : ∀ t ∈ [
    str! "# R\n#\nDEF R R 0 0 N Y 1 F N\n\nDRAW\n", str! "# R\n#\nDEF R R 0 0 N Y 1 F N\nF0 \"R\" 0 0 50 H V C CN\n",
    str! "# R\n#\nDEF R R 0 0 N Y 1 F N\nF0 \"R\" 0 0 50 \"\" V C CNN\n",
    str! "# R\n#\n", str! "# R\n#\nDEF R R 0 0 N Y 1 F N\n",
    str! "# R\n#\nDEF R R 0 0 N Y 1 F N\nF0 \"R\" 0 0 50 H V C CNN\n",
    str! "# R\n#\nDEF R R 0 0 N Y 1 F N\n$FPLIST\n R_*\n",
    str! "# R\n#\nDEF R R 0 0 N Y 1 F N\n$FPLIST\n R_*\n$ENDFPLIST\n"],
    (parseStr (str! "EESchema-LIBRARY Version 2.3\n#encoding utf-8\n#\n" ++ t) : Res (SymbolLib Nm)) = .panic := by
  have : ∀ t ∈ [
    str! "# R\n#\nDEF R R 0 0 N Y 1 F N\n\nDRAW\n", str! "# R\n#\nDEF R R 0 0 N Y 1 F N\nF0 \"R\" 0 0 50 H V C CN\n",
    str! "# R\n#\nDEF R R 0 0 N Y 1 F N\nF0 \"R\" 0 0 50 \"\" V C CNN\n",
    str! "# R\n#\n", str! "# R\n#\nDEF R R 0 0 N Y 1 F N\n",
    str! "# R\n#\nDEF R R 0 0 N Y 1 F N\nF0 \"R\" 0 0 50 H V C CNN\n",
    str! "# R\n#\nDEF R R 0 0 N Y 1 F N\n$FPLIST\n R_*\n",
    str! "# R\n#\nDEF R R 0 0 N Y 1 F N\n$FPLIST\n R_*\n$ENDFPLIST\n"],
    aborts (parseStr (str! "EESchema-LIBRARY Version 2.3\n#encoding utf-8\n#\n" ++ t) : Res (SymbolLib Nm)) = true := by
    decide +kernel
  intro t ht
  have := this t ht
  unfold aborts at this
  split at this
  · assumption
  · cases this

variable [TextLaws F]

/-- The reader of the fields panics when the file ends, and at an empty line. -/
theorem Lib.parseFields_panic (acc fs : List (Lib.Field F)) (h : ∀ f ∈ fs, FitsSymField f)
    (hb : ∀ f ∈ fs, f.bold = false) (e : List Str) (he : e = [] ∨ ∃ r, e = [] :: r) :
    parseFields acc (fs.map Field.show ++ e) = .panic := by
  induction fs generalizing acc with
  | nil => rcases he with rfl | ⟨r, rfl⟩ <;> rfl
  | cons f fs ih =>
    rw [List.forall_mem_cons] at h hb
    have hch : Sch.charAt f.show 0 = .ok 'F' := by
      unfold Sch.charAt Field.show
      simp only [List.append_assoc, List.cons_append, List.nil_append, List.getElem?_cons_zero]
    rw [List.map_cons, List.cons_append, parseFields, hch, Res.bind_ok, if_pos rfl, parseField_show f h.1,
      hb.1]
    simp [ih _ h.2 hb.2]

/-- Reading the symbols of a printed library goes on with what follows. -/
theorem Lib.parseSymbols_prefix (v : Symbol F → Str) (l : List (Symbol F)) (h : ∀ s ∈ l, LineSymbol s)
    (hb : ∀ s ∈ l, s.fields.any (·.bold) = false) (acc : List (Symbol F)) (n : Nat) (rest : List Str) :
    parseSymbols (n + l.length) acc (l.flatMap (fun s => s.lnsWith (v s)) ++ rest) = parseSymbols n (acc ++ l) rest := by
  induction l generalizing acc with
  | nil => simp
  | cons s l ih =>
    rw [List.forall_mem_cons] at h hb
    have hne : (str! "# " ++ v s) ≠ str! "#End Library" := by
      intro h'; simp at h'
    have hp := parseSymbol_lns s h.1 (v s) (l.flatMap (fun s => s.lnsWith (v s)) ++ rest)
    rw [List.flatMap_cons, List.append_assoc, List.length_cons, ← Nat.add_assoc]
    rw [Symbol.lnsWith, List.cons_append] at hp ⊢
    rw [parseSymbols, if_neg hne, hp, hb.1]
    simp only [Bool.false_eq_true, if_false, Res.bind_ok, ih h.2 hb.2, List.append_assoc, List.cons_append,
      List.nil_append]

/-- The reader does panic on damaged files: when the file ends after the fields of a
symbol, or has an empty line there, whatever came before. -/
theorem C16_cut_symbol_panics (l : SymbolLib F) (s : Symbol F) (u w : Str) (h : FitsLib l) (hb : ¬ HasBold l)
    (hs : FitsSymbol s) (hsb : ∀ f ∈ s.fields, f.bold = false) (ha : s.aliases = []) (hd : s.draw = [])
    (hu : l.show = .ok (u ++ str! "#End Library\n")) (hw : s.show = .ok (w ++ str! "DRAW\nENDDRAW\nENDDEF\n#\n")) :
    (parseStr (u ++ w) : Res (SymbolLib F)) = .panic ∧
    ∀ more : Str, (parseStr (u ++ w ++ str! "\n" ++ more) : Res (SymbolLib F)) = .panic := by
  have hb' : ∀ s ∈ l.symbols, s.fields.any (·.bold) = false := by
    intro s hs
    rw [Bool.eq_false_iff]
    intro hx
    obtain ⟨f, hf, hfb⟩ := List.any_eq_true.1 hx
    exact hb ⟨s, hs, f, hf, hfb⟩
  obtain ⟨hdr, hhdr⟩ : ∃ hdr, hdr = [str! "EESchema-LIBRARY Version 2.3", str! "#encoding utf-8", str! "#"] :=
    ⟨_, rfl⟩
  have hlib : l.lns = (hdr ++ l.symbols.flatMap Symbol.lns) ++ [str! "#End Library"] := by
    rw [hhdr]; simp [SymbolLib.lns]
  have hu' : u = unlines (hdr ++ l.symbols.flatMap Symbol.lns) := by
    rw [l.show_eq fun s hs => (h s hs).1.2.2.2.1, hlib, unlines_append] at hu
    exact (List.append_cancel_right (Res.ok.inj hu)).symm
  obtain ⟨pre, hpre⟩ : ∃ pre, pre = str! "#" :: s.defLine :: s.fields.map Field.show := ⟨_, rfl⟩
  have hlns : ∀ v, s.lnsWith v = ((str! "# " ++ v) :: pre) ++ [str! "DRAW", str! "ENDDRAW", str! "ENDDEF", str! "#"] := by
    intro v
    rw [hpre]
    simp [Symbol.lnsWith, Symbol.body, ha, hd, aliasLns]
  have hw' : w = unlines ((str! "# " ++ s.value) :: pre) := by
    rw [s.show_eq hs.1.2.2.2.1, Symbol.lns, hlns, unlines_append] at hw
    exact (List.append_cancel_right (Res.ok.inj hw)).symm
  have hread : ∀ s ∈ l.symbols, ReadSymbol s := fun s hs => read_of_line (h s hs).1
  have hol : ∀ x ∈ (hdr ++ l.symbols.flatMap Symbol.lns) ++ ((str! "# " ++ s.value) :: pre), '\n' ∉ x := by
    intro x hx
    rcases List.mem_append.1 hx with hx | hx
    · refine l.lns_noLf hread x ?_
      rw [hlib]
      exact List.mem_append_left _ hx
    · refine s.lns_noLf (read_of_line hs.1) x ?_
      rw [Symbol.lns, hlns]
      exact List.mem_append_left _ hx
  obtain ⟨L, hL⟩ : ∃ L, L = l.symbols.flatMap (fun s => s.lnsWith (stripCr s.value)) := ⟨_, rfl⟩
  have hstrip : ((hdr ++ l.symbols.flatMap Symbol.lns) ++ ((str! "# " ++ s.value) :: pre)).map stripCr =
      (hdr ++ L) ++ ((str! "# " ++ stripCr s.value) :: pre) := by
    have h1 : hdr.map stripCr = hdr := by rw [hhdr]; decide
    have h2 : (l.symbols.flatMap Symbol.lns).map stripCr = L := by
      rw [hL, List.map_flatMap]
      exact Sch.flatMap_congr_mem fun s hs => by rw [s.lns_strip (hread s hs), s.readLns_ended (h s hs).2]
    have h3 : ((str! "# " ++ s.value) :: pre).map stripCr = (str! "# " ++ stripCr s.value) :: pre := by
      have e := s.lns_strip (read_of_line hs.1)
      rw [s.readLns_ended hs.2, Symbol.lns, hlns, hlns, List.map_append] at e
      exact List.append_inj_left e (by simp)
    rw [List.map_append, List.map_append, h1, h2, h3]
  have key : ∀ e : List Str, (e = [] ∨ ∃ r, e = [] :: r) →
      (Lib.parseLines ((hdr ++ L) ++ ((str! "# " ++ stripCr s.value) :: pre) ++ e) :
        Res (SymbolLib F)) = .panic := by
    intro e he
    have hsym : (parseSymbol (((str! "# " ++ stripCr s.value) :: pre) ++ e) : Res (Symbol F × List Str)) = .panic := by
      rw [parseSymbol, hpre]
      simp only [List.cons_append, Sch.next, List.drop_succ_cons, List.drop_zero, Sch.assumeLine, ne_eq, not_true,
        if_false, Res.bind_ok, Sch.here, parseDef_show s hs.1,
        parseFields_panic [] s.fields hs.1.2.2.2.2.1 hsb e he, Res.bind_panic]
    have hne : (str! "# " ++ stripCr s.value) ≠ str! "#End Library" := by
      intro h'; simp at h'
    have hsp : (hdr ++ L) ++ ((str! "# " ++ stripCr s.value) :: pre) ++ e =
        str! "EESchema-LIBRARY Version 2.3" :: str! "#encoding utf-8" :: str! "#" ::
          (L ++ (((str! "# " ++ stripCr s.value) :: pre) ++ e)) := by
      rw [hhdr]; simp
    rw [hsp, Lib.parseLines]
    simp only [Sch.assumeLine, ne_eq, not_true, if_false, Res.bind_ok]
    obtain ⟨k, hk⟩ : ∃ k, (L ++ (((str! "# " ++ stripCr s.value) :: pre) ++ e)).length =
        (k + 1) + l.symbols.length := by
      have : l.symbols.length ≤ L.length := by
        rw [hL]
        generalize l.symbols = x
        induction x with
        | nil => simp
        | cons s x ih =>
          have : 0 < (s.lnsWith (stripCr s.value)).length := by simp [Symbol.lnsWith]
          rw [List.flatMap_cons, List.length_append, List.length_cons]
          omega
      refine ⟨(L ++ (((str! "# " ++ stripCr s.value) :: pre) ++ e)).length - l.symbols.length - 1, ?_⟩
      simp only [List.length_append, List.length_cons] at this ⊢
      omega
    rw [hk, hL, parseSymbols_prefix (fun s => stripCr s.value) l.symbols (fun s hs => (h s hs).1) hb',
      List.cons_append, parseSymbols, if_neg hne]
    rw [List.cons_append] at hsym
    rw [hsym]
    rfl
  constructor
  · rw [hu', hw', ← unlines_append, Lib.parseStr, lines_unlines_strip _ hol, hstrip]
    have := key [] (Or.inl rfl)
    rwa [List.append_nil] at this
  · intro more
    have hl : lines (u ++ w ++ str! "\n" ++ more) =
        (hdr ++ L) ++ ((str! "# " ++ stripCr s.value) :: pre) ++ ([] :: lines more) := by
      rw [hu', hw', ← unlines_append, ← hstrip]
      generalize (hdr ++ l.symbols.flatMap Symbol.lns) ++ ((str! "# " ++ s.value) :: pre) = ls at hol ⊢
      clear hstrip
      induction ls with
      | nil => exact lines_line [] more oneLine_nil
      | cons a ls ih =>
        rw [List.forall_mem_cons] at hol
        have := linesAux_line [] a (unlines ls ++ str! "\n" ++ more) hol.1
        have ih := ih hol.2
        unfold lines at ih ⊢
        rw [ih] at this
        simpa [unlines] using this
    rw [Lib.parseStr, hl]
    exact key _ (Or.inr ⟨_, rfl⟩)

/-- The hypotheses can be met: the last symbol of the sample library has neither
aliases nor drawings. -/
example : ∃ s ∈ (sampleLib Nm).symbols, FitsSymbol s ∧ (∀ f ∈ s.fields, f.bold = false) ∧ s.aliases = [] ∧
    s.draw = [] := by decide +kernel

end Verif
