import Verif.Lemmas.LibLocal
import Verif.Props.C02
import Verif.Props.C16
/-!
# C67: how symbol library files can be put together, and what the reader ignores
-/

namespace Verif
open Lib Spec Flt

/-- The three lines every symbol library starts with. -/
def Spec.libHeader : Str := str! "EESchema-LIBRARY Version 2.3\n#encoding utf-8\n#\n"

/-- The line that ends a symbol library. -/
def Spec.libEnd : Str := str! "#End Library\n"

theorem Lib.wholeLines_header : WholeLines libHeader :=
  Or.inr ⟨str! "EESchema-LIBRARY Version 2.3\n#encoding utf-8\n#", rfl⟩

theorem Lib.lines_header : lines libHeader =
    [str! "EESchema-LIBRARY Version 2.3", str! "#encoding utf-8", str! "#"] := by decide +kernel

variable {F : Type} [Flt F]

theorem Lib.parseStr_header (b : Str) : (parseStr (libHeader ++ b) : Res (SymbolLib F)) =
    (parseSymbols (lines b).length [] (lines b) >>= fun l => .ok ⟨l⟩) := by
  rw [parseStr, lines_append wholeLines_header, lines_header, Lib.parseLines]
  simp only [List.cons_append, List.nil_append, Sch.assumeLine, ne_eq, not_true, if_false, Res.bind_ok]

theorem Lib.parseSymbols_ne_diverge (acc : List (Symbol F)) (p : List Str) :
    parseSymbols p.length acc p ≠ .diverge := by
  intro h
  have := C16_parse_terminates (F := F) (libHeader ++ unlines [])
  rw [parseSymbols_acc] at h
  have key : ∀ (n : Nat) (p : List Str), p.length ≤ n → (parseSymbols n [] p : Res (List (Symbol F))) ≠ .diverge := by
    intro n
    induction n with
    | zero =>
      intro p hp
      cases p with
      | nil => intro h; cases h
      | cons x p => simp at hp
    | succ n ih =>
      intro p hp h
      cases p with
      | nil => cases h
      | cons x p =>
        rw [parseSymbols] at h
        split at h
        · cases h
        · rcases Res.bind_eq_diverge.1 h with h' | ⟨⟨s, p'⟩, hs, h⟩
          · exact (parseSymbol_ends (x :: p)).1 h'
          · simp only at h
            rw [parseSymbols_acc] at h
            rcases Res.bind_eq_diverge.1 h with h' | ⟨l, _, h⟩
            · have := (parseSymbol_ends (x :: p)).2 s p' hs
              simp only [List.length_cons] at this hp
              exact ih p' (by omega) h'
            · cases h
  rcases Res.bind_eq_diverge.1 h with h' | ⟨l, _, h⟩
  · exact key _ p (Nat.le_refl _) h'
  · cases h

/-- Whatever follows the end mark is ignored, for every library file that is read. -/
theorem C67_end_mark (u more : Str) (l : SymbolLib F) (hu : WholeLines u) (h : parseStr (u ++ libEnd) = .ok l) :
    parseStr (u ++ libEnd ++ more) = .ok l := by
  have hE : WholeLines libEnd := Or.inr ⟨str! "#End Library", rfl⟩
  have hl : lines libEnd = [str! "#End Library"] := by decide +kernel
  rw [parseStr, lines_append hu, hl] at h
  rw [parseStr, lines_append (hu.append hE), lines_append hu, hl]
  rw [List.append_assoc, List.singleton_append]
  generalize lines u = p at h ⊢
  generalize lines more = q
  unfold Lib.parseLines at h ⊢
  obtain ⟨p1, h1, h⟩ := Res.bind_eq_ok.1 h
  obtain ⟨p2, h2, h⟩ := Res.bind_eq_ok.1 h
  obtain ⟨p3, h3, h⟩ := Res.bind_eq_ok.1 h
  obtain ⟨ss, hs, hss⟩ := Res.bind_eq_ok.1 h
  have e1 := assumeLine_local q h1
  have e2 := assumeLine_local q h2
  have e3 := assumeLine_local q h3
  rw [List.append_assoc, List.singleton_append] at e1
  rw [e1, Res.bind_ok, e2, Res.bind_ok, e3, Res.bind_ok]
  have hsuf : p3 <:+ p ++ [str! "#End Library"] :=
    (assumeLine_suffix h3).trans ((assumeLine_suffix h2).trans (assumeLine_suffix h1))
  cases hc : p3.getLast? with
  | none =>
    rw [List.getLast?_eq_none_iff] at hc
    subst hc
    have : str! "#" :: ([] : List Str) <:+ p ++ [str! "#End Library"] := by
      rw [← assumeLine_cons h3]
      exact (assumeLine_suffix h2).trans (assumeLine_suffix h1)
    obtain ⟨a, ha⟩ := this
    have := congrArg List.getLast? ha
    simp at this
  | some y =>
    rw [List.getLast?_eq_some_iff] at hc
    obtain ⟨p4, rfl⟩ := hc
    have hy : y = str! "#End Library" := by
      obtain ⟨a, ha⟩ := hsuf
      have := congrArg List.getLast? ha
      simpa using this
    subst hy
    have := parseSymbols_endMark q.length q hs
    rw [List.append_assoc, List.singleton_append]
    have hlen : (p4 ++ str! "#End Library" :: q).length = (p4 ++ [str! "#End Library"]).length + q.length := by
      simp; omega
    rw [hlen, this]
    exact hss

example : (∃ l : SymbolLib Nm, parseStr (libHeader ++ libEnd) = .ok l) ∧ WholeLines libHeader :=
  ⟨⟨⟨[]⟩, by rw [parseStr_header]; rfl⟩, wholeLines_header⟩

/-- Library files are put together by putting their symbols one after the other: if
the first part has no end mark and is read as `l`, the whole is read as the symbols
of `l` followed by those of the second part, and fails if the second part fails. -/
theorem C67_concatenation (a b : Str) (l : SymbolLib F) (ha : WholeLines a) (he : str! "#End Library" ∉ lines a)
    (h : parseStr (libHeader ++ a) = .ok l) :
    (parseStr (libHeader ++ a ++ b) : Res (SymbolLib F)) =
      (parseStr (libHeader ++ b) >>= fun m => .ok ⟨l.symbols ++ m.symbols⟩) := by
  rw [parseStr_header] at h
  rw [List.append_assoc, parseStr_header, parseStr_header, lines_append ha]
  obtain ⟨ss, hs, h⟩ := Res.bind_eq_ok.1 h
  cases h
  rw [List.length_append, parseSymbols_continue (lines b).length (lines b) he hs (parseSymbols_ne_diverge _ _),
    parseSymbols_acc, Res.bind_assoc, Res.bind_assoc]
  rfl

/-- An end mark is not needed. -/
theorem C67_end_mark_optional (a : Str) (l : SymbolLib F) (ha : WholeLines a) (he : str! "#End Library" ∉ lines a)
    (h : parseStr (libHeader ++ a) = .ok l) : parseStr (libHeader ++ a ++ libEnd) = .ok l := by
  have := C67_concatenation a libEnd l ha he h
  rw [this, parseStr_header]
  have hl : lines libEnd = [str! "#End Library"] := by decide +kernel
  rw [hl]
  simp [parseSymbols]

/-- A symbol as it stands in a library file, with footprint filters. -/
def Spec.symbolText : Str :=
  str! "# R\n#\nDEF R R 0 0 N Y 1 F N\nF0 \"R\" 0 0 50 H V C CNN\nF1 \"R\" 0 0 50 H V C CNN\n\
    $FPLIST\n R_*\n$ENDFPLIST\nDRAW\nENDDRAW\nENDDEF\n#\n"

example : WholeLines symbolText ∧ str! "#End Library" ∉ lines symbolText ∧
    ∃ l : SymbolLib Nm, parseStr (libHeader ++ symbolText) = .ok l := by
  refine ⟨Or.inr ⟨symbolText.dropLast, by decide +kernel⟩, by decide +kernel, ?_⟩
  · have : accepted (parseStr (libHeader ++ symbolText) : Res (SymbolLib Nm)) (fun _ => true) = true := by decide +kernel
    cases hp : (parseStr (libHeader ++ symbolText) : Res (SymbolLib Nm)) with
    | ok l => exact ⟨l, rfl⟩
    | _ => rw [hp] at this; cases this

variable [TextLaws F]

/-- The comment with the name before a symbol may be any line but the end mark: the
result does not depend on it.  `rest` is whatever follows that line. -/
theorem C67_heading_ignored (l : SymbolLib F) (u x y rest : Str) (h : FitsLib l) (hb : ¬ HasBold l)
    (hu : l.show = .ok (u ++ libEnd)) (hx : OneLine x) (hy : OneLine y) (hxe : x ≠ str! "#End Library")
    (hye : y ≠ str! "#End Library") :
    (parseStr (u ++ x ++ '\n' :: rest) : Res (SymbolLib F)) = parseStr (u ++ y ++ '\n' :: rest) := by
  have hu' : u = libHeader ++ unlines (l.symbols.flatMap Symbol.lns) := by
    rw [l.show_eq fun s hs => (h s hs).1.2.2.2.1] at hu
    have e : l.lns = [str! "EESchema-LIBRARY Version 2.3", str! "#encoding utf-8", str! "#"] ++
        (l.symbols.flatMap Symbol.lns ++ [str! "#End Library"]) := rfl
    rw [e, unlines_append, unlines_append, ← List.append_assoc] at hu
    exact (List.append_cancel_right (Res.ok.inj hu)).symm
  have hb' : ∀ s ∈ l.symbols, s.fields.any (·.bold) = false := by
    intro s hs
    rw [Bool.eq_false_iff]
    intro hx
    obtain ⟨f, hf, hfb⟩ := List.any_eq_true.1 hx
    exact hb ⟨s, hs, f, hf, hfb⟩
  have hrd : ∀ s ∈ l.symbols, ReadSymbol s := fun s hs => read_of_line (h s hs).1
  have hol : ∀ x ∈ l.symbols.flatMap Symbol.lns, '\n' ∉ x := fun x hx =>
    l.lns_noLf hrd x (by
      unfold SymbolLib.lns
      simp only [List.mem_cons, List.mem_append]
      exact Or.inr (Or.inr (Or.inr (Or.inl hx))))
  have hwl : WholeLines (unlines (l.symbols.flatMap Symbol.lns)) := by
    generalize l.symbols.flatMap Symbol.lns = ls
    cases hl : ls.getLast? with
    | none => left; rw [List.getLast?_eq_none_iff] at hl; rw [hl]; rfl
    | some z =>
      right
      rw [List.getLast?_eq_some_iff] at hl
      obtain ⟨q, rfl⟩ := hl
      exact ⟨unlines q ++ z, by simp [unlines_append, unlines]⟩
  have key : ∀ z : Str, OneLine z → z ≠ str! "#End Library" →
      (parseStr (u ++ z ++ '\n' :: rest) : Res (SymbolLib F)) =
        (parseSymbol ([] :: lines rest) >>= fun sp =>
          parseSymbols (lines rest).length (l.symbols ++ [sp.1]) sp.2 >>= fun ss => .ok ⟨ss⟩) := by
    intro z hz hze
    have hsym := parseSymbols_prefix (fun s => stripCr s.value) l.symbols (fun s hs => (h s hs).1) hb'
      ([] : List (Symbol F))
    have hstrip : (l.symbols.flatMap Symbol.lns).map stripCr =
        l.symbols.flatMap (fun s => s.lnsWith (stripCr s.value)) := by
      rw [List.map_flatMap]
      exact Sch.flatMap_congr_mem fun s hs => by rw [s.lns_strip (hrd s hs), s.readLns_ended (h s hs).2]
    have hcount : l.symbols.length ≤ (l.symbols.flatMap (fun s => s.lnsWith (stripCr s.value))).length := by
      generalize l.symbols = x
      induction x with
      | nil => simp
      | cons s x ih =>
        have : 0 < (s.lnsWith (stripCr s.value)).length := by simp [Symbol.lnsWith]
        rw [List.flatMap_cons, List.length_append, List.length_cons]
        omega
    rw [hu', List.append_assoc, List.append_assoc, parseStr_header, lines_append hwl, lines_unlines_strip _ hol,
      lines_line z rest hz, hstrip]
    obtain ⟨k, hk⟩ : ∃ k, (l.symbols.flatMap (fun s => s.lnsWith (stripCr s.value)) ++ z :: lines rest).length =
        ((lines rest).length + 1 + k) + l.symbols.length := by
      refine ⟨(l.symbols.flatMap (fun s => s.lnsWith (stripCr s.value))).length - l.symbols.length, ?_⟩
      simp only [List.length_append, List.length_cons]
      omega
    have hnd := parseSymbols_ne_diverge (l.symbols) (z :: lines rest)
    rw [hk, hsym, List.nil_append, ← List.length_cons (a := z), parseSymbols_fuel k hnd, List.length_cons, parseSymbols,
      if_neg hze, Res.bind_assoc]
    rfl
  rw [key x hx hxe, key y hy hye]

/-- Footprint filters are ignored, and so lost when the library is saved: a symbol with
filters after its fields is read as the same symbol without them.  `w` is the text of
the symbol up to its fields, `v` the rest; `filters` are lines of any kind. -/
theorem C67_filters_lost (s : Symbol F) (w v : Str) (filters : List Str) (h : FitsSymbol s)
    (hb : ∀ f ∈ s.fields, f.bold = false)
    (hw : ({ s with aliases := [], draw := [] } : Symbol F).show = .ok (w ++ str! "DRAW\nENDDRAW\nENDDEF\n#\n"))
    (hv : s.show = .ok (w ++ v)) (hf : ∀ x ∈ filters, OneLine x ∧ x ≠ str! "$ENDFPLIST") :
    (parseStr (libHeader ++ w ++ v) : Res (SymbolLib F)) = .ok ⟨[s]⟩ ∧
    (parseStr (libHeader ++ w ++ str! "$FPLIST\n" ++ unlines filters ++ str! "$ENDFPLIST\n" ++ v) :
      Res (SymbolLib F)) = .ok ⟨[s]⟩ := by
  obtain ⟨pre, hpre⟩ : ∃ pre : Str → List Str,
      ∀ x, pre x = (str! "# " ++ x) :: str! "#" :: s.defLine :: s.fields.map Field.show := ⟨_, fun _ => rfl⟩
  obtain ⟨post, hpost⟩ : ∃ post, post = aliasLns s.aliases ++ (str! "DRAW" :: (s.draw.map Draw.show ++
    [str! "ENDDRAW", str! "ENDDEF", str! "#"])) := ⟨_, rfl⟩
  have hlns : ∀ x, s.lnsWith x = pre x ++ post := by
    intro x
    rw [hpre, hpost]; simp [Symbol.lnsWith, Symbol.body]
  have hw' : w = unlines (pre s.value) := by
    rw [Symbol.show_eq ({ s with aliases := [], draw := [] } : Symbol F) h.1.2.2.2.1] at hw
    have e : ({ s with aliases := [], draw := [] } : Symbol F).lns =
        pre s.value ++ [str! "DRAW", str! "ENDDRAW", str! "ENDDEF", str! "#"] := by
      rw [hpre]; simp [Symbol.lns, Symbol.lnsWith, Symbol.body, aliasLns, Symbol.defLine, Symbol.value]
    rw [e, unlines_append] at hw
    exact (List.append_cancel_right (Res.ok.inj hw)).symm
  have hv' : v = unlines post := by
    rw [s.show_eq h.1.2.2.2.1, Symbol.lns, hlns, unlines_append, ← hw'] at hv
    exact (List.append_cancel_left (Res.ok.inj hv)).symm
  have hbold : s.fields.any (·.bold) = false := by
    rw [Bool.eq_false_iff]
    intro hx
    obtain ⟨f, hf, hfb⟩ := List.any_eq_true.1 hx
    rw [hb f hf] at hfb
    cases hfb
  have hol := s.lns_noLf (read_of_line h.1)
  rw [Symbol.lns, hlns] at hol
  have hstrip : (pre s.value).map stripCr = pre (stripCr s.value) ∧ post.map stripCr = post := by
    have e := s.lns_strip (read_of_line h.1)
    rw [s.readLns_ended h.2, Symbol.lns, hlns, hlns, List.map_append] at e
    exact List.append_inj e (by rw [hpre, hpre]; simp)
  have hne : (str! "# " ++ stripCr s.value) ≠ str! "#End Library" := by
    intro h'; simp at h'
  have hread := parseSymbol_lns s h.1 (stripCr s.value) []
  rw [hbold, List.append_nil] at hread
  simp only [Bool.false_eq_true, if_false] at hread
  have finish : ∀ p r : List Str, (∀ x ∈ p, '\n' ∉ x) → p.map stripCr = r →
      (∃ q, r = (str! "# " ++ stripCr s.value) :: q) →
      parseSymbol r = .ok (s, []) → (parseStr (libHeader ++ unlines p) : Res (SymbolLib F)) = .ok ⟨[s]⟩ := by
    rintro p r hp hpr ⟨q, rfl⟩ hs
    rw [parseStr_header, lines_unlines_strip _ hp, hpr, List.length_cons, parseSymbols, if_neg hne, hs]
    cases q <;> rfl
  constructor
  · rw [hw', hv', List.append_assoc, ← unlines_append]
    refine finish _ (pre (stripCr s.value) ++ post) hol (by rw [List.map_append, hstrip.1, hstrip.2])
      ⟨_, by rw [hpre]; rfl⟩ ?_
    rw [← hlns, hread]
  · have e : libHeader ++ w ++ str! "$FPLIST\n" ++ unlines filters ++ str! "$ENDFPLIST\n" ++ v =
        libHeader ++ unlines (pre s.value ++ (str! "$FPLIST" :: (filters ++ (str! "$ENDFPLIST" :: post)))) := by
      rw [hw', hv']
      simp [unlines_append, unlines]
    rw [e]
    rw [List.forall_mem_append] at hol
    have hfs : filters.map stripCr = filters := (Sch.map_stripCr_eq _).2 fun x hx => (hf x hx).1.2
    have hc1 : stripCr (str! "$FPLIST") = str! "$FPLIST" := by decide
    have hc2 : stripCr (str! "$ENDFPLIST") = str! "$ENDFPLIST" := by decide
    refine finish _ (pre (stripCr s.value) ++ (str! "$FPLIST" :: (filters ++ (str! "$ENDFPLIST" :: post)))) ?_ ?_
      ⟨_, by rw [hpre]; rfl⟩ ?_
    · simp only [List.forall_mem_append, List.forall_mem_cons]
      exact ⟨hol.1, by decide, fun x hx => (hf x hx).1.1, by decide, hol.2⟩
    · rw [List.map_append, hstrip.1, List.map_cons, hc1, List.map_append, hfs, List.map_cons, hc2, hstrip.2]
    · obtain ⟨c, l, r, hal, hc, hfp⟩ := afterFields s.aliases (s.draw.map Draw.show ++
        [str! "ENDDRAW", str! "ENDDEF", str! "#"])
      rw [hlns] at hread
      rw [hpost, hal] at hread ⊢
      have hskip : skipFplist (filters ++ str! "$ENDFPLIST" :: (c :: l) :: r) = (c :: l) :: r := by
        clear e hfs
        induction filters with
        | nil => simp [skipFplist]
        | cons x fs ih =>
          rw [List.forall_mem_cons] at hf
          rw [List.cons_append, skipFplist, if_neg hf.1.2]
          exact ih hf.2
      have key : ∀ (c : Char) (l : Str) (r : List Str), c ≠ 'F' → (parseSymbol (pre (stripCr s.value) ++ (c :: l) :: r) :
          Res (Symbol F × List Str)) = (do
            let p := if (c :: l) = str! "$FPLIST" then skipFplist r else (c :: l) :: r
            let (aliases, p) ← parseAliases p
            let p ← Sch.assumeLine (str! "DRAW") p
            let (draw, p) ← parseDraws [] p
            let p ← Sch.assumeLine (str! "ENDDEF") p
            let p ← Sch.assumeLine (str! "#") p
            .ok ({ s with aliases, draw }, p)) := by
        intro c l r hc
        rw [hpre, parseSymbol]
        simp only [List.cons_append, Sch.next, List.drop_succ_cons, List.drop_zero, Sch.assumeLine, ne_eq, not_true,
          if_false, Res.bind_ok, Sch.here, parseDef_show s h.1, parseFields_show _ _ h.1.2.2.2.2.1 c l hc r, hbold,
          Bool.false_eq_true, List.nil_append]
      rw [key _ _ _ hc, if_neg hfp] at hread
      rw [key '$' _ _ (by decide)]
      simp only [if_true, hskip]
      exact hread

/-- The hypotheses can be met. -/
example : ∃ (s : Symbol Nm) (w v : Str), FitsSymbol s ∧ (∀ f ∈ s.fields, f.bold = false) ∧ s.draw ≠ [] ∧
    accepted ({ s with aliases := [], draw := [] } : Symbol Nm).show
      (fun t => t == w ++ str! "DRAW\nENDDRAW\nENDDEF\n#\n") = true ∧
    accepted s.show (fun t => t == w ++ v) = true := by
  refine ⟨(sampleLib Nm).symbols.head (by decide), unlines (((sampleLib Nm).symbols.head (by decide)).lns.take 8),
    unlines (((sampleLib Nm).symbols.head (by decide)).lns.drop 8), ?_, ?_, ?_, ?_, ?_⟩ <;> decide +kernel

/-- The hypotheses can be met. -/
example : FitsLib (sampleLib Nm) ∧ ¬ HasBold (sampleLib Nm) ∧
    (sampleLib Nm).show = .ok (unlines ((sampleLib Nm).lns.dropLast) ++ libEnd) ∧
    OneLine (str! "# another name") ∧ str! "# another name" ≠ str! "#End Library" := by
  refine ⟨by decide +kernel, by decide +kernel, ?_, by decide, by decide⟩
  rw [(sampleLib Nm).show_eq fun s hs => by revert s; decide +kernel]
  decide +kernel

end Verif
