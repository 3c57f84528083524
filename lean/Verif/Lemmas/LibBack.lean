import Verif.Lemmas.LibRead
/-!
# What reading back a printed symbol library gives, also when it does not fit the format
-/

set_option linter.unusedSectionVars false
set_option linter.unusedSimpArgs false

namespace Verif
open Flt Spec

/-- Splitting a text without quotes drops exactly the blanks. -/
theorem split_filter (s : Str) (hq : '"' ∉ s) (i : Nat) (v : List Str) (cur : Str) :
    (splitFinish (s.foldl (splitStep none) ⟨i, v, false, false, cur⟩)).flatten =
      v.reverse.flatten ++ cur.reverse ++ s.filter (· ≠ ' ') := by
  induction s generalizing i v cur with
  | nil =>
    rw [List.foldl_nil, splitFinish]
    cases cur <;> simp
  | cons c s ih =>
    simp only [List.mem_cons, not_or] at hq
    have hc : c ≠ '"' := fun e => hq.1 e.symm
    rw [List.foldl_cons]
    by_cases hs : c = ' '
    · subst hs
      cases cur with
      | nil =>
        have : splitStep none ⟨i, v, false, false, []⟩ ' ' = ⟨i, v, false, false, []⟩ := by simp [splitStep]
        rw [this, ih hq.2]
        simp
      | cons d cur =>
        have : splitStep none ⟨i, v, false, false, d :: cur⟩ ' ' =
            ⟨i + 1, (d :: cur).reverse :: v, false, false, []⟩ := by simp [splitStep]
        rw [this, ih hq.2]
        simp
    · have : splitStep none ⟨i, v, false, false, cur⟩ c = ⟨i, v, false, false, c :: cur⟩ := by
        simp [splitStep, hs, hc]
      rw [this, ih hq.2]
      simp [hs]

theorem splitQ_filter {s : Str} {v : List Str} (h : splitQ s = .ok v) (hq : '"' ∉ s) :
    v.flatten = s.filter (· ≠ ' ') := by
  unfold splitQ splitInt at h
  cases h
  have := split_filter s hq 0 [] []
  simpa using this

/-- The parts found so far stay in front. -/
theorem split_front (s : Str) (i j : Nat) (v w : List Str) (a b : Bool) (cur : Str) :
    splitFinish (s.foldl (splitStep none) ⟨i, v ++ w, a, b, cur⟩) =
      w.reverse ++ splitFinish (s.foldl (splitStep none) ⟨j, v, a, b, cur⟩) := by
  induction s generalizing i j v a b cur with
  | nil =>
    simp only [List.foldl_nil, splitFinish]
    by_cases h : (!cur.isEmpty || b) = true <;> simp only [h, if_true, if_false] <;> simp
  | cons c s ih =>
    simp only [List.foldl_cons]
    by_cases h1 : (!a && c == '"') = true
    · simp only [splitStep, h1, if_true, reduceCtorEq, if_false]
      exact ih i j v true b cur
    by_cases h2 : (a && c == '"') = true
    · simp only [splitStep, h1, h2, if_true, reduceCtorEq, if_false]
      exact ih i j v false true cur
    by_cases h3 : (!a && c == ' ') = true
    · by_cases h4 : (!cur.isEmpty || b) = true
      · simp only [splitStep, h1, h2, h3, h4, if_true, reduceCtorEq, if_false]
        exact ih (i + 1) (j + 1) (cur.reverse :: v) a false []
      · simp only [splitStep, h1, h2, h3, h4, if_true, reduceCtorEq, if_false]
        exact ih i j v a false cur
    · simp only [splitStep, h1, h2, h3, reduceCtorEq, if_false]
      exact ih i j v a b (c :: cur)

theorem splitQ_cons {w t : Str} (hw : Word w) {v : List Str} (h : splitQ (w ++ ' ' :: t) = .ok v) :
    ∃ v', splitQ t = .ok v' ∧ v = w :: v' := by
  unfold splitQ splitInt at h ⊢
  have h1 := split_bare none 0 [] false [] w (' ' :: t) (by simp) fun c hc =>
    ⟨fun e => hw.2.2 (e ▸ hc), fun e => hw.2.1.2 (e ▸ hc)⟩
  have h2 := split_space none 0 [] false w.reverse t (by simp) (Or.inl (by simpa using hw.1))
  simp only [List.append_nil] at h1
  rw [h1, h2] at h
  have h3 := split_front t 1 0 [] [w] false false []
  simp only [List.nil_append, List.reverse_singleton, List.singleton_append] at h3
  simp only [Nat.zero_add, List.reverse_reverse] at h
  rw [h3] at h
  exact ⟨_, rfl, (Res.ok.inj h).symm⟩

namespace Lib
open Verif.Sch (here next assumeLine charAt i64R f64R boolFrom assumeString idx Orientation Justify i64R_range
  i64R_showInt idx_zero idx_succ)

variable {F : Type} [Flt F] [TextLaws F]

/-! ### Fields -/

/-- The name a field has when only its number is known. -/
def fixedName (i : Int) : Str :=
  if i = 0 then str! "Reference" else if i = 1 then str! "Value" else if i = 2 then str! "Footprint"
  else str! "UserDocLink"

theorem fixedName_fixed (i : Int) : FixedName i (fixedName i) := by
  refine ⟨?_, ?_, ?_, ?_⟩ <;> (rintro rfl; rfl)

theorem fixedName_quotable (i : Int) : Quotable (fixedName i) := by
  unfold fixedName
  split
  · decide
  split
  · decide
  split <;> decide

/-- A field with a negative number cannot be read back. -/
theorem parseField_negative (f : Field F) (h : ReadField f) (hi : f.i < 0) : (parseField f.show : Res (Field F)) = .err .other := by
  have hw := (f.words h.2.2.1 h.2.2.2).splitQ
  have h3 : ¬ f.i > 3 := by omega
  rw [parseField, hw]
  simp only [Field.toks, Field.fword, h3, if_false, List.append_nil, Res.bind_ok, List.length_cons, List.length_nil,
    Nat.reduceAdd, ne_eq, Nat.reduceEqDiff, not_true, not_false_eq_true, false_and, idx_zero, List.drop_succ_cons,
    List.drop_zero, i64R_showInt h.1]
  rw [if_neg (by omega : ¬ f.i = 0), if_neg (by omega : ¬ f.i = 1), if_neg (by omega : ¬ f.i = 2),
    if_neg (by omega : ¬ f.i = 3)]
  rfl

/-- What a printed field is read back as. -/
theorem parseField_back (f g : Field F) (h : ReadField f) (hg : parseField f.show = .ok g) :
    FitsSymField g ∧ g.bold = false := by
  by_cases hneg : f.i < 0
  · rw [parseField_negative f h hneg] at hg
    cases hg
  · have key : ∀ f : Field F, FitsSymField f → parseField f.show = .ok g → FitsSymField g ∧ g.bold = false := by
      intro f hf hg
      rw [parseField_show f hf] at hg
      cases hb : f.bold with
      | true => rw [hb] at hg; cases hg
      | false => rw [hb] at hg; cases hg; exact ⟨hf, hb⟩
    by_cases h3 : f.i > 3
    · refine key f ⟨by omega, h.1, h.2.1, h.2.2.1, h.2.2.2, ?_, ?_, ?_, ?_⟩ hg <;> (intro hh; omega)
    · refine key { f with name := fixedName f.i } ⟨by simpa using hneg, h.1, h.2.1, h.2.2.1, fixedName_quotable _,
        fixedName_fixed _⟩ ?_
      rw [← hg]
      unfold Field.show
      simp only [h3, if_false]

theorem Field.head (f : Field F) : charAt f.show 0 = .ok 'F' := by
  unfold charAt Field.show
  simp only [List.append_assoc, List.cons_append, List.nil_append, List.getElem?_cons_zero]

theorem parseFields_back (acc fs gs : List (Field F)) (h : ∀ f ∈ fs, ReadField f) (c : Char) (l : Str)
    (hc : c ≠ 'F') (rest p : List Str)
    (hp : parseFields acc (fs.map Field.show ++ (c :: l) :: rest) = .ok (gs, p))
    (ha : ∀ f ∈ acc, FitsSymField f ∧ f.bold = false) :
    p = (c :: l) :: rest ∧ gs.length = acc.length + fs.length ∧ ∀ f ∈ gs, FitsSymField f ∧ f.bold = false := by
  induction fs generalizing acc with
  | nil =>
    simp [parseFields, charAt, hc] at hp
    obtain ⟨rfl, rfl⟩ := hp
    exact ⟨rfl, by simp, ha⟩
  | cons f fs ih =>
    rw [List.forall_mem_cons] at h
    rw [List.map_cons, List.cons_append, parseFields, f.head, Res.bind_ok, if_pos rfl] at hp
    obtain ⟨g, hg, hp⟩ := Res.bind_eq_ok.1 hp
    obtain ⟨h1, h2, h3⟩ := ih (acc ++ [g]) h.2 hp (by
      simp only [List.mem_append, List.mem_singleton]
      rintro k (hk | rfl)
      · exact ha k hk
      · exact parseField_back f _ h.1 hg)
    refine ⟨h1, ?_, h3⟩
    simp only [h2, List.length_append, List.length_cons, List.length_nil]
    omega

/-! ### Drawings -/

theorem parseDrawLine_back (d e : Draw) (h : ReadDraw d) (he : parseDrawLine d.show = .ok e) : LineDraw e := by
  cases d with
  | pin p =>
    have hx : startsWith p.show (str! "X ") = true := by
      unfold Pin.show
      simp only [List.append_assoc]
      exact startsWith_self (str! "X ") _
    rw [parseDrawLine, Draw.show, if_pos hx] at he
    obtain ⟨q, hq, he⟩ := Res.bind_eq_ok.1 he
    cases he
    exact parsePin_parts hq Word fun v i w hv hw => splitQ_word hv (p.quotable h).2 hw (p.quotable h).1
  | rectangle r =>
    rw [parseDrawLine_show (.rectangle r) h] at he
    cases he
    exact h
  | other s =>
    rw [parseDrawLine_show (.other s) h] at he
    cases he
    exact h

theorem Draw.read_show_ne (d : Draw) (h : ReadDraw d) : d.show ≠ str! "ENDDRAW" := by
  cases d with
  | pin p =>
    intro h'
    have h2 := congrArg List.head? h'
    unfold Draw.show Pin.show at h2
    simp only [List.append_assoc, List.cons_append, List.nil_append, List.head?_cons] at h2
    exact absurd h2 (by decide)
  | rectangle r => exact Draw.show_ne (.rectangle r) h
  | other s => exact h.2.2.2

theorem parseDraws_back (acc ds es : List Draw) (h : ∀ d ∈ ds, ReadDraw d) (rest p : List Str)
    (ha : ∀ d ∈ acc, LineDraw d)
    (hp : parseDraws acc (ds.map Draw.show ++ str! "ENDDRAW" :: rest) = .ok (es, p)) :
    p = rest ∧ ∀ d ∈ es, LineDraw d := by
  induction ds generalizing acc with
  | nil =>
    simp [parseDraws] at hp
    obtain ⟨rfl, rfl⟩ := hp
    exact ⟨rfl, ha⟩
  | cons d ds ih =>
    rw [List.forall_mem_cons] at h
    rw [List.map_cons, List.cons_append, parseDraws, if_neg (d.read_show_ne h.1)] at hp
    obtain ⟨e, he, hp⟩ := Res.bind_eq_ok.1 hp
    refine ih (acc ++ [e]) h.2 ?_ hp
    simp only [List.mem_append, List.mem_singleton]
    rintro k (hk | rfl)
    · exact ha k hk
    · exact parseDrawLine_back d _ h.1 he

/-! ### Symbols -/

theorem parseAliases_back (as bs : List Str) (h : ∀ a ∈ as, Quotable a) (rest p : List Str)
    (hp : parseAliases (aliasLns as ++ str! "DRAW" :: rest) = .ok (bs, p)) :
    p = str! "DRAW" :: rest ∧ ∀ b ∈ bs, Word b := by
  unfold aliasLns at hp
  cases as with
  | nil =>
    have : parseAliases (str! "DRAW" :: rest) = .ok ([], str! "DRAW" :: rest) := rfl
    simp only [List.isEmpty_nil, if_true, List.nil_append] at hp
    rw [this] at hp
    cases hp
    exact ⟨rfl, by simp⟩
  | cons a as =>
    have hs := startsWith_self (str! "ALIAS") (aliasText (a :: as))
    have hq : Quotable (str! "ALIAS" ++ aliasText (a :: as)) :=
      quotable_append.2 ⟨by decide, aliasText_quotable _ h⟩
    simp only [List.isEmpty_cons, Bool.false_eq_true, if_false, List.singleton_append] at hp
    generalize str! "ALIAS" ++ aliasText (a :: as) = line at hp hs hq
    simp only [parseAliases, here, Res.bind_ok, hs, if_true, next, List.drop_succ_cons, List.drop_zero] at hp
    obtain ⟨v, hv, hp⟩ := Res.bind_eq_ok.1 hp
    cases hp
    refine ⟨rfl, ?_⟩
    intro b hb
    obtain ⟨i, hi⟩ := List.mem_iff_getElem?.1 (List.mem_of_mem_drop hb)
    exact splitQ_word hv hq.2 (i := i) (by unfold idx; rw [hi]) hq.1

/-- A symbol read back from a printed one fits the format and has no bold field. -/
theorem parseSymbol_back (s r : Symbol F) (h : ReadSymbol s) (h2 : 2 ≤ s.fields.length) (v : Str) (rest p : List Str)
    (hp : parseSymbol (s.lnsWith v ++ rest) = .ok (r, p)) :
    p = rest ∧ LineSymbol r ∧ ∀ f ∈ r.fields, f.bold = false := by
  obtain ⟨c, l, tl, hal, hc, hfp⟩ := afterFields s.aliases (s.draw.map Draw.show ++
    [str! "ENDDRAW", str! "ENDDEF", str! "#"] ++ rest)
  have hsp : s.lnsWith v ++ rest = (str! "# " ++ v) :: str! "#" :: s.defLine :: (s.fields.map Field.show ++
      ((c :: l) :: tl)) := by
    rw [← hal]
    simp [Symbol.lnsWith, Symbol.body]
  rw [hsp, parseSymbol] at hp
  simp only [next, List.drop_succ_cons, List.drop_zero, assumeLine, ne_eq, not_true, if_false, Res.bind_ok, here] at hp
  obtain ⟨s0, hs0, hp⟩ := Res.bind_eq_ok.1 hp
  obtain ⟨⟨fields, p2⟩, hf, hp⟩ := Res.bind_eq_ok.1 hp
  obtain ⟨rfl, hlen, hfit⟩ := parseFields_back [] s.fields fields h.2.2.2.1 c l hc tl p2 hf (by simp)
  simp only [Res.bind_ok, hfp, if_false] at hp
  obtain ⟨⟨aliases, p4⟩, ha, hp⟩ := Res.bind_eq_ok.1 hp
  rw [← hal] at ha
  obtain ⟨rfl, haw⟩ := parseAliases_back s.aliases aliases h.2.2.2.2.1 _ p4 ha
  simp only [not_true, if_false, Res.bind_ok] at hp
  have hl : s.draw.map Draw.show ++ [str! "ENDDRAW", str! "ENDDEF", str! "#"] ++ rest =
      s.draw.map Draw.show ++ str! "ENDDRAW" :: str! "ENDDEF" :: str! "#" :: rest := by simp
  rw [hl] at hp
  obtain ⟨⟨draw, p6⟩, hd, hp⟩ := Res.bind_eq_ok.1 hp
  obtain ⟨rfl, hdf⟩ := parseDraws_back [] s.draw draw h.2.2.2.2.2 _ p6 (by simp) hd
  simp only [not_true, if_false, Res.bind_ok] at hp
  cases hp
  obtain ⟨a1, a2, a3⟩ := parseDef_parts hs0 Word fun v i w hv hw =>
    splitQ_word hv (s.defLine_quotable h).2 hw (s.defLine_quotable h).1
  refine ⟨rfl, ⟨a1, a2, a3, ?_, fun f hf => (hfit f hf).1, haw, hdf⟩, fun f hf => (hfit f hf).2⟩
  simp only [hlen, List.length_nil, Nat.zero_add]
  exact h2

/-! ### Libraries -/

theorem parseSymbols_back (v : Symbol F → Str) (n : Nat) (acc ss rs : List (Symbol F)) (h : ∀ s ∈ ss, ReadSymbol s)
    (h2 : ∀ s ∈ ss, 2 ≤ s.fields.length) (rest : List Str)
    (ha : ∀ s ∈ acc, LineSymbol s ∧ ∀ f ∈ s.fields, f.bold = false)
    (hp : parseSymbols n acc (ss.flatMap (fun s => s.lnsWith (v s)) ++ str! "#End Library" :: rest) = .ok rs) :
    ∀ s ∈ rs, LineSymbol s ∧ ∀ f ∈ s.fields, f.bold = false := by
  induction ss generalizing n acc with
  | nil =>
    cases n with
    | zero => cases hp
    | succ n =>
      simp only [List.flatMap_nil, List.nil_append, parseSymbols, if_true] at hp
      cases hp
      exact ha
  | cons s ss ih =>
    rw [List.forall_mem_cons] at h h2
    have hne : (str! "# " ++ v s) ≠ str! "#End Library" := by
      intro h'; simp at h'
    rw [List.flatMap_cons, List.append_assoc] at hp
    generalize hX : ss.flatMap (fun s => s.lnsWith (v s)) ++ str! "#End Library" :: rest = X at hp ih
    have hl : s.lnsWith (v s) ++ X = (str! "# " ++ v s) :: (str! "#" :: s.body ++ X) := by
      rw [Symbol.lnsWith]; rfl
    cases n with
    | zero => rw [hl] at hp; cases hp
    | succ n =>
      rw [hl, parseSymbols, if_neg hne, ← hl] at hp
      obtain ⟨⟨r, p⟩, hr, hp2⟩ := Res.bind_eq_ok.1 hp
      clear hp
      obtain ⟨rfl, hfit⟩ := parseSymbol_back s r h.1 h2.1 _ _ p hr
      refine ih n (acc ++ [r]) h.2 h2.2 ?_ hp2
      simp only [List.mem_append, List.mem_singleton]
      rintro k (hk | rfl)
      · exact ha k hk
      · exact hfit

/-- Whatever is read back from a printed library fits the format, apart from carriage
returns at the ends of lines, and has no bold field. -/
theorem parse_show_line (l r : SymbolLib F) (h : ∀ s ∈ l.symbols, ReadSymbol s) (he : EndedLib l)
    (h2 : ∀ s ∈ l.symbols, 2 ≤ s.fields.length) (hr : parseStr (unlines l.lns) = .ok r) :
    ∀ s ∈ r.symbols, LineSymbol s ∧ ∀ f ∈ s.fields, f.bold = false := by
  have hl : l.symbols.flatMap Symbol.readLns = l.symbols.flatMap (fun s => s.lnsWith (stripCr s.value)) :=
    Sch.flatMap_congr_mem fun s hs => s.readLns_ended (he s hs)
  rw [parseStr, l.lines_lns h, parseLines, hl] at hr
  simp only [assumeLine, ne_eq, not_true, if_false, Res.bind_ok] at hr
  obtain ⟨ss, hs, hr⟩ := Res.bind_eq_ok.1 hr
  cases hr
  exact parseSymbols_back (fun s => stripCr s.value) _ [] l.symbols ss h h2 [] (by simp) hs

/-! ### Carriage returns are lost -/

theorem parseDraws_extends {acc : List Draw} {p p' : List Str} {ds : List Draw} (h : parseDraws acc p = .ok (ds, p')) :
    ∃ t, ds = acc ++ t := by
  induction p generalizing acc with
  | nil => cases h; exact ⟨[], by simp⟩
  | cons s p ih =>
    rw [parseDraws] at h
    split at h
    · cases h; exact ⟨[], by simp⟩
    · obtain ⟨d, _, h⟩ := Res.bind_eq_ok.1 h
      obtain ⟨t, rfl⟩ := ih h
      exact ⟨d :: t, by simp⟩

/-- If the drawings are read back as they were, none ended with a carriage return. -/
theorem parseDraws_self (acc ds : List Draw) (h : ∀ d ∈ ds, ReadDraw d) (rest p : List Str)
    (hp : parseDraws acc ((ds.map Draw.show).map stripCr ++ str! "ENDDRAW" :: rest) = .ok (acc ++ ds, p)) :
    (∀ d ∈ ds, EndedDraw d) ∧ p = rest := by
  induction ds generalizing acc with
  | nil =>
    simp [parseDraws] at hp
    exact ⟨by simp, hp.symm⟩
  | cons d ds ih =>
    rw [List.forall_mem_cons] at h
    rw [List.map_cons, List.map_cons, List.cons_append, parseDraws] at hp
    split at hp
    · simp at hp
    · obtain ⟨e, he, hp⟩ := Res.bind_eq_ok.1 hp
      obtain ⟨t, ht⟩ := parseDraws_extends hp
      have hed : e = d := by
        rw [List.append_assoc, List.append_right_inj, List.singleton_append, List.cons.injEq] at ht
        exact ht.1.symm
      subst hed
      have hend : EndedDraw e := by
        cases e with
        | pin _ => trivial
        | rectangle _ => trivial
        | other s =>
          rw [Draw.show, parseDrawLine] at he
          split at he
          · obtain ⟨_, _, he⟩ := Res.bind_eq_ok.1 he; cases he
          split at he
          · obtain ⟨_, _, he⟩ := Res.bind_eq_ok.1 he; cases he
          simp only [Res.ok.injEq, Draw.other.injEq] at he
          exact stripCr_eq_self.1 he
      obtain ⟨h1, h2⟩ := ih (acc ++ [e]) h.2 (by rw [hp]; simp)
      exact ⟨List.forall_mem_cons.2 ⟨hend, h1⟩, h2⟩

theorem aliasText_filter (as : List Str) (h : ∀ a ∈ as, ' ' ∉ a) : (aliasText as).filter (· ≠ ' ') = as.flatten := by
  induction as with
  | nil => rfl
  | cons a as ih =>
    rw [List.forall_mem_cons] at h
    have e : aliasText (a :: as) = ' ' :: (a ++ aliasText as) := by simp [aliasText]
    have ha : a.filter (· ≠ ' ') = a := by
      rw [List.filter_eq_self]
      intro c hc
      have : c ≠ ' ' := fun e => h.1 (e ▸ hc)
      simpa using this
    rw [e, List.filter_cons_of_neg (by simp), List.filter_append, ih h.2, ha, List.flatten_cons]

/-- If the aliases are read back as they were, the last one did not end with a carriage return. -/
theorem parseAliases_self (as bs : List Str) (h : ∀ a ∈ as, Quotable a) (rest p : List Str)
    (hp : parseAliases ((aliasLns as).map stripCr ++ str! "DRAW" :: rest) = .ok (bs, p)) :
    p = str! "DRAW" :: rest ∧ (bs = as → ∀ a ∈ as.getLast?, EndsLine a) := by
  unfold aliasLns at hp
  cases as with
  | nil =>
    have : parseAliases (str! "DRAW" :: rest) = .ok ([], str! "DRAW" :: rest) := rfl
    simp only [List.isEmpty_nil, if_true, List.map_nil, List.nil_append] at hp
    rw [this] at hp
    cases hp
    exact ⟨rfl, by simp⟩
  | cons a as =>
    have e : aliasText (a :: as) = ' ' :: (a ++ aliasText as) := by simp [aliasText]
    have hq : Quotable (a ++ aliasText as) := by
      rw [List.forall_mem_cons] at h
      exact quotable_append.2 ⟨h.1, aliasText_quotable _ h.2⟩
    simp only [List.isEmpty_cons, Bool.false_eq_true, if_false, List.map_singleton, List.singleton_append, e] at hp
    have hst := stripCr_sep (str! "ALIAS") (c := ' ') (by decide) (a ++ aliasText as)
    have hs := startsWith_self (str! "ALIAS") (' ' :: stripCr (a ++ aliasText as))
    rw [hst] at hp
    have hsq : '"' ∉ stripCr (a ++ aliasText as) := fun hc => hq.2 (mem_stripCr hc)
    have hsn : '\n' ∉ stripCr (a ++ aliasText as) := fun hc => hq.1 (mem_stripCr hc)
    generalize hu : stripCr (a ++ aliasText as) = u at hp hs hsq hsn
    generalize hline : str! "ALIAS" ++ ' ' :: u = line at hp hs
    simp only [parseAliases, here, Res.bind_ok, hs, if_true, next, List.drop_succ_cons, List.drop_zero] at hp
    obtain ⟨v, hv, hp⟩ := Res.bind_eq_ok.1 hp
    cases hp
    refine ⟨rfl, ?_⟩
    intro hva
    rw [← hline] at hv
    obtain ⟨v', hv', rfl⟩ := splitQ_cons (w := str! "ALIAS") (by decide) hv
    rw [List.drop_succ_cons, List.drop_zero] at hva
    subst hva
    have hwords : ∀ w ∈ a :: as, Word w := by
      intro w hw
      obtain ⟨i, hi⟩ := List.mem_iff_getElem?.1 hw
      exact splitQ_word hv' hsq (i := i) (by unfold idx; rw [hi]) hsn
    have h1 := splitQ_filter hv' hsq
    have h2 := aliasText_filter (a :: as) fun w hw => (hwords w hw).2.2
    rw [e, List.filter_cons_of_neg (by simp)] at h2
    have hends : EndsLine (a ++ aliasText as) := by
      intro hlast
      obtain ⟨t, ht⟩ : ∃ t, a ++ aliasText as = t ++ ['\r'] := by
        rw [List.getLast?_eq_some_iff] at hlast
        exact hlast
      rw [ht, stripCr_append] at hu
      rw [ht, List.filter_append] at h2
      rw [hu] at h2
      rw [h1] at h2
      exact absurd (congrArg List.length h2) (by simp)
    intro b hb
    rcases List.eq_nil_or_concat (a :: as) with h0 | ⟨init, z, hz⟩
    · cases h0
    · rw [hz] at hb
      have hbz : z = b := by simpa using hb
      subst hbz
      have hlong : EndsLine (' ' :: (a ++ aliasText as)) := by
        refine (endsLine_cons _ ?_).2 hends
        simp [(hwords a (by simp)).1]
      have hzw : z ≠ [] := (hwords z (by rw [hz]; simp)).1
      have e2 : ' ' :: (a ++ aliasText as) = (aliasText init ++ [' ']) ++ z := by
        rw [← e, hz]; simp [aliasText]
      rw [e2, endsLine_append _ hzw] at hlong
      exact hlong

/-- The line after the fields of a symbol that is read does not start with `F`. -/
theorem afterFields_read (as : List Str) (rest : List Str) :
    ∃ c l r, (aliasLns as).map stripCr ++ str! "DRAW" :: rest = (c :: l) :: r ∧ c ≠ 'F' ∧ (c :: l) ≠ str! "$FPLIST" := by
  unfold aliasLns
  cases as with
  | nil => exact ⟨'D', _, _, rfl, by decide, by decide⟩
  | cons a as =>
    have e : aliasText (a :: as) = ' ' :: (a ++ aliasText as) := by simp [aliasText]
    have hst := stripCr_sep (str! "ALIAS") (c := ' ') (by decide) (a ++ aliasText as)
    simp only [List.isEmpty_cons, Bool.false_eq_true, if_false, List.map_singleton, e, hst, List.singleton_append]
    refine ⟨'A', _, _, rfl, by decide, ?_⟩
    intro h
    simp at h

/-- If a symbol is read back as it was, no line of it ended with a carriage return. -/
theorem parseSymbol_self (s : Symbol F) (h : ReadSymbol s) (rest p : List Str)
    (hp : parseSymbol (s.readLns ++ rest) = .ok (s, p)) : EndedSymbol s ∧ p = rest := by
  obtain ⟨c, l, tl, hal, hc, hfp⟩ := afterFields_read s.aliases ((s.draw.map Draw.show).map stripCr ++
    [str! "ENDDRAW", str! "ENDDEF", str! "#"] ++ rest)
  have hsp : s.readLns ++ rest = (str! "# " ++ stripCr s.value) :: str! "#" :: s.defLine :: (s.fields.map Field.show ++
      ((c :: l) :: tl)) := by
    rw [← hal]
    simp only [Symbol.readLns, List.cons_append, List.append_assoc]
  rw [hsp, parseSymbol] at hp
  simp only [next, List.drop_succ_cons, List.drop_zero, assumeLine, ne_eq, not_true, if_false, Res.bind_ok, here] at hp
  obtain ⟨s0, hs0, hp⟩ := Res.bind_eq_ok.1 hp
  obtain ⟨⟨fields, p2⟩, hf, hp⟩ := Res.bind_eq_ok.1 hp
  obtain ⟨rfl, _, _⟩ := parseFields_back [] s.fields fields h.2.2.2.1 c l hc tl p2 hf (by simp)
  simp only [Res.bind_ok, hfp, if_false] at hp
  obtain ⟨⟨aliases, p4⟩, ha, hp⟩ := Res.bind_eq_ok.1 hp
  rw [← hal] at ha
  obtain ⟨rfl, haw⟩ := parseAliases_self s.aliases aliases h.2.2.2.2.1 _ p4 ha
  simp only [not_true, if_false, Res.bind_ok] at hp
  have hl : (s.draw.map Draw.show).map stripCr ++ [str! "ENDDRAW", str! "ENDDEF", str! "#"] ++ rest =
      (s.draw.map Draw.show).map stripCr ++ str! "ENDDRAW" :: str! "ENDDEF" :: str! "#" :: rest := by simp
  rw [hl] at hp
  obtain ⟨⟨draw, p6⟩, hd, hp⟩ := Res.bind_eq_ok.1 hp
  simp only at hp
  obtain ⟨p7, h7, hp⟩ := Res.bind_eq_ok.1 hp
  obtain ⟨p8, h8, hp⟩ := Res.bind_eq_ok.1 hp
  simp only [Res.ok.injEq, Prod.mk.injEq] at hp
  obtain ⟨hs, rfl⟩ := hp
  have e1 : aliases = s.aliases := by rw [← hs]
  have e2 : draw = s.draw := by rw [← hs]
  subst e2
  obtain ⟨hdr, rfl⟩ := parseDraws_self [] s.draw h.2.2.2.2.2 _ p6 hd
  refine ⟨⟨haw e1, hdr⟩, ?_⟩
  simp only [not_true, if_false, Res.ok.injEq] at h7
  subst h7
  simpa using h8.symm

theorem parseSymbols_extends {n : Nat} {acc rs : List (Symbol F)} {p : List Str} (h : parseSymbols n acc p = .ok rs) :
    ∃ t, rs = acc ++ t := by
  induction n generalizing acc p with
  | zero =>
    cases p with
    | nil => cases h; exact ⟨[], by simp⟩
    | cons x p => cases h
  | succ n ih =>
    cases p with
    | nil => cases h; exact ⟨[], by simp⟩
    | cons x p =>
      rw [parseSymbols] at h
      split at h
      · cases h; exact ⟨[], by simp⟩
      · obtain ⟨⟨s, p1⟩, _, h⟩ := Res.bind_eq_ok.1 h
        obtain ⟨t, rfl⟩ := ih h
        exact ⟨s :: t, by simp⟩

theorem parseSymbols_self (n : Nat) (acc ss : List (Symbol F)) (h : ∀ s ∈ ss, ReadSymbol s) (rest : List Str)
    (hp : parseSymbols n acc (ss.flatMap Symbol.readLns ++ str! "#End Library" :: rest) = .ok (acc ++ ss)) :
    ∀ s ∈ ss, EndedSymbol s := by
  induction ss generalizing n acc with
  | nil => simp
  | cons s ss ih =>
    rw [List.forall_mem_cons] at h
    have hne : (str! "# " ++ stripCr s.value) ≠ str! "#End Library" := by
      intro h'; simp at h'
    rw [List.flatMap_cons, List.append_assoc] at hp
    generalize hX : ss.flatMap Symbol.readLns ++ str! "#End Library" :: rest = X at hp ih
    obtain ⟨Y, hl⟩ : ∃ Y, s.readLns ++ X = (str! "# " ++ stripCr s.value) :: Y := by
      rw [Symbol.readLns]; exact ⟨_, rfl⟩
    cases n with
    | zero => rw [hl] at hp; cases hp
    | succ n =>
      rw [hl, parseSymbols, if_neg hne, ← hl] at hp
      obtain ⟨⟨r, p⟩, hr, hp2⟩ := Res.bind_eq_ok.1 hp
      clear hp
      obtain ⟨t, ht⟩ := parseSymbols_extends hp2
      have hrs : r = s := by
        rw [List.append_assoc, List.append_right_inj, List.singleton_append, List.cons.injEq] at ht
        exact ht.1.symm
      subst hrs
      obtain ⟨he, rfl⟩ := parseSymbol_self r h.1 _ p hr
      exact List.forall_mem_cons.2 ⟨he, ih n (acc ++ [r]) h.2 (by simpa using hp2)⟩

/-- If a library is read back as it was, no line of it ended with a carriage return. -/
theorem parse_show_self (l : SymbolLib F) (h : ∀ s ∈ l.symbols, ReadSymbol s)
    (hr : parseStr (unlines l.lns) = .ok l) : EndedLib l := by
  rw [parseStr, l.lines_lns h, parseLines] at hr
  simp only [assumeLine, ne_eq, not_true, if_false, Res.bind_ok] at hr
  obtain ⟨ss, hs, hr⟩ := Res.bind_eq_ok.1 hr
  cases hr
  exact parseSymbols_self _ [] ss h [] hs

/-! ### Files without carriage returns -/

theorem Field.noCr (f : Field F) (hf : ReadField f) (h : ReadFieldBut '\r' f) : '\r' ∉ f.show := by
  refine (f.words hf.2.2.1 hf.2.2.2).but (by decide) ?_
  obtain ⟨_, _, hv, hn⟩ := h
  unfold Field.toks
  intro w hw
  rw [List.mem_append] at hw
  rcases hw with hw | hw
  · simp only [List.mem_cons, List.not_mem_nil, or_false] at hw
    rcases hw with rfl | rfl | rfl | rfl | rfl | rfl | rfl | rfl | rfl
    · simp [Field.fword, noCr_showInt]
    · exact hv.1
    · exact noCr_toStr _
    · exact noCr_toStr _
    · exact noCr_showInt _
    · cases f.orientation <;> decide
    · cases f.visible <;> decide
    · cases f.hjustify <;> decide
    · cases f.vjustify <;> cases f.italic <;> cases f.bold <;> decide
  · split at hw
    · rw [List.mem_singleton] at hw; subst hw; exact hn.1
    · cases hw

theorem Rectangle.noCr (r : Rectangle) : '\r' ∉ r.show := by
  have : '\r' ∉ r.fill.show := by cases r.fill <;> decide
  unfold Rectangle.show
  simp [noCr_showInt, this]

theorem Pin.noCr (p : Pin) (h : ReadPinBut '\r' p) : '\r' ∉ p.show := by
  have h1 : '\r' ∉ p.orientation.show := by cases p.orientation <;> decide
  have h2 : '\r' ∉ p.pinType.show := by cases p.pinType <;> decide
  have h3 : '\r' ∉ (if p.pinVisible then if p.pinShape ≠ .line then str! " " ++ p.pinShape.show else []
      else str! " N" ++ p.pinShape.show) := by
    cases p.pinVisible <;> cases p.pinShape <;> decide
  unfold Pin.show
  rw [List.mem_append, not_or]
  refine ⟨?_, h3⟩
  simp [noCr_showInt, h1, h2, h.1.1, h.2.1.1]

theorem Draw.noCr (d : Draw) (h : ReadDrawBut '\r' d) : '\r' ∉ d.show := by
  cases d with
  | pin p => exact p.noCr h
  | rectangle r => exact r.noCr
  | other s => exact h.1

theorem Symbol.lns_noCr (s : Symbol F) (h0 : ReadSymbol s) (h : ReadSymbolBut '\r' s) : ∀ l ∈ s.lns, '\r' ∉ l := by
  have hv : '\r' ∉ s.value := by
    unfold Symbol.value
    cases hf : s.fields[1]? with
    | none => simp
    | some f => exact (h.2.2.2.1 f (List.mem_of_getElem? hf)).2.2.1.1
  have hal : ∀ l ∈ aliasLns s.aliases, '\r' ∉ l := by
    unfold aliasLns
    split
    · simp
    · intro l hl
      rw [List.mem_singleton] at hl
      subst hl
      rw [List.mem_append, not_or]
      refine ⟨by decide, ?_⟩
      have h5 := h.2.2.2.2.1
      generalize s.aliases = as at h5
      induction as with
      | nil => simp [aliasText]
      | cons a as ih =>
        rw [List.forall_mem_cons] at h5
        have e : aliasText (a :: as) = ' ' :: (a ++ aliasText as) := by simp [aliasText]
        simp [e, h5.1.1, ih h5.2]
  have hb : ∀ (b : Bool) (c d : Char), '\r' ≠ c → '\r' ≠ d → '\r' ∉ (if b then [c] else [d]) := by
    intro b c d h1 h2; cases b
    · simpa using h2
    · simpa using h1
  unfold Symbol.lns Symbol.lnsWith Symbol.body
  simp only [List.forall_mem_cons, List.forall_mem_append, List.forall_mem_map]
  refine ⟨?_, by decide, ?_,
    fun f hf => f.noCr (h0.2.2.2.1 f hf) (h.2.2.2.1 f hf), hal, by decide,
    fun d hd => d.noCr (h.2.2.2.2.2 d hd), by decide, by decide, by decide, by simp⟩
  · simpa using hv
  · unfold Symbol.defLine
    simp only [List.mem_append, not_or]
    exact ⟨⟨⟨⟨⟨⟨⟨⟨⟨⟨⟨⟨⟨⟨⟨by decide, h.1.1⟩, by decide⟩, h.2.1.1⟩, by decide⟩, noCr_toStr _⟩, by decide⟩,
      hb _ _ _ (by decide) (by decide)⟩, by decide⟩, hb _ _ _ (by decide) (by decide)⟩, by decide⟩, noCr_showInt _⟩,
      by decide⟩, hb _ _ _ (by decide) (by decide)⟩, by decide⟩, hb _ _ _ (by decide) (by decide)⟩

theorem SymbolLib.lns_noCr (l : SymbolLib F) (h0 : ∀ s ∈ l.symbols, ReadSymbol s)
    (h : ∀ s ∈ l.symbols, ReadSymbolBut '\r' s) : ∀ x ∈ l.lns, '\r' ∉ x := by
  unfold SymbolLib.lns
  simp only [List.forall_mem_cons, List.forall_mem_append]
  refine ⟨by decide, by decide, by decide, ?_, by decide, by simp⟩
  intro x hx
  obtain ⟨s, hs, hx⟩ := List.mem_flatMap.1 hx
  exact s.lns_noCr (h0 s hs) (h s hs) x hx

/-- What is read from lines without carriage returns does not end with one. -/
theorem ended_of_read (s : Symbol F) (h : ReadSymbolBut '\r' s) : EndedSymbol s := by
  refine ⟨fun a ha hc => (h.2.2.2.2.1 a (List.mem_of_getLast? ha)).1 (List.mem_of_getLast? hc), ?_⟩
  intro d hd
  have := h.2.2.2.2.2 d hd
  cases d with
  | pin _ => trivial
  | rectangle _ => trivial
  | other s => exact fun hc => this.1 (List.mem_of_getLast? hc)

end Lib
end Verif
