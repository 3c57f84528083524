import Verif.Lemmas.SchRead
/-!
# What reading back a printed schematic gives, also when it does not fit the format
-/

set_option linter.unusedSectionVars false
set_option linter.unusedSimpArgs false

namespace Verif
open Flt Spec

/-! ### Splitting a text without quotes -/

def BareInv (n : Option Nat) (st : SplitSt) : Prop :=
  st.v.length = st.i ∧ (∀ w ∈ st.v, w ≠ [] ∧ ' ' ∉ w) ∧ st.inside = false ∧ st.seen = false ∧
  (n ≠ some st.i → ' ' ∉ st.cur)

theorem splitStep_bare (n : Option Nat) (st : SplitSt) (c : Char) (hc : c ≠ '"')
    (h : BareInv n st) : BareInv n (splitStep n st c) := by
  obtain ⟨h1, h2, h3, h4, h5⟩ := h
  unfold splitStep
  simp only [h3, h4, Bool.not_false, Bool.true_and, Bool.false_and, Bool.or_false, beq_iff_eq, hc, if_false,
    Bool.false_eq_true]
  split
  · rename_i hn
    exact ⟨h1, h2, rfl, rfl, fun hh => absurd hn hh⟩
  rename_i hn
  split
  · split
    · rename_i hne
      refine ⟨by simp [h1], ?_, rfl, rfl, by simp⟩
      intro w hw
      rcases List.mem_cons.1 hw with rfl | hw
      · exact ⟨by simpa using hne, by simpa using h5 hn⟩
      · exact h2 w hw
    · exact ⟨h1, h2, rfl, rfl, h5⟩
  · rename_i hsp
    refine ⟨h1, h2, rfl, rfl, fun _ => ?_⟩
    simp [h5 hn, Ne.symm hsp]

theorem split_bareInv (n : Option Nat) (s : Str) (hs : '"' ∉ s) (st : SplitSt)
    (h : BareInv n st) : BareInv n (s.foldl (splitStep n) st) := by
  induction s generalizing st with
  | nil => exact h
  | cons c s ih =>
    simp only [List.mem_cons, not_or] at hs
    exact ih hs.2 _ (splitStep_bare n st c (Ne.symm hs.1) h)

/-- The parts of a text without quotes are words. -/
theorem splitN_word {k : Nat} {s : Str} {v : List Str} (h : splitN k s = .ok v) (hq : '"' ∉ s) {i : Nat} {w : Str}
    (hw : Sch.idx v i = .ok w) (hs : '\n' ∉ s) (hi : i < k) : Word w := by
  have hquot := splitN_part h hw hs hi
  refine ⟨?_, hquot, ?_⟩
  all_goals
    have hv : v = splitFinish (s.foldl (splitStep (some k)) ⟨0, [], false, false, []⟩) := by
      unfold splitN splitInt at h
      simp only at h
      split at h
      · cases h
      · exact (Res.ok.inj h).symm
    have hinv := split_bareInv (some k) s hq ⟨0, [], false, false, []⟩ ⟨rfl, by simp, rfl, rfl, by simp⟩
    generalize s.foldl (splitStep (some k)) ⟨0, [], false, false, []⟩ = st at hv hinv
    obtain ⟨h1, h2, _, h4, h5⟩ := hinv
    have hw' : v[i]? = some w := by
      unfold Sch.idx at hw
      split at hw
      · cases hw; assumption
      · cases hw
    have key : w ≠ [] ∧ ' ' ∉ w := by
      unfold splitFinish at hv
      rw [h4] at hv
      split at hv
      · rename_i hne
        subst hv
        simp only [List.reverse_cons] at hw'
        by_cases hlt : i < st.v.reverse.length
        · rw [List.getElem?_append_left hlt] at hw'
          exact h2 w (by simpa using List.mem_of_getElem? hw')
        · rw [List.getElem?_append_right (by omega)] at hw'
          have hlen : i = st.i := by
            simp only [List.length_reverse] at hlt hw'
            rw [List.getElem?_eq_some_iff] at hw'
            obtain ⟨hlt2, _⟩ := hw'
            simp only [List.length_cons, List.length_nil] at hlt2
            omega
          have he : st.cur.reverse = w := by
            have := List.mem_of_getElem? hw'
            rw [List.mem_singleton] at this
            exact this.symm
          subst he
          have : some k ≠ some st.i := fun e => by cases e; omega
          exact ⟨by simpa using hne, by simpa using h5 this⟩
      · subst hv
        exact h2 w (by simpa using List.mem_of_getElem? hw')
  · exact key.1
  · exact key.2

/-- A line of two words and a space has no third word. -/
theorem splitN_missing (w w2 : Str) (hw : Word w) (hw2 : Word w2) {v : List Str}
    (h : splitN 3 (w ++ ' ' :: (w2 ++ [' '])) = .ok v) {x : Str} : Sch.idx v 2 ≠ .ok x := by
  have hb : ∀ {w : Str}, Word w → ∀ c ∈ w, c ≠ ' ' ∧ c ≠ '"' := fun hw c hc =>
    ⟨fun e => hw.2.2 (e ▸ hc), fun e => hw.2.1.2 (e ▸ hc)⟩
  have hf : (w ++ ' ' :: (w2 ++ [' '])).foldl (splitStep (some 3)) ⟨0, [], false, false, []⟩ =
      ⟨2, [w2, w], false, false, []⟩ := by
    rw [split_bare (some 3) 0 [] false [] w _ (by decide) (hb hw),
      split_space (some 3) 0 [] false _ _ (by decide) (Or.inl (by simpa using hw.1)),
      split_bare (some 3) 1 _ false [] w2 _ (by decide) (hb hw2),
      split_space (some 3) 1 _ false _ _ (by decide) (Or.inl (by simpa using hw2.1))]
    simp
  have hv : v = [w, w2] := by
    unfold splitN splitInt at h
    rw [hf] at h
    simp [splitFinish] at h
    first | done | exact h.symm
  subst hv
  simp [Sch.idx]

theorem splitN_missing2 (w : Str) (hw : Word w) {v : List Str}
    (h : splitN 2 (w ++ [' ']) = .ok v) {x : Str} : Sch.idx v 1 ≠ .ok x := by
  have hb : ∀ c ∈ w, c ≠ ' ' ∧ c ≠ '"' := fun c hc =>
    ⟨fun e => hw.2.2 (e ▸ hc), fun e => hw.2.1.2 (e ▸ hc)⟩
  have hf : (w ++ [' ']).foldl (splitStep (some 2)) ⟨0, [], false, false, []⟩ =
      ⟨1, [w], false, false, []⟩ := by
    rw [split_bare (some 2) 0 [] false [] w _ (by decide) hb,
      split_space (some 2) 0 [] false _ _ (by decide) (Or.inl (by simpa using hw.1))]
    simp
  have hv : v = [w] := by
    unfold splitN splitInt at h
    rw [hf] at h
    simp [splitFinish] at h
    first | done | exact h.symm
  subst hv
  simp [Sch.idx]

namespace Sch

variable {F : Type} [Flt F] [TextLaws F]

/-- A field read from a printed line has a written or fixed name. -/
theorem Field.new_named (v : List Str) (i : Int) (f' : Field F) (hi : inI64 i) (h1 : idx v 1 = .ok (showInt i))
    (hlen : v.length = 11 → i > 3) (h : Field.new v = .ok f') : NamedField f' := by
  unfold Field.new at h
  split at h
  · cases h
  rw [h1, Res.bind_ok, i64R_showInt hi, Res.bind_ok] at h
  have key : ∀ name, 0 ≤ i → FixedName i name → (do
      let value ← idx v 2
      let orientation ← Orientation.new (← charAt (← idx v 3) 0)
      let x ← f64R (← idx v 4)
      let y ← f64R (← idx v 5)
      let size ← i64R (← idx v 6)
      let visible ← boolFrom (← idx v 7) (str! "0000") (str! "0001")
      let hjustify ← Justify.new (← charAt (← idx v 8) 0)
      let vjustify ← Justify.new (← charAt (← idx v 9) 0)
      let italic ← boolFrom (← charAt (← idx v 9) 1) 'I' 'N'
      let bold ← boolFrom (← charAt (← idx v 9) 2) 'B' 'N'
      Res.ok ({ i := i, value, orientation, x, y, size, visible, hjustify, vjustify, italic, bold, name } : Field F)) =
        .ok f' → NamedField f' := by
    intro name h0 hn h
    simp only [Res.bind_eq_ok] at h
    obtain ⟨value, h2, _, _, _, _, _, _, _, _, x, _, _, _, y, _, sz, h6, size, hsz, _, _, vis, _, _, _, _, _, hj, _, _, _,
      _, _, vj, _, _, _, _, _, it, _, _, _, _, _, bo, _, h⟩ := h
    cases h
    exact ⟨h0, hn⟩
  split at h
  · rename_i h11
    have h3 := hlen h11
    obtain ⟨name, hn, h⟩ := Res.bind_eq_ok.1 h
    refine key name (by omega) ⟨?_, ?_, ?_, ?_⟩ h <;> (intro e; omega)
  split at h
  · rename_i e
    refine key _ (by omega) ⟨?_, ?_, ?_, ?_⟩ h <;> (intro e'; first | rfl | omega)
  split at h
  · rename_i e
    refine key _ (by omega) ⟨?_, ?_, ?_, ?_⟩ h <;> (intro e'; first | rfl | omega)
  split at h
  · rename_i e
    refine key _ (by omega) ⟨?_, ?_, ?_, ?_⟩ h <;> (intro e'; first | rfl | omega)
  split at h
  · rename_i e
    refine key _ (by omega) ⟨?_, ?_, ?_, ?_⟩ h <;> (intro e'; first | rfl | omega)
  · cases h

theorem Field.new_toks_named (f f' : Field F) (hr : ReadField f) (h : Field.new f.toks = .ok f') : NamedField f' := by
  refine Field.new_named f.toks f.i f' hr.1 rfl (fun he => ?_) h
  by_cases hc : f.i > 3
  · exact hc
  · simp [Field.toks, hc] at he

theorem compLoop_f_back (d : Component F) (l : List (Field F)) (rest : List Str) (hl : ∀ f ∈ l, ReadField f)
    (c' : Component F) (p' : List Str) (h : parseComponentLoop d (l.map Field.show ++ rest) = .ok (c', p')) :
    ∃ fs, (∀ f ∈ fs, NamedField f) ∧
      parseComponentLoop { d with fields := d.fields ++ fs } rest = .ok (c', p') := by
  induction l generalizing d with
  | nil => exact ⟨[], by simp, by simpa using h⟩
  | cons a l ih =>
    rw [List.forall_mem_cons] at hl
    have hne := ne_of_firstWord (e := str! "$EndComp") a.firstWord (by decide) (by decide)
    rw [List.map_cons, List.cons_append, parseComponentLoop.eq_def] at h
    simp only at h
    rw [if_neg hne, a.firstWord, if_neg (by decide), if_neg (by decide), if_neg (by decide), if_pos rfl] at h
    obtain ⟨d', h1, h2⟩ := Res.bind_eq_ok.1 h
    unfold parseComponentF at h1
    rw [(a.words hl.1).splitQ, Res.bind_ok] at h1
    obtain ⟨f', hf', h1⟩ := Res.bind_eq_ok.1 h1
    cases h1
    obtain ⟨fs, hfs, h3⟩ := ih _ hl.2 h2
    refine ⟨f' :: fs, ?_, ?_⟩
    · rw [List.forall_mem_cons]
      exact ⟨Field.new_toks_named a f' hl.1 hf', hfs⟩
    · simpa using h3

theorem parseComponent_back (c : Component F) (hr : ReadComponent c) (rest : List Str) (c' : Component F)
    (p' : List Str) (h : parseComponent (c.lns ++ rest) = .ok (c', p')) :
    WritableComponent c' ∧ p' = str! "$EndComp" :: rest ∧ (Word c.name → c.reference ≠ []) := by
  have hf : Verif.firstWord c.lLine = some (str! "L") := by
    unfold Component.lLine
    flat
    exact firstWord_char _ (by decide) (by decide)
  have hne := ne_of_firstWord (e := str! "$EndComp") hf (by decide) (by decide)
  unfold parseComponent Component.lns Component.tailLines next at h
  simp only [List.cons_append, List.drop_succ_cons, List.drop_zero, List.append_assoc, List.nil_append] at h
  rw [parseComponentLoop.eq_def] at h
  simp only at h
  rw [if_neg hne, hf, if_pos rfl] at h
  obtain ⟨d, h1, h2⟩ := Res.bind_eq_ok.1 h
  unfold parseComponentL at h1
  simp only [Res.bind_eq_ok] at h1
  obtain ⟨v, hv, n, hn, r, hrr, h1⟩ := h1
  have hol : '\n' ∉ c.lLine := by
    refine c.lns_noLf hr _ ?_
    simp [Component.lns, Component.tailLines]
  have hq : '"' ∉ c.lLine := by
    have a := hr.1.2
    have b := hr.2.1.2
    unfold Component.lLine
    simp [a, b]
  have hwn := splitN_word hv hq hn hol (by decide)
  have hwr := splitN_word hv hq hrr hol (by decide)
  cases h1
  rw [compLoop_u _ c (by rfl) hr, compLoop_p _ c hr, compLoop_ar _ _ _ fun a ha => (hr.2.2.2.2.2.2.1 a ha).2] at h2
  obtain ⟨fs, hfs, h3⟩ := compLoop_f_back _ _ _ hr.2.2.2.2.2.2.2.1 _ _ h2
  rw [compLoop_end _ c hr] at h3
  cases h3
  refine ⟨⟨hwn, hwr, by simpa [Component.dflt] using hfs⟩, rfl, fun hw hnil => ?_⟩
  have hl : c.lLine = str! "L" ++ ' ' :: (c.name ++ [' ']) := by
    simp [Component.lLine, hnil]
  rw [hl] at hv
  exact splitN_missing _ _ (by decide) hw hv hrr

theorem parseSheet_back (s : Sheet) (hr : ReadSheet s) (hlen : s.labels.length < 2147483646) (rest : List Str)
    (s' : Sheet) (p' : List Str) (h : parseSheet (s.lns ++ rest) = .ok (s', p')) :
    Word s'.unique ∧ p' = str! "$EndSheet" :: rest ∧ s.unique ≠ [] := by
  have hf : Verif.firstWord s.uLine = some (str! "U") := by
    unfold Sheet.uLine
    flat
    exact firstWord_char _ (by decide) (by decide)
  have hne := ne_of_firstWord (e := str! "$EndSheet") hf (by decide) (by decide)
  unfold parseSheet Sheet.lns next at h
  simp only [List.cons_append, List.drop_succ_cons, List.drop_zero, List.append_assoc, List.nil_append] at h
  rw [sheetLoop_s _ s hr, parseSheetLoop.eq_def] at h
  simp only at h
  rw [if_neg hne, hf] at h
  simp only at h
  rw [if_neg (by decide), if_pos trivial] at h
  obtain ⟨d, h1, h2⟩ := Res.bind_eq_ok.1 h
  unfold parseSheetU at h1
  simp only [Res.bind_eq_ok] at h1
  obtain ⟨v, hv, n, hn, h1⟩ := h1
  have hol : '\n' ∉ s.uLine := by
    refine s.lns_noLf hr _ ?_
    simp [Sheet.lns]
  have hq : '"' ∉ s.uLine := by
    have a := hr.2.2.2.2.1.2
    unfold Sheet.uLine
    simp [a]
  have hwn := splitN_word hv hq hn hol (by decide)
  cases h1
  rw [sheetLoop_f0 _ s hr, sheetLoop_f1 _ s hr,
    sheetLoop_labels _ 2 (Nat.le_refl _) _ hr.2.2.2.2.2.2.2.2.2 (by omega), sheetLoop_done] at h2
  cases h2
  refine ⟨hwn, rfl, fun hnil => ?_⟩
  have hl : s.uLine = str! "U" ++ [' '] := by simp [Sheet.uLine, hnil]
  rw [hl] at hv
  exact splitN_missing2 _ (by decide) hv hn

theorem parseDescription_back (d : Description) (hr : ReadDescription d) (rest : List Str) (d' : Description)
    (p' : List Str) (h : parseDescription (d.lns ++ rest) = .ok (d', p')) :
    Word d'.size ∧ p' = str! "$EndDescr" :: rest := by
  have hol := (d.lns_oneLine hr d.descrLine (by simp [Description.lns])).1
  have hq : '"' ∉ d.descrLine := by
    have a := hr.1.2
    have b := fun i : Int => (word_showInt i).2.1.2
    unfold Description.descrLine
    simp [a, b]
  unfold parseDescription Description.lns at h
  simp only [here, next, List.cons_append, List.nil_append, List.drop_succ_cons, List.drop_zero, Res.bind_ok] at h
  obtain ⟨v, hv, h⟩ := Res.bind_eq_ok.1 h
  obtain ⟨size, hsize, h⟩ := Res.bind_eq_ok.1 h
  obtain ⟨_, _, h⟩ := Res.bind_eq_ok.1 h
  obtain ⟨dx, hdx, h⟩ := Res.bind_eq_ok.1 h
  obtain ⟨_, _, h⟩ := Res.bind_eq_ok.1 h
  obtain ⟨dy, hdy, h⟩ := Res.bind_eq_ok.1 h
  obtain ⟨v2, hv2, h⟩ := Res.bind_eq_ok.1 h
  obtain ⟨_, _, h⟩ := Res.bind_eq_ok.1 h
  split at h
  · cases h
  simp only [Res.bind_eq_ok] at h
  obtain ⟨_, _, sh, hsh, _, _, sc, hsc, r3, h3, r4, h4, r5, h5, r6, h6, r7, h7, r8, h8, r9, h9, r10, h10, _, _, h⟩ := h
  cases h
  exact ⟨splitN_word hv hq hsize hol (by decide), rfl⟩

/-- A component with a name that is a word has a reference. -/
def HasReference : Element F → Prop
  | .component c => Word c.name → c.reference ≠ []
  | _ => True

/-- Reading one printed element gives one writable element, if anything. -/
theorem parseItem_element_back (sch : Schematic F) (e : Element F) (he : ReadElement e) (rest : List Str)
    (sch' : Schematic F) (p' : List Str) (h : parseItem sch (e.lns ++ rest) = .ok (sch', p')) :
    ∃ e' l, WritableElement e' ∧ sch' = { sch with elements := sch.elements ++ [e'] } ∧ p' = l :: rest ∧ HasReference e := by
  cases e with
  | component c =>
    have hf : Verif.firstWord (str! "$Comp") = some (str! "$Comp") := by decide
    rw [Element.lns, parseItem, Component.lns, List.cons_append] at h
    simp only [here, Res.bind_ok, hf] at h
    rw [if_neg (by decide), if_pos trivial] at h
    obtain ⟨⟨c', q⟩, h1, h2⟩ := Res.bind_eq_ok.1 h
    cases h2
    obtain ⟨b1, b2, b3⟩ := parseComponent_back c he rest c' q h1
    exact ⟨.component c', _, b1, rfl, b2, b3⟩
  | wire w =>
    obtain ⟨l, hl⟩ := parseItem_element sch (.wire w) he trivial rest
    rw [hl] at h; cases h
    exact ⟨.wire w, l, trivial, rfl, rfl, trivial⟩
  | connection w =>
    obtain ⟨l, hl⟩ := parseItem_element sch (.connection w) he trivial rest
    rw [hl] at h; cases h
    exact ⟨.connection w, l, trivial, rfl, rfl, trivial⟩
  | noConnect w =>
    obtain ⟨l, hl⟩ := parseItem_element sch (.noConnect w) he trivial rest
    rw [hl] at h; cases h
    exact ⟨.noConnect w, l, trivial, rfl, rfl, trivial⟩
  | text w =>
    obtain ⟨l, hl⟩ := parseItem_element sch (.text w) he trivial rest
    rw [hl] at h; cases h
    exact ⟨.text w, l, trivial, rfl, rfl, trivial⟩
  | other w =>
    obtain ⟨l, hl⟩ := parseItem_element sch (.other w) he trivial rest
    rw [hl] at h; cases h
    exact ⟨.other w, l, trivial, rfl, rfl, trivial⟩

theorem parseItem_sheet_back (sch : Schematic F) (s : Sheet) (hr : ReadSheet s) (hlen : s.labels.length < 2147483646)
    (rest : List Str) (sch' : Schematic F) (p' : List Str) (h : parseItem sch (s.lns ++ rest) = .ok (sch', p')) :
    ∃ s' l, Word s'.unique ∧ sch' = { sch with sheets := sch.sheets ++ [s'] } ∧ p' = l :: rest ∧ s.unique ≠ [] := by
  have hf : Verif.firstWord (str! "$Sheet") = some (str! "$Sheet") := by decide
  rw [parseItem, Sheet.lns, List.cons_append] at h
  simp only [here, Res.bind_ok, hf] at h
  rw [if_neg (by decide), if_neg (by decide), if_pos trivial] at h
  obtain ⟨⟨s', q⟩, h1, h2⟩ := Res.bind_eq_ok.1 h
  cases h2
  obtain ⟨b1, b2, b3⟩ := parseSheet_back s hr hlen rest s' q h1
  exact ⟨s', _, b1, rfl, b2, b3⟩

theorem parseItem_descr_back (sch : Schematic F) (d : Description) (hr : ReadDescription d)
    (rest : List Str) (sch' : Schematic F) (p' : List Str) (h : parseItem sch (d.lns ++ rest) = .ok (sch', p')) :
    ∃ d' l, Word d'.size ∧ sch' = { sch with description := d' } ∧ p' = l :: rest := by
  have hf : Verif.firstWord d.descrLine = some (str! "$Descr") := by
    unfold Description.descrLine
    flat
    exact firstWord_word (w := str! "$Descr") (by decide) (by decide) _
  rw [parseItem, Description.lns, List.cons_append] at h
  simp only [here, Res.bind_ok, hf] at h
  rw [if_pos trivial] at h
  obtain ⟨⟨d', q⟩, h1, h2⟩ := Res.bind_eq_ok.1 h
  cases h2
  obtain ⟨b1, b2⟩ := parseDescription_back d hr rest d' q h1
  exact ⟨d', _, b1, rfl, b2⟩

theorem parseItems_inv (n : Nat) (sch r : Schematic F) (ls : List Str) (rest : List Str)
    (h0 : ls ≠ []) (h : parseItems n sch (ls ++ rest) = .ok r) :
    ∃ m sch' p', n = m + 1 ∧ parseItem sch (ls ++ rest) = .ok (sch', p') ∧ parseItems m sch' (next p') = .ok r := by
  cases ls with
  | nil => exact absurd rfl h0
  | cons a ls =>
    rw [List.cons_append] at h ⊢
    cases n with
    | zero => rw [parseItems] at h; cases h
    | succ n =>
      rw [parseItems] at h
      · obtain ⟨⟨s2, p2⟩, h1, h2⟩ := Res.bind_eq_ok.1 h
        exact ⟨n, s2, p2, rfl, h1, h2⟩
      · simp

theorem parseItems_elements_back (es : List (Element F)) (hes : ∀ e ∈ es, ReadElement e) (n : Nat)
    (sch r : Schematic F) (rest : List Str) (h : parseItems n sch (es.flatMap Element.lns ++ rest) = .ok r) :
    ∃ m es', (∀ e ∈ es', WritableElement e) ∧ (∀ e ∈ es, HasReference e) ∧
      parseItems m { sch with elements := sch.elements ++ es' } rest = .ok r := by
  induction es generalizing sch n with
  | nil => exact ⟨n, [], by simp, by simp, by simpa using h⟩
  | cons e es ih =>
    rw [List.forall_mem_cons] at hes
    rw [List.flatMap_cons, List.append_assoc] at h
    obtain ⟨m, s2, p2, _, h1, h2⟩ := parseItems_inv _ _ _ _ _ e.lns_ne h
    obtain ⟨e', l, hw, rfl, rfl, hx⟩ := parseItem_element_back sch e hes.1 _ _ _ h1
    obtain ⟨m', es', hes', hxs, h3⟩ := ih hes.2 m _ h2
    exact ⟨m', e' :: es', List.forall_mem_cons.2 ⟨hw, hes'⟩, List.forall_mem_cons.2 ⟨hx, hxs⟩, by simpa using h3⟩

theorem parseItems_sheets_back (es : List Sheet) (hes : ∀ e ∈ es, ReadSheet e)
    (hlen : ∀ e ∈ es, e.labels.length < 2147483646) (n : Nat)
    (sch r : Schematic F) (rest : List Str) (h : parseItems n sch (es.flatMap Sheet.lns ++ rest) = .ok r) :
    ∃ m es', (∀ e ∈ es', Word (Sheet.unique e)) ∧ (∀ e ∈ es, e.unique ≠ []) ∧
      parseItems m { sch with sheets := sch.sheets ++ es' } rest = .ok r := by
  induction es generalizing sch n with
  | nil => exact ⟨n, [], by simp, by simp, by simpa using h⟩
  | cons e es ih =>
    rw [List.forall_mem_cons] at hes hlen
    rw [List.flatMap_cons, List.append_assoc] at h
    obtain ⟨m, s2, p2, _, h1, h2⟩ := parseItems_inv _ _ _ _ _ (by simp [Sheet.lns]) h
    obtain ⟨e', l, hw, rfl, rfl, hx⟩ := parseItem_sheet_back sch e hes.1 hlen.1 _ _ _ h1
    obtain ⟨m', es', hes', hxs, h3⟩ := ih hes.2 hlen.2 m _ h2
    exact ⟨m', e' :: es', List.forall_mem_cons.2 ⟨hw, hes'⟩, List.forall_mem_cons.2 ⟨hx, hxs⟩, by simpa using h3⟩

/-- Whatever is read from the lines of a printed schematic can be written; and the lines had all
references and sheet ids. -/
theorem parseLines_lns_back (f : Option Str) (s r : Schematic F) (hr : ReadSchematic s) (hly : ReadLayer s.eelayer)
    (hc : CountableLabels s) (h : parseLines f s.lns = .ok r) :
    Writable r ∧ (∀ e ∈ s.elements, HasReference e) ∧ ∀ x ∈ s.sheets, x.unique ≠ [] := by
  have he := hly.2
  obtain ⟨_, hd, hes, hsh⟩ := hr
  have hl : startsWith s.eelayer (str! "LIBS:") = false := by
    obtain ⟨t, ht⟩ := (startsWith_iff _ _).1 he
    rw [ht]; rfl
  unfold parseLines Schematic.lns at h
  rw [assumeLine, if_neg (by simp), Res.bind_ok, parseLibs_lns _ _ _ hl] at h
  simp only [here, Res.bind_ok, he, Bool.not_true, Bool.false_eq_true, if_false, next, List.drop_succ_cons,
    List.drop_zero, assumeLine, ne_eq, not_true] at h
  obtain ⟨m, s2, p2, _, h1, h2⟩ := parseItems_inv _ _ _ _ _ (by simp [Description.lns]) h
  obtain ⟨d', l, hwd, rfl, rfl⟩ := parseItem_descr_back _ _ hd _ _ _ h1
  obtain ⟨m2, es', hes', hxe, h3⟩ := parseItems_elements_back _ hes _ _ _ _ h2
  obtain ⟨m3, sh', hsh', hxs, h4⟩ := parseItems_sheets_back _ hsh hc _ _ _ _ h3
  have : parseItems m3 _ (([str! "$EndSCHEMATC"] : List Str) ++ []) = .ok r := h4
  obtain ⟨m4, s5, p5, _, h5, h6⟩ := parseItems_inv _ _ _ _ _ (by simp) this
  have hf : Verif.firstWord (str! "$EndSCHEMATC") = some (str! "$EndSCHEMATC") := by decide
  rw [List.append_nil, parseItem] at h5
  simp only [here, Res.bind_ok, hf] at h5
  rw [if_neg (by decide), if_neg (by decide), if_neg (by decide), if_pos trivial] at h5
  cases h5
  have : parseItems m4 _ ([] : List Str) = .ok r := h6
  cases m4 <;>
  · rw [parseItems] at this
    cases this
    exact ⟨⟨hwd, by simpa [Schematic.dflt] using hes', by simpa [Schematic.dflt] using hsh'⟩, hxe, hxs⟩

theorem noLf_stripCr {s : Str} (h : '\n' ∉ s) : '\n' ∉ stripCr s := fun hc => h (mem_stripCr hc)

theorem quotable_stripCr {s : Str} (h : Quotable s) : Quotable (stripCr s) :=
  ⟨fun hc => h.1 (mem_stripCr hc), fun hc => h.2 (mem_stripCr hc)⟩

theorem word_stripCr {s : Str} (h : Word s) (hne : stripCr s ≠ []) : Word (stripCr s) :=
  ⟨hne, quotable_stripCr h.2.1, fun hc => h.2.2 (mem_stripCr hc)⟩

theorem Element.read_strip (e : Element F) (h : ReadElement e) : ReadElement e.strip := by
  cases e with
  | component c =>
    obtain ⟨h1, h2, h3, h4, h5, h6, h7, h8⟩ := h
    refine ⟨h1, quotable_stripCr h2, noLf_stripCr h3, ?_, h5, h6, ?_, h8⟩
    · rcases h4 with h4 | h4
      · exact Or.inl (by simp [Component.strip, h4, stripCr])
      · exact Or.inr ((firstWord_stripCr _).trans h4)
    · intro a ha
      obtain ⟨b, hb, rfl⟩ := List.mem_map.1 ha
      exact ⟨noLf_stripCr (h7 b hb).1, (firstWord_stripCr _).trans (h7 b hb).2⟩
  | text t =>
    obtain ⟨h1, h2, h3, h4, h5, h6, h7⟩ := h
    exact ⟨h1, h2, h3, h4, h5, noLf_stripCr h6, h7⟩
  | other s =>
    obtain ⟨h1, w, hw, h2⟩ := h
    refine ⟨noLf_stripCr h1, w, ?_, h2⟩
    rw [firstWord_stripCr]
    exact hw
  | wire w => exact h
  | connection w => exact h
  | noConnect w => exact h

theorem readLayer_strip {s : Str} (h : ReadLayer s) : ReadLayer (stripCr s) := by
  refine ⟨noLf_stripCr h.1, ?_⟩
  obtain ⟨t, ht⟩ := (startsWith_iff _ _).1 h.2
  rw [startsWith_iff]
  exact ⟨stripCr t, by rw [ht]; exact stripCr_sep (str! "EELAYER") (c := ' ') (by decide) t⟩

theorem Schematic.read_strip (s : Schematic F) (h : ReadSchematic s) : ReadSchematic s.strip := by
  obtain ⟨h1, h2, h3, h4⟩ := h
  refine ⟨?_, h2, ?_, ?_⟩
  · intro l hl
    obtain ⟨b, hb, rfl⟩ := List.mem_map.1 hl
    exact noLf_stripCr (h1 b hb)
  · intro e he
    obtain ⟨b, hb, rfl⟩ := List.mem_map.1 he
    exact b.read_strip (h3 b hb)
  · intro e he
    obtain ⟨b, hb, rfl⟩ := List.mem_map.1 he
    obtain ⟨a1, a2, a3, a4, a5, a6⟩ := h4 b hb
    exact ⟨a1, a2, a3, a4, quotable_stripCr a5, a6⟩

theorem Schematic.countable_strip (s : Schematic F) (h : CountableLabels s) : CountableLabels s.strip := by
  intro e he
  obtain ⟨b, hb, rfl⟩ := List.mem_map.1 he
  exact h b hb

/-- The lines of a saved schematic are those of the schematic without carriage returns at line ends. -/
theorem parse_show_strip (f : Option Str) (s : Schematic F) (hr : ReadSchematic s) (hly : ReadLayer s.eelayer) :
    (parse f s.show : Res (Schematic F)) = parseLines f s.strip.lns := by
  rw [parse, s.show_eq, lines_unlines_strip _ (s.lns_noLf hr hly.1), s.lns_strip hr]

/-- Whatever is read from a saved schematic can be written, up to carriage returns. -/
theorem parse_show_writable (f : Option Str) (s r : Schematic F) (hr : ReadSchematic s) (hly : ReadLayer s.eelayer)
    (hc : CountableLabels s) (h : parse f s.show = .ok r) : Writable r := by
  rw [parse_show_strip f s hr hly] at h
  exact (parseLines_lns_back f s.strip r (s.read_strip hr) (readLayer_strip hly) (s.countable_strip hc) h).1

/-- A schematic that can be written is read back without the carriage returns at line ends, if it is read
back at all. -/
theorem parse_show_eq_strip (f : Option Str) (s r : Schematic F) (hr : ReadSchematic s) (hly : ReadLayer s.eelayer)
    (hw : Writable s) (hc : CountableLabels s) (h : parse f s.show = .ok r) : r = { s.strip with filename := f } := by
  rw [parse_show_strip f s hr hly] at h
  obtain ⟨_, he, hu⟩ := parseLines_lns_back f s.strip r (s.read_strip hr) (readLayer_strip hly) (s.countable_strip hc) h
  have hws : Writable s.strip := by
    obtain ⟨w1, w2, w3⟩ := hw
    refine ⟨w1, ?_, ?_⟩
    · intro e hm
      have h1 := he e hm
      obtain ⟨b, hb, rfl⟩ := List.mem_map.1 hm
      have h2 := w2 b hb
      cases b with
      | component c => exact ⟨h2.1, word_stripCr h2.2.1 (h1 h2.1), h2.2.2⟩
      | _ => exact trivial
    · intro e hm
      have h1 := hu e hm
      obtain ⟨b, hb, rfl⟩ := List.mem_map.1 hm
      exact word_stripCr (w3 b hb) h1
  have := parseLines_lns f s.strip ⟨s.read_strip hr, readLayer_strip hly, hws, s.countable_strip hc⟩
  rw [this] at h
  exact (Res.ok.inj h).symm

end Sch
end Verif
