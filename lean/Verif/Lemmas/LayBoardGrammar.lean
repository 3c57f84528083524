import Verif.Lemmas.LayGrammar
/-!
# Lemmas: the readers of a board that collect entries
-/

set_option linter.unusedSimpArgs false
set_option linter.unusedSectionVars false

namespace Verif
open Spec Sx Tree Flt

variable {F : Type} [Flt F]

namespace Lay

/-! ## Layers and setup -/

theorem list_iff (e : Sexp) (l : List Sexp) : Sx.list e = .ok l ↔ e = .list l := by
  cases e <;> simp [Sx.list]

theorem layerType_iff (e : Sexp) (t : LayerType) : LayerType.de e = .ok t ↔ ∃ w, e = .str w ∧ (w, t) ∈ boardLayerTypes := by
  unfold LayerType.de boardLayerTypes
  constructor
  · intro h
    obtain ⟨w, hw, h⟩ := Res.bind_eq_ok.1 h
    rw [string_iff] at hw
    refine ⟨w, hw, ?_⟩
    clear hw
    repeat (split at h; (rename_i e; subst e; cases h; simp))
    cases h
  · rintro ⟨w, rfl, h⟩
    simp only [List.mem_cons, Prod.mk.injEq, List.not_mem_nil, or_false] at h
    rcases h with ⟨rfl, rfl⟩ | ⟨rfl, rfl⟩ | ⟨rfl, rfl⟩ | ⟨rfl, rfl⟩ | ⟨rfl, rfl⟩ <;> rfl

theorem boardLayer_iff (e : Sexp) (v : Layer) : Layer.de e = .ok v ↔ BoardLayerTree e v := by
  unfold Layer.de BoardLayerTree
  constructor
  · intro h0
    obtain ⟨i0, hi, h0⟩ := Res.bind_eq_ok.1 h0
    obtain ⟨⟨x1, i1⟩, h1, h0⟩ := Res.bind_eq_ok.1 h0
    obtain ⟨⟨x2, i2⟩, h2, h0⟩ := Res.bind_eq_ok.1 h0
    obtain ⟨ly, hly, h0⟩ := Res.bind_eq_ok.1 h0
    obtain ⟨⟨x3, i3⟩, h3, h0⟩ := Res.bind_eq_ok.1 h0
    obtain ⟨⟨x4, i4⟩, h4, h0⟩ := Res.bind_eq_ok.1 h0
    obtain ⟨rfl, rfl⟩ := (close_iff ..).1 h0
    rw [list_iff] at hi
    obtain ⟨p1, rfl, g1⟩ := (eat_iff ..).1 h1
    obtain ⟨p2, rfl, g2⟩ := (eat_iff ..).1 h2
    obtain ⟨p3, rfl, g3⟩ := (eat_iff ..).1 h3
    obtain ⟨p4, rfl, g4⟩ := maybe_split Fp.word_iff h4
    rw [string_iff] at g2
    subst g2
    obtain ⟨w, rfl, g5⟩ := (layerType_iff ..).1 g3
    rw [List.append_nil] at hi
    exact ⟨p1, x2, w, p4, x4, hi, (int_iff ..).1 g1, (Fp.layerWord_iff ..).1 hly, g5, g4, rfl⟩
  · rintro ⟨p1, n, w, p4, x4, rfl, g1, gl, g3, g4, d⟩
    have e4 := maybe_take Fp.word_iff string_calm g4 (free_nil _)
    rw [List.append_nil] at e4
    simp only [(list_iff ..).2 rfl, Res.bind_ok, eat, string_str, (int_iff ..).2 g1, (Fp.layerWord_iff ..).2 gl,
      (layerType_iff _ _).2 ⟨w, rfl, g3⟩, e4, close_nil]
    obtain ⟨a, b, c, h⟩ := v
    simp only at d
    subst d
    rfl

theorem boardLayers_iff (e : Sexp) (l : List Layer) : LayerVec.de e = .ok l ↔ BoardLayersTree e l := by
  unfold LayerVec.de BoardLayersTree
  simp only [Res.bind_eq_ok, iter_iff, vec_iff boardLayer_iff]

theorem setupElement_iff (e : Sexp) (v : SetupElement) : SetupElement.de e = .ok v ↔ SetupElementTree e v := by
  unfold SetupElement.de SetupElementTree
  constructor
  · intro h0
    obtain ⟨i0, hi, h0⟩ := Res.bind_eq_ok.1 h0
    obtain ⟨⟨x1, i1⟩, h1, h0⟩ := Res.bind_eq_ok.1 h0
    obtain ⟨⟨x2, i2⟩, h2, h0⟩ := Res.bind_eq_ok.1 h0
    obtain ⟨⟨x4, i4⟩, h4, h0⟩ := Res.bind_eq_ok.1 h0
    obtain ⟨rfl, rfl⟩ := (close_iff ..).1 h0
    rw [list_iff] at hi
    obtain ⟨p1, rfl, g1⟩ := (eat_iff ..).1 h1
    obtain ⟨p2, rfl, g2⟩ := (eat_iff ..).1 h2
    obtain ⟨p4, rfl, g4⟩ := maybe_split Fp.word_iff h4
    rw [string_iff] at g1 g2
    subst g1 g2
    rw [List.append_nil] at hi
    exact ⟨p4, hi, g4⟩
  · rintro ⟨p4, rfl, g4⟩
    have e4 := maybe_take Fp.word_iff string_calm g4 (free_nil _)
    rw [List.append_nil] at e4
    simp only [(list_iff ..).2 rfl, Res.bind_ok, eat, string_str, e4, close_nil]

/-- The setup after more items. -/
def withSetup (s : Setup) (is : List SetupItem) : Setup :=
  ⟨s.elements ++ is.filterMap SetupItem.element?, s.pcbplotparams ++ (is.filterMap SetupItem.params?).flatten⟩

theorem setupFill_iff (l : List Sexp) (s s' : Setup) : Setup.fill s l = .ok s' ↔
    ∃ is, Many SetupItemTree l is ∧ s' = withSetup s is := by
  induction l generalizing s s' with
  | nil =>
    constructor
    · intro h; cases h; exact ⟨[], .nil, by simp [withSetup]⟩
    · rintro ⟨is, h, rfl⟩; cases h; simp [withSetup, Setup.fill]
  | cons x l ih =>
    rw [Setup.fill]
    constructor
    · intro h
      obtain ⟨n, hn, h⟩ := Res.bind_eq_ok.1 h
      split at h
      · rename_i e; subst e
        obtain ⟨i, hi, h⟩ := Res.bind_eq_ok.1 h
        obtain ⟨ps, hps, h⟩ := Res.bind_eq_ok.1 h
        obtain ⟨is, his, rfl⟩ := (ih _ _).1 h
        rw [iter_iff] at hi
        subst hi
        refine ⟨.params ps :: is, .cons (.params ((vec_iff setupElement_iff ..).1 hps)) his, ?_⟩
        simp [withSetup, List.filterMap_cons, SetupItem.element?, SetupItem.params?]
      · rename_i hne
        obtain ⟨a, ha, h⟩ := Res.bind_eq_ok.1 h
        obtain ⟨is, his, rfl⟩ := (ih _ _).1 h
        have ha := (setupElement_iff ..).1 ha
        refine ⟨.element a :: is, .cons (.element ha ?_) his, ?_⟩
        · obtain ⟨r, rfl, _⟩ := ha
          rw [listName_iff] at hn
          obtain ⟨_, hn⟩ := hn
          cases hn
          exact hne
        · simp [withSetup, List.filterMap_cons, SetupItem.element?, SetupItem.params?]
    · rintro ⟨is, h, rfl⟩
      cases h with
      | @cons _ _ it is' h1 h2 =>
        cases h1 with
        | @element _ a ha hne =>
          have ha' := (setupElement_iff ..).2 ha
          obtain ⟨r, rfl, _⟩ := ha
          rw [(listName_iff _ a.name).2 ⟨_, rfl⟩, Res.bind_ok, if_neg hne, ha', Res.bind_ok]
          refine (ih _ _).2 ⟨is', h2, ?_⟩
          simp [withSetup, List.filterMap_cons, SetupItem.element?, SetupItem.params?]
        | @params parts ps hps =>
          rw [(listName_iff _ (str! "pcbplotparams")).2 ⟨_, rfl⟩, Res.bind_ok, if_pos rfl, (iter_iff _ _ _).2 rfl,
            Res.bind_ok, (vec_iff setupElement_iff _ _).2 hps, Res.bind_ok]
          refine (ih _ _).2 ⟨is', h2, ?_⟩
          simp [withSetup, List.filterMap_cons, SetupItem.element?, SetupItem.params?]

theorem setup_iff (e : Sexp) (s : Setup) : Setup.de e = .ok s ↔ SetupTree e s := by
  unfold Setup.de SetupTree
  simp only [Res.bind_eq_ok, iter_iff, setupFill_iff]
  constructor
  · rintro ⟨i, rfl, is, h, rfl⟩
    exact ⟨i, is, rfl, h, by simp [withSetup], by simp [withSetup]⟩
  · rintro ⟨i, is, rfl, h, h1, h2⟩
    refine ⟨i, rfl, is, h, ?_⟩
    obtain ⟨a, b⟩ := s
    simp only at h1 h2
    simp [withSetup, h1, h2]

/-! ## Net classes -/

/-- The net class after more items. -/
def withItem (nc : NetClass F) : NetClassItem F → NetClass F
  | .clearance x => { nc with clearance := x }
  | .traceWidth x => { nc with traceWidth := x }
  | .viaDia x => { nc with viaDia := x }
  | .viaDrill x => { nc with viaDrill := x }
  | .uviaDia x => { nc with uviaDia := x }
  | .uviaDrill x => { nc with uviaDrill := x }
  | .diffPairGap x => { nc with diffPairGap := some x }
  | .diffPairWidth x => { nc with diffPairWidth := some x }
  | .addNet s => { nc with nets := nc.nets ++ [s] }

theorem netClassFill_iff (l : List Sexp) (s s' : NetClass F) : NetClass.fill s l = .ok s' ↔
    ∃ is, Many NetClassItemTree l is ∧ s' = is.foldl withItem s := by
  induction l generalizing s s' with
  | nil =>
    constructor
    · intro h; cases h; exact ⟨[], .nil, rfl⟩
    · rintro ⟨is, h, rfl⟩; cases h; rfl
  | cons x l ih =>
    rw [NetClass.fill]
    constructor
    · intro h
      obtain ⟨n, hn, h⟩ := Res.bind_eq_ok.1 h
      clear hn
      by_cases c : n = str! "add_net"
      · rw [if_pos c] at h
        subst c
        obtain ⟨v, hv, h⟩ := Res.bind_eq_ok.1 h
        obtain ⟨w, hw, h⟩ := Res.bind_eq_ok.1 h
        obtain ⟨is, his, rfl⟩ := (ih _ _).1 h
        rw [namedValue_iff] at hv
        exact ⟨.addNet w :: is, .cons (.addNet ⟨v, hv, (string_iff ..).1 hw⟩) his, rfl⟩
      rw [if_neg c] at h
      clear c
      by_cases c : n = str! "clearance"
      · rw [if_pos c] at h
        subst c
        obtain ⟨a, ha, h⟩ := Res.bind_eq_ok.1 h
        obtain ⟨is, his, rfl⟩ := (ih _ _).1 h
        exact ⟨.clearance a :: is, .cons (.clearance ((single_iff num_iff _ _ _).1 ha)) his, rfl⟩
      rw [if_neg c] at h
      clear c
      by_cases c : n = str! "trace_width"
      · rw [if_pos c] at h
        subst c
        obtain ⟨a, ha, h⟩ := Res.bind_eq_ok.1 h
        obtain ⟨is, his, rfl⟩ := (ih _ _).1 h
        exact ⟨.traceWidth a :: is, .cons (.traceWidth ((single_iff num_iff _ _ _).1 ha)) his, rfl⟩
      rw [if_neg c] at h
      clear c
      by_cases c : n = str! "via_dia"
      · rw [if_pos c] at h
        subst c
        obtain ⟨a, ha, h⟩ := Res.bind_eq_ok.1 h
        obtain ⟨is, his, rfl⟩ := (ih _ _).1 h
        exact ⟨.viaDia a :: is, .cons (.viaDia ((single_iff num_iff _ _ _).1 ha)) his, rfl⟩
      rw [if_neg c] at h
      clear c
      by_cases c : n = str! "via_drill"
      · rw [if_pos c] at h
        subst c
        obtain ⟨a, ha, h⟩ := Res.bind_eq_ok.1 h
        obtain ⟨is, his, rfl⟩ := (ih _ _).1 h
        exact ⟨.viaDrill a :: is, .cons (.viaDrill ((single_iff num_iff _ _ _).1 ha)) his, rfl⟩
      rw [if_neg c] at h
      clear c
      by_cases c : n = str! "uvia_dia"
      · rw [if_pos c] at h
        subst c
        obtain ⟨a, ha, h⟩ := Res.bind_eq_ok.1 h
        obtain ⟨is, his, rfl⟩ := (ih _ _).1 h
        exact ⟨.uviaDia a :: is, .cons (.uviaDia ((single_iff num_iff _ _ _).1 ha)) his, rfl⟩
      rw [if_neg c] at h
      clear c
      by_cases c : n = str! "uvia_drill"
      · rw [if_pos c] at h
        subst c
        obtain ⟨a, ha, h⟩ := Res.bind_eq_ok.1 h
        obtain ⟨is, his, rfl⟩ := (ih _ _).1 h
        exact ⟨.uviaDrill a :: is, .cons (.uviaDrill ((single_iff num_iff _ _ _).1 ha)) his, rfl⟩
      rw [if_neg c] at h
      clear c
      by_cases c : n = str! "diff_pair_gap"
      · rw [if_pos c] at h
        subst c
        obtain ⟨a, ha, h⟩ := Res.bind_eq_ok.1 h
        obtain ⟨is, his, rfl⟩ := (ih _ _).1 h
        exact ⟨.diffPairGap a :: is, .cons (.diffPairGap ((single_iff num_iff _ _ _).1 ha)) his, rfl⟩
      rw [if_neg c] at h
      clear c
      by_cases c : n = str! "diff_pair_width"
      · rw [if_pos c] at h
        subst c
        obtain ⟨a, ha, h⟩ := Res.bind_eq_ok.1 h
        obtain ⟨is, his, rfl⟩ := (ih _ _).1 h
        exact ⟨.diffPairWidth a :: is, .cons (.diffPairWidth ((single_iff num_iff _ _ _).1 ha)) his, rfl⟩
      rw [if_neg c] at h
      clear c
      cases h
    · rintro ⟨is, h, rfl⟩
      cases h with
      | @cons _ _ it is' h1 h2 =>
        have hs := fun s => (ih s _).2 ⟨is', h2, rfl⟩
        cases h1 with
        | @addNet w h =>
          obtain ⟨v, rfl, hv⟩ := h
          obtain rfl := hv
          exact hs _
        | @clearance a h =>
          have h' := (single_iff num_iff _ _ _).2 h
          obtain ⟨v, rfl, _⟩ := h
          show (single (str! "clearance") flt _ >>= fun f => NetClass.fill { s with clearance := f } l) = _
          rw [h', Res.bind_ok]
          exact hs _
        | @traceWidth a h =>
          have h' := (single_iff num_iff _ _ _).2 h
          obtain ⟨v, rfl, _⟩ := h
          show (single (str! "trace_width") flt _ >>= fun f => NetClass.fill { s with traceWidth := f } l) = _
          rw [h', Res.bind_ok]
          exact hs _
        | @viaDia a h =>
          have h' := (single_iff num_iff _ _ _).2 h
          obtain ⟨v, rfl, _⟩ := h
          show (single (str! "via_dia") flt _ >>= fun f => NetClass.fill { s with viaDia := f } l) = _
          rw [h', Res.bind_ok]
          exact hs _
        | @viaDrill a h =>
          have h' := (single_iff num_iff _ _ _).2 h
          obtain ⟨v, rfl, _⟩ := h
          show (single (str! "via_drill") flt _ >>= fun f => NetClass.fill { s with viaDrill := f } l) = _
          rw [h', Res.bind_ok]
          exact hs _
        | @uviaDia a h =>
          have h' := (single_iff num_iff _ _ _).2 h
          obtain ⟨v, rfl, _⟩ := h
          show (single (str! "uvia_dia") flt _ >>= fun f => NetClass.fill { s with uviaDia := f } l) = _
          rw [h', Res.bind_ok]
          exact hs _
        | @uviaDrill a h =>
          have h' := (single_iff num_iff _ _ _).2 h
          obtain ⟨v, rfl, _⟩ := h
          show (single (str! "uvia_drill") flt _ >>= fun f => NetClass.fill { s with uviaDrill := f } l) = _
          rw [h', Res.bind_ok]
          exact hs _
        | @diffPairGap a h =>
          have h' := (single_iff num_iff _ _ _).2 h
          obtain ⟨v, rfl, _⟩ := h
          show (single (str! "diff_pair_gap") flt _ >>= fun f => NetClass.fill { s with diffPairGap := some f } l) = _
          rw [h', Res.bind_ok]
          exact hs _
        | @diffPairWidth a h =>
          have h' := (single_iff num_iff _ _ _).2 h
          obtain ⟨v, rfl, _⟩ := h
          show (single (str! "diff_pair_width") flt _ >>= fun f => NetClass.fill { s with diffPairWidth := some f } l) = _
          rw [h', Res.bind_ok]
          exact hs _

theorem getLast?_cons_getD {α : Type} (x : α) (l : List α) (d : α) : (x :: l).getLast?.getD d = l.getLast?.getD x := by
  cases l with
  | nil => rfl
  | cons y l => simp [List.getLast?_cons]

theorem netClass_foldl (is : List (NetClassItem F)) (n : NetClass F) : is.foldl withItem n =
    { name := n.name, desc := n.desc
      clearance := (is.filterMap NetClassItem.clearance?).getLast?.getD n.clearance
      traceWidth := (is.filterMap NetClassItem.traceWidth?).getLast?.getD n.traceWidth
      viaDia := (is.filterMap NetClassItem.viaDia?).getLast?.getD n.viaDia
      viaDrill := (is.filterMap NetClassItem.viaDrill?).getLast?.getD n.viaDrill
      uviaDia := (is.filterMap NetClassItem.uviaDia?).getLast?.getD n.uviaDia
      uviaDrill := (is.filterMap NetClassItem.uviaDrill?).getLast?.getD n.uviaDrill
      diffPairGap := (is.filterMap NetClassItem.diffPairGap?).getLast?.or n.diffPairGap
      diffPairWidth := (is.filterMap NetClassItem.diffPairWidth?).getLast?.or n.diffPairWidth
      nets := n.nets ++ is.filterMap NetClassItem.addNet? } := by
  induction is generalizing n with
  | nil => simp
  | cons i is ih =>
    rw [List.foldl_cons, ih]
    cases i <;>
      simp [withItem, List.filterMap_cons, NetClassItem.clearance?, NetClassItem.traceWidth?, NetClassItem.viaDia?,
        NetClassItem.viaDrill?, NetClassItem.uviaDia?, NetClassItem.uviaDrill?, NetClassItem.diffPairGap?,
        NetClassItem.diffPairWidth?, NetClassItem.addNet?, getLast?_cons_getD, Fp.getLast?_cons_or]

theorem netClass_iff (e : Sexp) (s : NetClass F) : NetClass.de e = .ok s ↔ NetClassTree e s := by
  unfold NetClass.de NetClassTree
  constructor
  · intro h0
    obtain ⟨i0, hi, h0⟩ := Res.bind_eq_ok.1 h0
    obtain ⟨⟨x1, i1⟩, h1, h0⟩ := Res.bind_eq_ok.1 h0
    obtain ⟨⟨x2, i2⟩, h2, h0⟩ := Res.bind_eq_ok.1 h0
    obtain ⟨is, his, rfl⟩ := (netClassFill_iff ..).1 h0
    rw [iter_iff] at hi
    obtain ⟨p1, rfl, g1⟩ := (eat_iff ..).1 h1
    obtain ⟨p2, rfl, g2⟩ := (eat_iff ..).1 h2
    rw [string_iff] at g1 g2
    subst g1 g2
    rw [netClass_foldl]
    exact ⟨i2, is, hi, his, by simp⟩
  · rintro ⟨i, is, rfl, h, g1, g2, g3, g4, g5, g6, g7, g8, g9⟩
    simp only [(iter_iff ..).2 rfl, Res.bind_ok, eat, string_str]
    refine (netClassFill_iff ..).2 ⟨is, h, ?_⟩
    rw [netClass_foldl]
    obtain ⟨n, d, a, b, c, e, f, g, h, i, j⟩ := s
    simp only at g1 g2 g3 g4 g5 g6 g7 g8 g9
    simp [g1, g2, g3, g4, g5, g6, g7, g8, g9]

/-! ## Zones -/

theorem allowed_iff (e : Sexp) (b : Bool) : AllowedTree e b ↔ ∃ w, e = .str w ∧ b = !startsWith w (str! "not") := by
  unfold AllowedTree
  constructor
  · rintro ⟨w, rfl, h⟩
    refine ⟨w, rfl, ?_⟩
    cases b with
    | false =>
      obtain ⟨r, rfl⟩ := h.1 rfl
      rfl
    | true =>
      cases hs : startsWith w (str! "not") with
      | false => rfl
      | true =>
        obtain ⟨r, hr⟩ := List.isPrefixOf_iff_prefix.1 hs
        cases h.2 ⟨r, hr.symm⟩
  · rintro ⟨w, rfl, rfl⟩
    refine ⟨w, rfl, ?_⟩
    constructor
    · intro h
      have hs : startsWith w (str! "not") = true := by simpa using h
      obtain ⟨r, hr⟩ := List.isPrefixOf_iff_prefix.1 hs
      exact ⟨r, hr.symm⟩
    · rintro ⟨r, rfl⟩
      rfl

theorem keepout_iff (e : Sexp) (v : Keepout) : Keepout.de e = .ok v ↔ KeepoutTree e v := by
  unfold Keepout.de KeepoutTree
  constructor
  · intro h0
    obtain ⟨i0, hi, h0⟩ := Res.bind_eq_ok.1 h0
    obtain ⟨⟨x1, i1⟩, h1, h0⟩ := Res.bind_eq_ok.1 h0
    obtain ⟨⟨x2, i2⟩, h2, h0⟩ := Res.bind_eq_ok.1 h0
    obtain ⟨⟨x3, i3⟩, h3, h0⟩ := Res.bind_eq_ok.1 h0
    obtain ⟨rfl, rfl⟩ := (close_iff ..).1 h0
    rw [iter_iff] at hi
    obtain ⟨p1, rfl, g1⟩ := (eat_iff ..).1 h1
    obtain ⟨p2, rfl, g2⟩ := (eat_iff ..).1 h2
    obtain ⟨p3, rfl, g3⟩ := (eat_iff ..).1 h3
    obtain ⟨v1, e1, g1⟩ := (inList_iff string_iff _ _ _).1 g1
    obtain ⟨v2, e2, g2⟩ := (inList_iff string_iff _ _ _).1 g2
    obtain ⟨v3, e3, g3⟩ := (inList_iff string_iff _ _ _).1 g3
    exact ⟨p1, p2, p3, hi, ⟨v1, e1, (allowed_iff ..).2 ⟨_, g1, rfl⟩⟩, ⟨v2, e2, (allowed_iff ..).2 ⟨_, g2, rfl⟩⟩,
      ⟨v3, e3, (allowed_iff ..).2 ⟨_, g3, rfl⟩⟩⟩
  · rintro ⟨p1, p2, p3, rfl, ⟨v1, rfl, g1⟩, ⟨v2, rfl, g2⟩, ⟨v3, rfl, g3⟩⟩
    obtain ⟨w1, rfl, h1⟩ := (allowed_iff ..).1 g1
    obtain ⟨w2, rfl, h2⟩ := (allowed_iff ..).1 g2
    obtain ⟨w3, rfl, h3⟩ := (allowed_iff ..).1 g3
    obtain ⟨a, b, c⟩ := v
    simp only at h1 h2 h3
    subst h1 h2 h3
    rfl

theorem keepout_head (x : Sexp) (a : Keepout) (h : KeepoutTree x a) : headOf x ∈ [some (str! "keepout")] := by
  obtain ⟨_, _, _, rfl, _⟩ := h; simp [headOf]

/-- The zone after one more item. -/
def withZoneItem (z : Zone F) : ZoneItem F → Zone F
  | .polygon p => { z with polygons := z.polygons ++ [p] }
  | .filledPolygon p => { z with filledPolygons := z.filledPolygons ++ [p] }
  | .fillSegments p => { z with fillSegments := some p }
  | .other e => { z with other := z.other ++ [e] }

theorem named_ne {α : Type} {P : Sexp → α → Prop} {n m : Str} (h : n ≠ m) {e : Sexp} {a b : α} (ha : Named n P e a) :
    ¬ Named m P e b := by
  rintro ⟨v, hv, _⟩
  obtain ⟨w, rfl, _⟩ := ha
  cases hv
  exact h rfl

theorem single_or {α : Type} {dec : Sexp → Res α} {P : Sexp → α → Prop} (hd : ∀ x a, dec x = .ok a ↔ P x a)
    (n : Str) (e : Sexp) : (∃ a, single n dec e = .ok a ∧ Named n P e a) ∨ ((∀ a, single n dec e ≠ .ok a) ∧ ∀ a, ¬ Named n P e a) := by
  cases h : single n dec e with
  | ok a => exact .inl ⟨a, rfl, (single_iff hd ..).1 h⟩
  | err x => exact .inr ⟨by simp, fun a ha => by rw [(single_iff hd ..).2 ha] at h; cases h⟩
  | panic => exact .inr ⟨by simp, fun a ha => by rw [(single_iff hd ..).2 ha] at h; cases h⟩
  | diverge => exact .inr ⟨by simp, fun a ha => by rw [(single_iff hd ..).2 ha] at h; cases h⟩

theorem zoneStep (z : Zone F) (x : Sexp) (r : List Sexp) :
    ∃ it, ZoneItemTree x it ∧ Zone.fillRest z (x :: r) = Zone.fillRest (withZoneItem z it) r := by
  rw [Zone.fillRest]
  rcases single_or (Fp.pts_iff (F := F)) (str! "polygon") x with ⟨p, hp, hn⟩ | ⟨hp, hn1⟩
  · exact ⟨.polygon p, .polygon hn, by rw [hp]; rfl⟩
  rcases single_or (Fp.pts_iff (F := F)) (str! "filled_polygon") x with ⟨p, hp2, hn⟩ | ⟨hp2, hn2⟩
  · refine ⟨.filledPolygon p, .filledPolygon hn, ?_⟩
    split
    · rename_i hh; exact absurd hh (hp _)
    · rw [hp2]; rfl
  rcases single_or (Fp.pts_iff (F := F)) (str! "fill_segments") x with ⟨p, hp3, hn⟩ | ⟨hp3, hn3⟩
  · refine ⟨.fillSegments p, .fillSegments hn, ?_⟩
    split
    · rename_i hh; exact absurd hh (hp _)
    · split
      · rename_i hh; exact absurd hh (hp2 _)
      · rw [hp3]; rfl
  · refine ⟨.other x, .other ?_, ?_⟩
    · intro n hn p
      simp only [List.mem_cons, List.not_mem_nil, or_false] at hn
      rcases hn with rfl | rfl | rfl
      · exact hn1 p
      · exact hn2 p
      · exact hn3 p
    · split
      · rename_i hh; exact absurd hh (hp _)
      · split
        · rename_i hh; exact absurd hh (hp2 _)
        · split
          · rename_i hh; exact absurd hh (hp3 _)
          · rfl

theorem named_unique {α : Type} {dec : Sexp → Res α} {P : Sexp → α → Prop} (hd : ∀ x a, dec x = .ok a ↔ P x a) {n : Str}
    {e : Sexp} {a b : α} (ha : Named n P e a) (hb : Named n P e b) : a = b := by
  have h1 := (single_iff hd ..).2 ha
  rw [(single_iff hd ..).2 hb] at h1
  exact (Res.ok.inj h1).symm

theorem zoneItem_unique (x : Sexp) (a b : ZoneItem F) (ha : ZoneItemTree x a) (hb : ZoneItemTree x b) : a = b := by
  cases ha with
  | polygon h =>
    cases hb with
    | polygon h' => rw [named_unique Fp.pts_iff h h']
    | filledPolygon h' => exact absurd h' (named_ne (by decide) h)
    | fillSegments h' => exact absurd h' (named_ne (by decide) h)
    | other h' => exact absurd h (h' _ (by simp) _)
  | filledPolygon h =>
    cases hb with
    | polygon h' => exact absurd h' (named_ne (by decide) h)
    | filledPolygon h' => rw [named_unique Fp.pts_iff h h']
    | fillSegments h' => exact absurd h' (named_ne (by decide) h)
    | other h' => exact absurd h (h' _ (by simp) _)
  | fillSegments h =>
    cases hb with
    | polygon h' => exact absurd h' (named_ne (by decide) h)
    | filledPolygon h' => exact absurd h' (named_ne (by decide) h)
    | fillSegments h' => rw [named_unique Fp.pts_iff h h']
    | other h' => exact absurd h (h' _ (by simp) _)
  | other h =>
    cases hb with
    | polygon h' => exact absurd h' (h _ (by simp) _)
    | filledPolygon h' => exact absurd h' (h _ (by simp) _)
    | fillSegments h' => exact absurd h' (h _ (by simp) _)
    | other h' => rfl

theorem zoneRest (l : List Sexp) (z : Zone F) :
    ∃ is, Many ZoneItemTree l is ∧ Zone.fillRest z l = is.foldl withZoneItem z := by
  induction l generalizing z with
  | nil => exact ⟨[], .nil, rfl⟩
  | cons x l ih =>
    obtain ⟨it, h1, h2⟩ := zoneStep z x l
    obtain ⟨is, h3, h4⟩ := ih (withZoneItem z it)
    exact ⟨it :: is, .cons h1 h3, by rw [h2, h4]; rfl⟩

theorem many_unique {α : Type} {P : Sexp → α → Prop} (hu : ∀ x a b, P x a → P x b → a = b) {l : List Sexp} {as bs : List α}
    (ha : Many P l as) (hb : Many P l bs) : as = bs := by
  induction ha generalizing bs with
  | nil => cases hb; rfl
  | cons h1 h2 ih => cases hb with | cons h3 h4 => rw [hu _ _ _ h1 h3, ih h4]

theorem zoneRest_eq (l : List Sexp) (z : Zone F) (is : List (ZoneItem F)) (h : Many ZoneItemTree l is) :
    Zone.fillRest z l = is.foldl withZoneItem z := by
  obtain ⟨is', h1, h2⟩ := zoneRest l z
  rw [many_unique zoneItem_unique h h1]
  exact h2

theorem zone_foldl (is : List (ZoneItem F)) (z : Zone F) : is.foldl withZoneItem z =
    { z with
      polygons := z.polygons ++ is.filterMap ZoneItem.polygon?
      filledPolygons := z.filledPolygons ++ is.filterMap ZoneItem.filledPolygon?
      fillSegments := (is.filterMap ZoneItem.fillSegments?).getLast?.or z.fillSegments
      other := z.other ++ is.filterMap ZoneItem.other? } := by
  induction is generalizing z with
  | nil => simp
  | cons i is ih =>
    rw [List.foldl_cons, ih]
    cases i <;>
      simp [withZoneItem, List.filterMap_cons, ZoneItem.polygon?, ZoneItem.filledPolygon?, ZoneItem.fillSegments?,
        ZoneItem.other?, Fp.getLast?_cons_or]

theorem asU64_eq (i : Int) (n : Nat) : n = asU64 i ↔ (n : Int) = i % 18446744073709551616 := by
  unfold asU64
  omega

theorem zone_iff (e : Sexp) (z : Zone F) : Zone.de e = .ok z ↔ ZoneTree e z := by
  unfold Zone.de ZoneTree
  constructor
  · intro h0
    obtain ⟨i0, hi, h0⟩ := Res.bind_eq_ok.1 h0
    obtain ⟨⟨x1, i1⟩, h1, h0⟩ := Res.bind_eq_ok.1 h0
    obtain ⟨⟨x2, i2⟩, h2, h0⟩ := Res.bind_eq_ok.1 h0
    obtain ⟨⟨x3, i3⟩, h3, h0⟩ := Res.bind_eq_ok.1 h0
    obtain ⟨⟨x4, i4⟩, h4, h0⟩ := Res.bind_eq_ok.1 h0
    obtain ⟨⟨x5, i5⟩, h5, h0⟩ := Res.bind_eq_ok.1 h0
    obtain ⟨⟨x6, i6⟩, h6, h0⟩ := Res.bind_eq_ok.1 h0
    obtain ⟨⟨x7, i7⟩, h7, h0⟩ := Res.bind_eq_ok.1 h0
    obtain ⟨⟨x8, i8⟩, h8, h0⟩ := Res.bind_eq_ok.1 h0
    obtain ⟨⟨x9, i9⟩, h9, h0⟩ := Res.bind_eq_ok.1 h0
    obtain ⟨⟨x10, i10⟩, h10, h0⟩ := Res.bind_eq_ok.1 h0
    have hz := Res.ok.inj h0
    clear h0
    obtain ⟨is, his, hf⟩ := zoneRest i10 (⟨x1, x2, x3, x4, x5, asU64 (x6.getD 0), x7, x8, x9, x10, [], [], none, []⟩ : Zone F)
    rw [show Zone.fillRest _ _ = _ from hf, zone_foldl] at hz
    subst hz
    rw [iter_iff] at hi
    obtain ⟨p1, rfl, g1⟩ := (eat_iff ..).1 h1
    obtain ⟨p2, rfl, g2⟩ := (eat_iff ..).1 h2
    obtain ⟨p3, rfl, g3⟩ := (eat_iff ..).1 h3
    obtain ⟨p4, rfl, g4⟩ := (eat_iff ..).1 h4
    obtain ⟨p5, rfl, g5⟩ := (eat_iff ..).1 h5
    obtain ⟨p6, rfl, g6⟩ := maybe_split (inList_iff int_iff _) h6
    obtain ⟨p7, rfl, g7⟩ := (eat_iff ..).1 h7
    obtain ⟨p8, rfl, g8⟩ := (eat_iff ..).1 h8
    obtain ⟨p9, rfl, g9⟩ := maybe_split keepout_iff h9
    obtain ⟨p10, rfl, g10⟩ := (eat_iff ..).1 h10
    exact ⟨p1, p2, p3, p4, p5, p6, p7, p8, p9, p10, i10, x6, is, hi, (inList_iff int_iff _ _ _).1 g1,
      (inList_iff Fp.word_iff _ _ _).1 g2, (Fp.layer_iff ..).1 g3, (inList_iff Fp.word_iff _ _ _).1 g4, (hatch_iff ..).1 g5, g6,
      (connectPads_iff ..).1 g7, (inList_iff num_iff _ _ _).1 g8, g9, (fill_iff ..).1 g10, his, (asU64_eq _ _).1 rfl,
      by simp, by simp, by simp, by simp⟩
  · rintro ⟨p1, p2, p3, p4, p5, p6, p7, p8, p9, p10, l, o, is, rfl, g1, g2, g3, g4, g5, g6, g7, g8, g9, g10, his, d1, d2, d3, d4, d5⟩
    have e9 := maybe_take keepout_iff Keepout.de_calm g9
      (free_of_heads keepout_head (heads_cons fill_head g10 l) (by decide))
    have e6 := maybe_take (inList_iff int_iff (str! "priority")) (inList_calm int_calm _) g6
      (free_of_heads (named_head _ _) (heads_cons connectPads_head g7 (p8 :: (p9 ++ p10 :: l))) (by decide))
    rw [← asU64_eq] at d1
    simp only [(iter_iff ..).2 rfl, Res.bind_ok, eat, (inList_iff int_iff _ _ _).2 g1,
      (inList_iff Fp.word_iff _ _ _).2 g2, (Fp.layer_iff ..).2 g3, (inList_iff Fp.word_iff _ _ _).2 g4, (hatch_iff ..).2 g5, e6,
      (connectPads_iff ..).2 g7, (inList_iff num_iff _ _ _).2 g8, e9, (fill_iff ..).2 g10, zoneRest_eq _ _ _ his, zone_foldl]
    obtain ⟨z1, z2, z3, z4, z5, z6, z7, z8, z9, z10, z11, z12, z13, z14⟩ := z
    simp only at d1 d2 d3 d4 d5
    simp [d1, d2, d3, d4, d5]

/-! ## Vias -/

theorem via_iff (e : Sexp) (v : Via F) : Via.de e = .ok v ↔ ViaTree e v := by
  unfold Via.de ViaTree
  constructor
  · intro h0
    obtain ⟨i0, hi, h0⟩ := Res.bind_eq_ok.1 h0
    obtain ⟨⟨x1, i1⟩, h1, h0⟩ := Res.bind_eq_ok.1 h0
    obtain ⟨⟨x2, i2⟩, h2, h0⟩ := Res.bind_eq_ok.1 h0
    obtain ⟨⟨x3, i3⟩, h3, h0⟩ := Res.bind_eq_ok.1 h0
    obtain ⟨⟨x4, i4⟩, h4, h0⟩ := Res.bind_eq_ok.1 h0
    obtain ⟨⟨x5, i5⟩, h5, h0⟩ := Res.bind_eq_ok.1 h0
    obtain ⟨⟨x6, i6⟩, h6, h0⟩ := Res.bind_eq_ok.1 h0
    obtain ⟨⟨x7, i7⟩, h7, h0⟩ := Res.bind_eq_ok.1 h0
    obtain ⟨rfl, rfl⟩ := (close_iff ..).1 h0
    rw [iter_iff] at hi
    obtain ⟨p1, rfl, g1⟩ := maybe_split (literal_iff _) h1
    obtain ⟨p2, rfl, g2⟩ := maybe_split (literal_iff _) h2
    obtain ⟨p3, rfl, g3⟩ := (eat_iff ..).1 h3
    obtain ⟨p4, rfl, g4⟩ := (eat_iff ..).1 h4
    obtain ⟨p5, rfl, g5⟩ := maybe_split (inList_iff num_iff _) h5
    obtain ⟨p6, rfl, g6⟩ := (eat_iff ..).1 h6
    obtain ⟨p7, rfl, g7⟩ := maybe_split (inList_iff int_iff _) h7
    rw [List.append_nil] at hi
    exact ⟨p1, p2, p3, p4, p5, p6, p7, x5, x7, hi, (opt_word ..).2 ⟨_, g1, rfl⟩, (opt_word ..).2 ⟨_, g2, rfl⟩,
      (Fp.at_iff ..).1 g3, (inList_iff num_iff _ _ _).1 g4, g5, (Fp.layers_iff ..).1 g6, g7, rfl, rfl⟩
  · rintro ⟨p1, p2, p3, p4, p5, p6, p7, x5, x7, rfl, g1, g2, g3, g4, g5, g6, g7, d5, d7⟩
    have e7 := maybe_take (inList_iff int_iff (str! "net")) (inList_calm int_calm _) g7 (free_nil _)
    rw [List.append_nil] at e7
    have e5 := maybe_take (inList_iff num_iff (str! "drill")) (inList_calm flt_calm _) g5
      (free_of_heads (named_head _ _) (heads_cons Fp.layers_head g6 p7) (by decide))
    have hq := heads_cons Fp.at_head g3 (p4 :: (p5 ++ p6 :: p7))
    obtain ⟨o2, g2', d2⟩ := (opt_word ..).1 g2
    obtain ⟨o1, g1', d1⟩ := (opt_word ..).1 g1
    have e2 := maybe_take (literal_iff (str! "micro")) (literal_calm _) g2' (free_of_heads (word_head _) hq (by decide))
    have e1 := maybe_take (literal_iff (str! "blind")) (literal_calm _) g1' (rest := p2 ++ p3 :: p4 :: (p5 ++ p6 :: p7)) (by
      rcases g2' with ⟨rfl, _⟩ | ⟨x, a, rfl, ⟨rfl, _⟩, _⟩
      · exact free_of_heads (word_head _) hq (by decide)
      · intro x r e b hb
        cases e
        exact absurd hb.1 (by simp))
    simp only [(iter_iff ..).2 rfl, Res.bind_ok, eat, e1, e2, (Fp.at_iff ..).2 g3, (inList_iff num_iff _ _ _).2 g4, e5,
      (Fp.layers_iff ..).2 g6, e7, close_nil]
    obtain ⟨z1, z2, z3, z4, z5, z6, z7⟩ := v
    simp only at d1 d2 d5 d7
    subst d1 d2 d5 d7
    rfl

/-! ## Boards -/

/-- The board after one more part. -/
def withBoardItem (b : Layout F) : BoardPart F → Layout F
  | .version x => { b with version := x }
  | .host x => { b with host := x }
  | .general x => { b with general := x }
  | .page x => { b with page := x }
  | .layers x => { b with layers := x }
  | .setup x => { b with setup := x }
  | .element x => { b with elements := b.elements ++ [x] }

/-- A reader that begins with `iter` accepts only lists with its name. -/
theorem bind_head {α : Type} {n : Str} {e : Sexp} {k : List Sexp → Res α} {a : α} (h : (iter n e >>= k) = .ok a) :
    ∃ r, e = .list (.str n :: r) := by
  obtain ⟨i, hi, _⟩ := Res.bind_eq_ok.1 h
  exact ⟨i, (iter_iff ..).1 hi⟩

theorem bind_step {α β : Type} {x : Res α} {a : α} (h : x = .ok a) (f : α → β) : (x >>= fun v => Res.ok (f v)) = .ok (f a) := by
  rw [h]; rfl

theorem step_iff (b b' : Layout F) (e : Sexp) : b.step e = .ok b' ↔ ∃ it, BoardPartTree e it ∧ b' = withBoardItem b it := by
  unfold Layout.step
  constructor
  · intro h
    obtain ⟨n, hn, h⟩ := Res.bind_eq_ok.1 h
    dsimp only at h
    obtain ⟨r, rfl⟩ := (listName_iff ..).1 hn
    clear hn
    by_cases c0 : n = str! "version"
    · rw [if_pos c0] at h
      subst c0
      obtain ⟨a, ha, h⟩ := Res.bind_eq_ok.1 h
      cases h
      exact ⟨_, .version ((single_iff int_iff _ _ _).1 ha), rfl⟩
    rw [if_neg c0] at h
    by_cases c1 : n = str! "host"
    · rw [if_pos c1] at h
      subst c1
      obtain ⟨a, ha, h⟩ := Res.bind_eq_ok.1 h
      cases h
      exact ⟨_, .host ((host_iff ..).1 ha), rfl⟩
    rw [if_neg c1] at h
    by_cases c2 : n = str! "general"
    · rw [if_pos c2] at h
      subst c2
      obtain ⟨a, ha, h⟩ := Res.bind_eq_ok.1 h
      cases h
      exact ⟨_, .general ((general_iff ..).1 ha), rfl⟩
    rw [if_neg c2] at h
    by_cases c3 : n = str! "page"
    · rw [if_pos c3] at h
      subst c3
      obtain ⟨a, ha, h⟩ := Res.bind_eq_ok.1 h
      cases h
      exact ⟨_, .page ((single_iff Fp.word_iff _ _ _).1 ha), rfl⟩
    rw [if_neg c3] at h
    by_cases c4 : n = str! "layers"
    · rw [if_pos c4] at h
      subst c4
      obtain ⟨a, ha, h⟩ := Res.bind_eq_ok.1 h
      cases h
      exact ⟨_, .layers ((boardLayers_iff ..).1 ha), rfl⟩
    rw [if_neg c4] at h
    by_cases c5 : n = str! "module"
    · rw [if_pos c5] at h
      subst c5
      obtain ⟨a, ha, h⟩ := Res.bind_eq_ok.1 h
      cases h
      exact ⟨_, .module_ ((Fp.module_iff ..).1 ha), rfl⟩
    rw [if_neg c5] at h
    by_cases c6 : n = str! "net"
    · rw [if_pos c6] at h
      subst c6
      obtain ⟨a, ha, h⟩ := Res.bind_eq_ok.1 h
      cases h
      exact ⟨_, .net ((Fp.net_iff ..).1 ha), rfl⟩
    rw [if_neg c6] at h
    by_cases c7 : n = str! "net_class"
    · rw [if_pos c7] at h
      subst c7
      obtain ⟨a, ha, h⟩ := Res.bind_eq_ok.1 h
      cases h
      exact ⟨_, .netClass ((netClass_iff ..).1 ha), rfl⟩
    rw [if_neg c7] at h
    by_cases c8 : n = str! "gr_text"
    · rw [if_pos c8] at h
      subst c8
      obtain ⟨a, ha, h⟩ := Res.bind_eq_ok.1 h
      cases h
      exact ⟨_, .grText ((grText_iff ..).1 ha), rfl⟩
    rw [if_neg c8] at h
    by_cases c9 : n = str! "gr_line"
    · rw [if_pos c9] at h
      subst c9
      obtain ⟨a, ha, h⟩ := Res.bind_eq_ok.1 h
      cases h
      exact ⟨_, .grLine ((grLine_iff ..).1 ha), rfl⟩
    rw [if_neg c9] at h
    by_cases c10 : n = str! "gr_arc"
    · rw [if_pos c10] at h
      subst c10
      obtain ⟨a, ha, h⟩ := Res.bind_eq_ok.1 h
      cases h
      exact ⟨_, .grArc ((grArc_iff ..).1 ha), rfl⟩
    rw [if_neg c10] at h
    by_cases c11 : n = str! "gr_circle"
    · rw [if_pos c11] at h
      subst c11
      obtain ⟨a, ha, h⟩ := Res.bind_eq_ok.1 h
      cases h
      exact ⟨_, .grCircle ((grCircle_iff ..).1 ha), rfl⟩
    rw [if_neg c11] at h
    by_cases c12 : n = str! "dimension"
    · rw [if_pos c12] at h
      subst c12
      obtain ⟨a, ha, h⟩ := Res.bind_eq_ok.1 h
      cases h
      exact ⟨_, .dimension ((dimension_iff ..).1 ha), rfl⟩
    rw [if_neg c12] at h
    by_cases c13 : n = str! "zone"
    · rw [if_pos c13] at h
      subst c13
      obtain ⟨a, ha, h⟩ := Res.bind_eq_ok.1 h
      cases h
      exact ⟨_, .zone ((zone_iff ..).1 ha), rfl⟩
    rw [if_neg c13] at h
    by_cases c14 : n = str! "segment"
    · rw [if_pos c14] at h
      subst c14
      obtain ⟨a, ha, h⟩ := Res.bind_eq_ok.1 h
      cases h
      exact ⟨_, .segment ((segment_iff ..).1 ha), rfl⟩
    rw [if_neg c14] at h
    by_cases c15 : n = str! "via"
    · rw [if_pos c15] at h
      subst c15
      obtain ⟨a, ha, h⟩ := Res.bind_eq_ok.1 h
      cases h
      exact ⟨_, .via ((via_iff ..).1 ha), rfl⟩
    rw [if_neg c15] at h
    by_cases c16 : n = str! "setup"
    · rw [if_pos c16] at h
      subst c16
      obtain ⟨a, ha, h⟩ := Res.bind_eq_ok.1 h
      cases h
      exact ⟨_, .setup ((setup_iff ..).1 ha), rfl⟩
    rw [if_neg c16] at h
    cases h
    refine ⟨_, .other ?_, rfl⟩
    simp only [boardPartNames, List.mem_cons, List.not_mem_nil, or_false, not_or]
    exact ⟨c0, c1, c2, c3, c4, c5, c6, c7, c8, c9, c10, c11, c12, c13, c14, c15, c16⟩
  · rintro ⟨it, h, rfl⟩
    cases h with
    | @version _ a h =>
      have h' := (single_iff int_iff _ _ _).2 h
      obtain ⟨r, rfl⟩ : ∃ r, e = .list (.str (str! "version") :: r) := bind_head h'
      exact bind_step h' _
    | @host _ a h =>
      have h' := (host_iff ..).2 h
      obtain ⟨r, rfl⟩ : ∃ r, e = .list (.str (str! "host") :: r) := bind_head h'
      exact bind_step h' _
    | @general _ a h =>
      have h' := (general_iff ..).2 h
      obtain ⟨r, rfl⟩ : ∃ r, e = .list (.str (str! "general") :: r) := bind_head h'
      exact bind_step h' _
    | @page _ a h =>
      have h' := (single_iff Fp.word_iff _ _ _).2 h
      obtain ⟨r, rfl⟩ : ∃ r, e = .list (.str (str! "page") :: r) := bind_head h'
      exact bind_step h' _
    | @layers _ a h =>
      have h' := (boardLayers_iff ..).2 h
      obtain ⟨r, rfl⟩ : ∃ r, e = .list (.str (str! "layers") :: r) := bind_head h'
      exact bind_step h' _
    | @module_ _ a h =>
      have h' := (Fp.module_iff ..).2 h
      obtain ⟨r, rfl⟩ : ∃ r, e = .list (.str (str! "module") :: r) := bind_head h'
      exact bind_step h' _
    | @net _ a h =>
      have h' := (Fp.net_iff ..).2 h
      obtain ⟨r, rfl⟩ : ∃ r, e = .list (.str (str! "net") :: r) := bind_head h'
      exact bind_step h' _
    | @netClass _ a h =>
      have h' := (netClass_iff ..).2 h
      obtain ⟨r, rfl⟩ : ∃ r, e = .list (.str (str! "net_class") :: r) := bind_head h'
      exact bind_step h' _
    | @grText _ a h =>
      have h' := (grText_iff ..).2 h
      obtain ⟨r, rfl⟩ : ∃ r, e = .list (.str (str! "gr_text") :: r) := bind_head h'
      exact bind_step h' _
    | @grLine _ a h =>
      have h' := (grLine_iff ..).2 h
      obtain ⟨r, rfl⟩ : ∃ r, e = .list (.str (str! "gr_line") :: r) := bind_head h'
      exact bind_step h' _
    | @grArc _ a h =>
      have h' := (grArc_iff ..).2 h
      obtain ⟨r, rfl⟩ : ∃ r, e = .list (.str (str! "gr_arc") :: r) := bind_head h'
      exact bind_step h' _
    | @grCircle _ a h =>
      have h' := (grCircle_iff ..).2 h
      obtain ⟨r, rfl⟩ : ∃ r, e = .list (.str (str! "gr_circle") :: r) := bind_head h'
      exact bind_step h' _
    | @dimension _ a h =>
      have h' := (dimension_iff ..).2 h
      obtain ⟨r, rfl⟩ : ∃ r, e = .list (.str (str! "dimension") :: r) := bind_head h'
      exact bind_step h' _
    | @zone _ a h =>
      have h' := (zone_iff ..).2 h
      obtain ⟨r, rfl⟩ : ∃ r, e = .list (.str (str! "zone") :: r) := bind_head h'
      exact bind_step h' _
    | @segment _ a h =>
      have h' := (segment_iff ..).2 h
      obtain ⟨r, rfl⟩ : ∃ r, e = .list (.str (str! "segment") :: r) := bind_head h'
      exact bind_step h' _
    | @via _ a h =>
      have h' := (via_iff ..).2 h
      obtain ⟨r, rfl⟩ : ∃ r, e = .list (.str (str! "via") :: r) := bind_head h'
      exact bind_step h' _
    | @setup _ a h =>
      have h' := (setup_iff ..).2 h
      obtain ⟨r, rfl⟩ : ∃ r, e = .list (.str (str! "setup") :: r) := bind_head h'
      exact bind_step h' _
    | @other n r h =>
      simp only [boardPartNames, List.mem_cons, List.not_mem_nil, or_false, not_or] at h
      obtain ⟨c0, c1, c2, c3, c4, c5, c6, c7, c8, c9, c10, c11, c12, c13, c14, c15, c16⟩ := h
      rw [(listName_iff _ n).2 ⟨_, rfl⟩, Res.bind_ok]
      dsimp only
      rw [if_neg c0, if_neg c1, if_neg c2, if_neg c3, if_neg c4, if_neg c5, if_neg c6, if_neg c7, if_neg c8, if_neg c9, if_neg c10, if_neg c11, if_neg c12, if_neg c13, if_neg c14, if_neg c15, if_neg c16]
      rfl

theorem boardFill_iff (l : List Sexp) (b b' : Layout F) : Layout.fill b l = .ok b' ↔
    ∃ is, Many BoardPartTree l is ∧ b' = is.foldl withBoardItem b := by
  induction l generalizing b with
  | nil =>
    constructor
    · intro h; cases h; exact ⟨[], .nil, rfl⟩
    · rintro ⟨is, h, rfl⟩; cases h; rfl
  | cons x l ih =>
    rw [Layout.fill]
    simp only [Res.bind_eq_ok, step_iff, ih]
    constructor
    · rintro ⟨b1, ⟨it, h1, rfl⟩, is, h2, rfl⟩
      exact ⟨it :: is, .cons h1 h2, rfl⟩
    · rintro ⟨is, h, rfl⟩
      cases h with
      | cons h1 h2 => exact ⟨_, ⟨_, h1, rfl⟩, _, h2, rfl⟩

theorem board_foldl (is : List (BoardPart F)) (b : Layout F) : is.foldl withBoardItem b =
    { version := (is.filterMap BoardPart.version?).getLast?.getD b.version
      host := (is.filterMap BoardPart.host?).getLast?.getD b.host
      general := (is.filterMap BoardPart.general?).getLast?.getD b.general
      page := (is.filterMap BoardPart.page?).getLast?.getD b.page
      setup := (is.filterMap BoardPart.setup?).getLast?.getD b.setup
      layers := (is.filterMap BoardPart.layers?).getLast?.getD b.layers
      elements := b.elements ++ is.filterMap BoardPart.element? } := by
  induction is generalizing b with
  | nil => simp
  | cons i is ih =>
    rw [List.foldl_cons, ih]
    cases i <;>
      simp [withBoardItem, List.filterMap_cons, BoardPart.version?, BoardPart.host?, BoardPart.general?, BoardPart.page?,
        BoardPart.setup?, BoardPart.layers?, BoardPart.element?, getLast?_cons_getD]

theorem board_iff (e : Sexp) (b : Layout F) : Layout.de e = .ok b ↔ BoardTree e b := by
  unfold Layout.de BoardTree
  simp only [Res.bind_eq_ok, iter_iff, boardFill_iff, board_foldl]
  constructor
  · rintro ⟨i, rfl, is, h, rfl⟩
    exact ⟨i, is, rfl, h, rfl, rfl, rfl, rfl, rfl, rfl, by simp [Layout.dflt]⟩
  · rintro ⟨i, is, rfl, h, h1, h2, h3, h4, h5, h6, h7⟩
    refine ⟨i, rfl, is, h, ?_⟩
    obtain ⟨z1, z2, z3, z4, z5, z6, z7⟩ := b
    simp only at h1 h2 h3 h4 h5 h6 h7
    subst h1 h2 h3 h4 h5 h6 h7
    simp [Layout.dflt, Host.dflt, General.dflt]

end Lay
end Verif
