import Verif.Model.Formatter
import Verif.Spec.Printing
/-!
# The formatter lays files out as specified
-/

namespace Verif
open Spec

namespace Fm

/-- A place as the formatter records it. -/
def ofPlace (p : Place) : Indent := ⟨p.before, p.closeOwn, p.after⟩

/-- The formatter's stack holds the lists with the given heads. -/
def Within (st : St) (anc : List Str) : Prop := st.stack.map (Option.map (·.1)) = anc.map some

theorem Within.is {st : St} {anc : List Str} (h : Within st anc) (w : Str) :
    st.is w = decide (w ∈ anc) := by
  unfold Within at h
  unfold St.is
  generalize st.stack = s at h
  induction s generalizing anc with
  | nil =>
    cases anc with
    | nil => rfl
    | cons => simp at h
  | cons x s ih =>
    cases anc with
    | nil => simp at h
    | cons a anc =>
      simp only [List.map_cons, List.cons.injEq] at h
      obtain ⟨hx, hs⟩ := h
      rcases x with _ | ⟨n, i⟩
      · simp at hx
      · simp only [Option.map_some, Option.some.injEq] at hx
        subst hx
        simp only [List.any_cons, ih hs, List.mem_cons]
        by_cases e : n = w
        · subst e; simp
        · have : ¬ w = n := fun h => e h.symm
          simp [e, this]

theorem Within.parentIs {st : St} {p : Str} {anc : List Str} (h : Within st (p :: anc)) (w : Str) :
    st.parentIs w = decide (p = w) := by
  unfold Within at h
  unfold St.parentIs
  cases hs : st.stack with
  | nil => simp [hs] at h
  | cons x s =>
    rcases x with _ | ⟨n, i⟩
    · simp [hs] at h
    · simp only [hs, List.map_cons, Option.map_some, List.cons.injEq, Option.some.injEq] at h
      simp [h.1]

theorem Within.parentIs_nil {st : St} (h : Within st []) (w : Str) : st.parentIs w = false := by
  unfold Within at h
  unfold St.parentIs
  cases hs : st.stack with
  | nil => rfl
  | cons x s => simp [hs] at h

theorem find_cons {p h : Str} {r : Rule} {rs : List Rule} :
    byRules (r :: rs) p h = if r.applies p h then some r.place else byRules rs p h := by
  unfold byRules
  rw [List.find?_cons]
  cases r.applies p h <;> simp

/-- The formatter's record of a point. -/
theorem pointBreaks_eq {st : St} {anc : List Str} (hw : Within st anc) :
    ((decide (st.ptsXyCount > 0) && st.ptsXyCount % (if st.is (str! "fp_poly") then 4 else 5) == 0) ||
       (st.ptsXyCount == 0 && (st.is (str! "polygon") || st.is (str! "filled_polygon")))) =
    pointBreaks anc st.ptsXyCount := by
  simp only [hw.is, pointBreaks]
  by_cases h0 : st.ptsXyCount = 0
  · simp [h0]
  · have : st.ptsXyCount > 0 := Nat.pos_of_ne_zero h0
    have hb : (st.ptsXyCount == 0) = false := by simpa using h0
    have hd : ∀ k : Nat, (st.ptsXyCount % k == 0) = decide (st.ptsXyCount % k = 0) := by
      intro k
      by_cases e : st.ptsXyCount % k = 0
      · rw [e]; rfl
      · rw [decide_eq_false e]; exact beq_false_of_ne e
    by_cases hf : str! "fp_poly" ∈ anc
    · simp only [hf, h0, this, decide_true, Bool.true_and, if_true, if_false, hb, Bool.false_and,
        Bool.or_false, hd]
    · simp only [hf, h0, this, decide_true, decide_false, Bool.true_and, if_false, hb, Bool.false_and,
        Bool.or_false, hd, Bool.false_eq_true]

theorem wantModule_eq {st : St} {p : Str} {anc : List Str} (hw : Within st (p :: anc)) (nth : Nat)
    (hn : p = str! "pts" → st.ptsXyCount = nth) (h : Str) :
    wantModule st h = (match byRules footprintRules p h with
      | some x => some (ofPlace x)
      | none => if p = str! "pts" ∧ h = str! "xy" ∧ pointBreaks (p :: anc) nth then
          some (ofPlace ownLine) else none) := by
  simp only [wantModule]
  rw [pointBreaks_eq hw]
  simp only [hw.parentIs, footprintRules, find_cons, Rule.applies]
  by_cases h1 : p = str! "module"
  · subst h1
    simp only [decide_true, Bool.true_and, List.mem_singleton]
    by_cases e1 : h ∈ [str! "at", str! "descr", str! "fp_line", str! "fp_poly", str! "pad",
      str! "path", str! "fp_circle", str! "attr"]
    · simp [e1, ofPlace, ownLine, Indent.before, Indent.dflt]
    · by_cases e2 : h ∈ [str! "model", str! "fp_text", str! "gr_text"]
      · simp only [e1, e2, decide_true, decide_false]
        simp [ofPlace, ownBlock, Indent.before, Indent.dflt, Indent.closeOnNewLine]
      · simp only [e1, e2, decide_false]
        simp [byRules]
  by_cases h2 : p = str! "dimension"
  · subst h2
    by_cases e1 : h = str! "gr_text"
    · simp [e1, ofPlace, ownBlock, Indent.before, Indent.dflt, Indent.closeOnNewLine]
    · simp [e1, byRules]
  by_cases h3 : p = str! "fp_text"
  · subst h3
    by_cases e1 : h = str! "effects"
    · simp [e1, ofPlace, ownLine, Indent.before, Indent.dflt]
    · simp [e1, byRules]
  by_cases h4 : p = str! "gr_text"
  · subst h4
    by_cases e1 : h = str! "effects"
    · simp [e1, ofPlace, ownLine, Indent.before, Indent.dflt]
    · simp [e1, byRules]
  by_cases h5 : p = str! "pts"
  · rw [hn h5]
    subst h5
    by_cases e1 : h = str! "xy"
    · by_cases e2 : pointBreaks (str! "pts" :: anc) nth
      · simp [e1, e2, byRules, ofPlace, ownLine, Indent.before, Indent.dflt]
      · simp [e1, e2, byRules]
    · simp [e1, byRules]
  by_cases h6 : p = str! "model"
  · subst h6
    by_cases e1 : h ∈ [str! "at", str! "scale", str! "rotate"]
    · simp only [e1]
      simp [ofPlace, ownLine, Indent.before, Indent.dflt]
    · simp only [e1]
      simp [byRules]
  by_cases h7 : p = str! "pad"
  · subst h7
    by_cases e1 : h = str! "net"
    · simp [e1, ofPlace, ownLine, Indent.before, Indent.dflt]
    · simp [e1, byRules]
  simp [h1, h2, h3, h4, h5, h6, h7, byRules]

theorem wantModule_top {st : St} (hw : Within st []) (h : Str) : wantModule st h = none := by
  simp [wantModule, hw.parentIs_nil]

theorem wantLayout_eq {st : St} {p : Str} {anc : List Str} (hw : Within st (p :: anc)) (h : Str)
    (hd : p = str! "dimension" → h ≠ str! "gr_text") :
    wantLayout st h = (if str! "kicad_pcb" ∈ p :: anc then byRules boardRules p h else none).map ofPlace := by
  simp only [wantLayout, hw.is]
  by_cases hk : str! "kicad_pcb" ∉ p :: anc
  · simp [hk]
  have hk : str! "kicad_pcb" ∈ p :: anc := Decidable.of_not_not hk
  simp only [hk, decide_true, Bool.not_true, if_true, Bool.false_eq_true, if_false]
  simp only [hw.parentIs, boardRules, find_cons, Rule.applies]
  clear hk hw
  by_cases h1 : p = str! "kicad_pcb"
  · subst h1
    simp only [decide_true, Bool.true_and, List.mem_singleton]
    by_cases e1 : h = str! "page"
    · simp [e1, ofPlace, Indent.before, Indent.dflt, Indent.beforeDouble]
    by_cases e2 : h ∈ [str! "net", str! "gr_circle", str! "gr_line", str! "gr_arc", str! "segment",
        str! "via"]
    · simp only [e1, e2]
      simp [ofPlace, ownLine, Indent.before, Indent.dflt]
    by_cases e3 : h ∈ [str! "layers", str! "gr_text", str! "dimension", str! "zone"]
    · simp only [e1, e2, e3]
      simp [ofPlace, ownBlock, Indent.before, Indent.dflt, Indent.closeOnNewLine]
    by_cases e4 : h = str! "setup"
    · simp [e4, ofPlace, Indent.before, Indent.dflt, Indent.closeOnNewLine, Indent.beforeDouble,
        Indent.newlineAfterClosing]
    by_cases e5 : h ∈ [str! "general", str! "net_class", str! "module"]
    · simp only [e1, e2, e3, e4, e5]
      simp [ofPlace, Indent.before, Indent.dflt, Indent.closeOnNewLine, Indent.beforeDouble]
    simp only [e1, e2, e3, e4, e5]
    simp [byRules]
  by_cases h2 : p ∈ [str! "general", str! "layers", str! "setup", str! "pcbplotparams", str! "net_class"]
  · have h2' := h2
    simp only [List.mem_cons, List.not_mem_nil, or_false] at h2
    rcases h2 with rfl | rfl | rfl | rfl | rfl <;>
      simp [ofPlace, ownLine, Indent.before, Indent.dflt]
  have h2' := h2
  simp only [List.mem_cons, List.not_mem_nil, or_false, not_or] at h2
  obtain ⟨g1, g2, g3, g4, g5⟩ := h2
  by_cases h3 : p = str! "dimension"
  · have hg := hd h3
    subst h3
    by_cases e1 : h ∈ [str! "feature1", str! "feature2", str! "crossbar", str! "arrow1a",
      str! "arrow1b", str! "arrow2a", str! "arrow2b"]
    · have e2 : h ∈ [str! "gr_text", str! "feature1", str! "feature2", str! "crossbar", str! "arrow1a",
        str! "arrow1b", str! "arrow2a", str! "arrow2b"] := List.mem_cons_of_mem _ e1
      simp only [e1, e2]
      simp [ofPlace, ownLine, Indent.before, Indent.dflt]
    · have e2 : h ∉ [str! "gr_text", str! "feature1", str! "feature2", str! "crossbar", str! "arrow1a",
        str! "arrow1b", str! "arrow2a", str! "arrow2b"] := by
        intro hc
        rcases List.mem_cons.1 hc with hc | hc
        · exact hg hc
        · exact e1 hc
      simp only [e1, e2]
      simp [byRules]
  by_cases h4 : p = str! "zone"
  · subst h4
    by_cases e1 : h ∈ [str! "connect_pads", str! "min_thickness", str! "fill", str! "keepout",
      str! "priority"]
    · simp only [e1]
      simp [ofPlace, ownLine, Indent.before, Indent.dflt]
    by_cases e2 : h ∈ [str! "polygon", str! "filled_polygon"]
    · simp only [e1, e2]
      simp [ofPlace, ownBlock, Indent.before, Indent.dflt, Indent.closeOnNewLine]
    simp only [e1, e2]
    simp [byRules]
  by_cases h5 : p = str! "polygon"
  · subst h5
    simp [ofPlace, ownBlock, Indent.before, Indent.dflt, Indent.closeOnNewLine]
  by_cases h6 : p = str! "filled_polygon"
  · subst h6
    simp [ofPlace, ownBlock, Indent.before, Indent.dflt, Indent.closeOnNewLine]
  simp [h1, g1, g2, g3, g4, g5, h3, h4, h5, h6, byRules]

theorem wantLayout_top {st : St} (hw : Within st []) (h : Str) : wantLayout st h = none := by
  simp [wantLayout, hw.is]

theorem wantFpLibTable_eq {st : St} {p : Str} {anc : List Str} (hw : Within st (p :: anc)) :
    wantFpLibTable st = (if p = str! "fp_lib_table" then some ownLine
        else if str! "fp_lib_table" ∈ anc then some ⟨0, false, 0⟩ else none).map ofPlace := by
  simp only [wantFpLibTable, hw.is, hw.parentIs]
  by_cases h1 : p = str! "fp_lib_table"
  · simp [h1, ofPlace, ownLine, Indent.before, Indent.dflt]
  · have h1' : ¬ str! "fp_lib_table" = p := fun h => h1 h.symm
    by_cases h2 : str! "fp_lib_table" ∈ anc
    · simp [h1, h2, ofPlace, Indent.dflt]
    · simp [h1, h1', h2]

/-- What the formatter wants for a list is the place the rules give. -/
theorem wantAtom_eq {st : St} {anc : List Str} (hw : Within st anc) (nth : Nat)
    (hn : anc.head? = some (str! "pts") → st.ptsXyCount = nth) (h : Str) :
    wantAtom st h = (place anc nth h).map ofPlace := by
  cases anc with
  | nil =>
    simp only [wantAtom, wantModule_top hw, wantLayout_top hw, place, Option.map_none]
    simp [wantFpLibTable, hw.is]
  | cons p anc =>
    have hn' : p = str! "pts" → st.ptsXyCount = nth := fun e => hn (by simp [e])
    simp only [wantAtom, wantModule_eq hw nth hn', place, placeIn]
    cases hr : byRules footprintRules p h with
    | some x => rfl
    | none =>
      simp only
      by_cases hp : p = str! "pts" ∧ h = str! "xy" ∧ pointBreaks (p :: anc) nth
      · rw [if_pos hp, if_pos hp]; rfl
      · rw [if_neg hp, if_neg hp]
        simp only
        have hd : p = str! "dimension" → h ≠ str! "gr_text" := by
          rintro rfl rfl
          exact absurd hr (by decide)
        rw [wantLayout_eq hw h hd]
        cases (if str! "kicad_pcb" ∈ p :: anc then byRules boardRules p h else none) with
        | some x => rfl
        | none => exact wantFpLibTable_eq hw

theorem indentText_eq (level : Int) (n : Nat) : indentText level n = startLine n level := rfl

/-- The points counted so far, after a list with head `h` was opened. -/
def bump (st : St) (anc : List Str) (h : Str) : Nat :=
  if anc.head? = some (str! "pts") ∧ h = str! "xy" then st.ptsXyCount + 1
  else if h = str! "pts" then 0 else st.ptsXyCount

/-- Opening a list with the first text `extra` for the flags and the state `st`
after they are updated. -/
theorem openList_eq (st st' : St) (extra : Str) {anc : List Str} (hw : Within st' anc) (nth : Nat)
    (hn : anc.head? = some (str! "pts") → st'.ptsXyCount = nth) (h : Str) (he : h ≠ [])
    (hflags : (let (w1, s1) :=
        if h = str! "module" then (([] : Str), { st with seenModule := true })
        else if st.parentIs (str! "kicad_pcb") && st.seenModule then
          (indentText st.indent 1, { st with seenModule := false })
        else ([], st)
      let (w2, s2) :=
        if !s1.seenSegment && h = str! "segment" then
          (indentText s1.indent 1, { s1 with seenSegment := true })
        else (([] : Str), s1)
      (w1 ++ w2, s2)) = (extra, st')) :
    openList st (some (.str h)) =
      (extra ++ leadIn st'.indent (place anc nth h) ++ str! "(",
       { indent := inside st'.indent (place anc nth h)
         stack := some (h, (place anc nth h).map ofPlace) :: st'.stack
         ptsXyCount := bump st' anc h
         seenModule := st'.seenModule
         seenSegment := st'.seenSegment }) := by
  have hp : ∀ s : St, s.stack = st'.stack → s.parentIs (str! "pts") = decide (anc.head? = some (str! "pts")) := by
    intro s hs
    have hws : Within s anc := by unfold Within; rw [hs]; exact hw
    cases anc with
    | nil => rw [hws.parentIs_nil]; simp
    | cons p anc => rw [hws.parentIs]; simp
  have hwant := wantAtom_eq hw nth hn h
  have hemp : h.isEmpty = false := by cases h <;> simp_all
  unfold openList
  have hh : h = headAtom (some (.str h)) := rfl
  generalize headAtom (some (.str h)) = h' at hh
  subst hh
  simp only at hflags ⊢
  simp only [Prod.mk.injEq] at hflags
  obtain ⟨hf1, hf2⟩ := hflags
  rw [hf2, hf1]
  clear hf1 hf2
  simp only [wantIndent, hwant, hemp]
  have hst : st' = ⟨st'.indent, st'.stack, st'.ptsXyCount, st'.seenModule, st'.seenSegment⟩ := rfl
  cases hpl : place anc nth h with
  | none =>
    simp only [Option.map_none, leadIn, inside, bump]
    by_cases h1 : h = str! "pts"
    · have h2 : h ≠ str! "xy" := by rw [h1]; decide
      simp [h1]
    · by_cases h2 : h = str! "xy"
      · subst h2
        rw [if_neg h1, hp st' rfl]
        by_cases h3 : anc.head? = some (str! "pts")
        · simp [h3]
        · simp [h3]
      · simp [h1, h2]
  | some p =>
    simp only [Option.map_some, leadIn, inside, bump, ofPlace, indentText_eq]
    have hb : (if p.before > 0 then startLine p.before (st'.indent + 1) else []) =
        (if p.before = 0 then ([] : Str) else startLine p.before (st'.indent + 1)) := by
      by_cases h0 : p.before = 0
      · simp [h0]
      · simp [h0, Nat.pos_of_ne_zero h0]
    rw [hb]
    by_cases h1 : h = str! "pts"
    · have h2 : h ≠ str! "xy" := by rw [h1]; decide
      simp [h1]
    · by_cases h2 : h = str! "xy"
      · subst h2
        rw [if_neg h1, hp { st' with indent := st'.indent + 1 } rfl]
        by_cases h3 : anc.head? = some (str! "pts")
        · simp [h3]
        · simp [h3]
      · simp [h1, h2]

/-- Closing a list inside another one. -/
theorem closeList_eq (st : St) (h : Str) (pl : Option Place) (rest : List (Option (Str × Option Indent)))
    (level : Int) (hs : st.stack = some (h, pl.map ofPlace) :: rest) (hr : rest ≠ [])
    (hi : st.indent = inside level pl) :
    closeList st = (leadOut level pl, { st with indent := level, stack := rest }) := by
  have hre : rest.isEmpty = false := by cases rest <;> simp_all
  cases pl with
  | none =>
    simp only [inside] at hi
    simp [closeList, hs, hre, leadOut, hi]
  | some p =>
    simp only [inside] at hi
    simp [closeList, hs, hre, leadOut, hi, ofPlace, indentText_eq]

theorem within_cons {st : St} {anc : List Str} (hw : Within st anc) (h : Str) (i : Option Indent)
    (lv : Int) (n : Nat) (b c : Bool) :
    Within ⟨lv, some (h, i) :: st.stack, n, b, c⟩ (h :: anc) := by
  unfold Within at hw ⊢
  simp [hw]

theorem within_same {st st' : St} {anc : List Str} (hw : Within st anc) (h : st'.stack = st.stack) :
    Within st' anc := by
  unfold Within at hw ⊢
  rw [h, hw]

theorem element_eq {st : St} {anc : List Str} (hw : Within st anc) (nth : Nat)
    (hn : anc.head? = some (str! "pts") → st.ptsXyCount = nth) (e : Sexp) (hr : ∀ l, e = .list l → ∃ h t, l = .str h :: t) :
    element st e = gap anc nth e := by
  match e with
  | .str s =>
    simp only [element, gap, wantIndent]
    cases wantAtom st s <;> rfl
  | .empty => rfl
  | .list l =>
    obtain ⟨h, t, rfl⟩ := hr l rfl
    simp only [element, gap, wantIndent, wantAtom_eq hw nth hn h]
    cases place anc nth h <;> rfl

theorem regular_list {b : Bool} {e : Sexp} (h : Regular b e) (l : List Sexp) (he : e = .list l) :
    ∃ h t, l = .str h :: t := by
  subst he
  match l, h with
  | [], h => simp [Regular] at h
  | .str s :: t, _ => exact ⟨s, t, rfl⟩
  | .list _ :: _, h => simp [Regular] at h
  | .empty :: _, h => simp [Regular] at h

/-- How a printed element changes the count of points of the list it is in. -/
def pointsAfter (anc : List Str) (n : Nat) (e : Sexp) : Nat :=
  if anc.head? = some (str! "pts") ∧ isPoint e = true then n + 1 else n

mutual
/-- Inside a list, the formatter writes what the layout says, and afterwards is
in the same state but for the count of points. -/
theorem ser_layOut (q : Str → Bool) : ∀ (e : Sexp) (st : St) (anc : List Str) (nth : Nat),
    Within st anc → anc ≠ [] → Regular (decide (str! "pts" ∈ anc)) e →
    (anc.head? = some (str! "pts") → st.ptsXyCount = nth) →
    (anc.head? = some (str! "kicad_pcb") → st.seenModule = false) →
    (ser q st e).1 = layOut (atomText q) anc st.indent nth e ∧
    ∃ n, (ser q st e).2 = { st with ptsXyCount := n } ∧
      (str! "pts" ∈ anc → n = pointsAfter anc st.ptsXyCount e)
  | .str s, st, anc, nth, _, _, _, _, _ =>
    ⟨rfl, st.ptsXyCount, rfl, fun _ => by simp [pointsAfter, isPoint]⟩
  | .empty, st, anc, nth, _, _, _, _, _ =>
    ⟨rfl, st.ptsXyCount, rfl, fun _ => by simp [pointsAfter, isPoint]⟩
  | .list [], _, _, _, _, _, hr, _, _ => by simp [Regular] at hr
  | .list (.list _ :: _), _, _, _, _, _, hr, _, _ => by simp [Regular] at hr
  | .list (.empty :: _), _, _, _, _, _, hr, _, _ => by simp [Regular] at hr
  | .list (.str h :: l), st, anc, nth, hw, ha, hr, hn, hm => by
    simp only [Regular] at hr
    obtain ⟨h1, h2, h3, h4, h5, h6⟩ := hr
    have hpar : (st.parentIs (str! "kicad_pcb") && st.seenModule) = false := by
      cases anc with
      | nil => exact absurd rfl ha
      | cons p anc =>
        rw [hw.parentIs]
        by_cases e : p = str! "kicad_pcb"
        · simp [hm (by simp [e])]
        · simp [e]
    have ho := openList_eq st st [] hw nth hn h h1 (by simp [h2, h4, hpar])
    have hw' : Within (⟨inside st.indent (place anc nth h), some (h, (place anc nth h).map ofPlace) :: st.stack,
        bump st anc h, st.seenModule, st.seenSegment⟩ : St) (h :: anc) := within_cons hw _ _ _ _ _ _
    have h6' : RegularL (decide (str! "pts" ∈ h :: anc)) l := by
      have : (decide (str! "pts" ∈ anc) || decide (h = str! "pts")) = decide (str! "pts" ∈ h :: anc) := by
        by_cases e : h = str! "pts"
        · simp [e]
        · have : ¬ str! "pts" = h := fun x => e x.symm
          simp [e, this]
      rwa [this] at h6
    have hb : h = str! "pts" → bump st anc h = 0 := by
      rintro rfl
      simp [bump]
    obtain ⟨t1, n, t2, t3⟩ := serRest_layOut q l _ (h :: anc) 0 hw' (by simp) h6'
      (by intro e; simpa using hb (by simpa using e)) (by intro e; exact absurd (by simpa using e) h3)
    have hstk : st.stack ≠ [] := by
      intro e
      unfold Within at hw
      rw [e] at hw
      cases anc with
      | nil => exact ha rfl
      | cons => simp at hw
    simp only [ser, ho]
    rw [t1, t2]
    rw [closeList_eq _ h (place anc nth h) st.stack st.indent rfl hstk rfl]
    refine ⟨by simp [layOut], n, rfl, fun hp => ?_⟩
    rw [t3 (List.mem_cons_of_mem _ hp)]
    have hne : h ≠ str! "pts" := fun e => h5 ⟨by simpa using hp, e⟩
    simp only [hne, List.head?_cons, Option.some.injEq, if_false, bump, pointsAfter, isPoint]
    by_cases e1 : anc.head? = some (str! "pts")
    · by_cases e2 : h = str! "xy" <;> simp [e1, e2]
    · simp [e1]
/-- The same for the elements of a list after the first one. -/
theorem serRest_layOut (q : Str → Bool) : ∀ (l : List Sexp) (st : St) (anc : List Str) (nth : Nat),
    Within st anc → anc ≠ [] → RegularL (decide (str! "pts" ∈ anc)) l →
    (anc.head? = some (str! "pts") → st.ptsXyCount = nth) →
    (anc.head? = some (str! "kicad_pcb") → st.seenModule = false) →
    (serRest q st l).1 = layOutL (atomText q) anc st.indent nth l ∧
    ∃ n, (serRest q st l).2 = { st with ptsXyCount := n } ∧
      (str! "pts" ∈ anc → n =
        if anc.head? = some (str! "pts") then st.ptsXyCount + l.countP isPoint else st.ptsXyCount)
  | [], st, anc, nth, _, _, _, _, _ => ⟨rfl, st.ptsXyCount, rfl, fun _ => by simp⟩
  | x :: xs, st, anc, nth, hw, ha, hr, hn, hm => by
    simp only [RegularL] at hr
    obtain ⟨hx, hxs⟩ := hr
    obtain ⟨a1, n, a2, a3⟩ := ser_layOut q x st anc nth hw ha hx hn hm
    have hpm : anc.head? = some (str! "pts") → str! "pts" ∈ anc := by
      intro e
      cases anc with
      | nil => simp at e
      | cons p anc => simp at e; simp [e]
    obtain ⟨b1, n', b2, b3⟩ := serRest_layOut q xs { st with ptsXyCount := n } anc
      (if isPoint x then nth + 1 else nth) (within_same hw rfl) ha hxs
      (by
        intro e
        show n = _
        rw [a3 (hpm e), ← hn e]
        by_cases e2 : isPoint x = true <;> simp [pointsAfter, e, e2])
      hm
    simp only [serRest]
    rw [a2, b2, a1, b1, element_eq hw nth hn x (fun l e => regular_list hx l e)]
    refine ⟨by simp [layOutL], n', rfl, fun hp => ?_⟩
    rw [b3 hp]
    show (if _ then n + _ else n) = _
    rw [a3 hp]
    by_cases e1 : anc.head? = some (str! "pts")
    · by_cases e2 : isPoint x = true
      · simp [pointsAfter, e1, e2]; omega
      · simp [pointsAfter, e1, e2]
    · simp [pointsAfter, e1]
end

/-- A whole file. -/
theorem toText_file (q : Str → Bool) (level : Int) (h : Str) (l : List Sexp) (h1 : h ≠ [])
    (h2 : h ≠ str! "kicad_pcb") (h3 : h ≠ str! "segment")
    (hl : RegularL (decide (h = str! "pts")) l) :
    toText q level (Sx.node h l) = fileText (atomText q) level h l := by
  have hw : Within (St.new level) [] := rfl
  have hpl : place [] 0 h = none := rfl
  have hb : bump (St.new level) [] h = 0 := by simp [bump, St.new]
  have key : ∀ b : Bool, openList (St.new level) (some (.str h)) =
        ([] ++ leadIn level (place [] 0 h) ++ str! "(",
         { indent := inside level (place [] 0 h), stack := [some (h, (place [] 0 h).map ofPlace)],
           ptsXyCount := 0, seenModule := b, seenSegment := false }) →
      toText q level (Sx.node h l) = fileText (atomText q) level h l := by
    intro b ho
    simp only [hpl, leadIn, inside, Option.map_none, List.append_nil, List.nil_append] at ho
    have hw' : Within (⟨level, [some (h, none)], 0, b, false⟩ : St) [h] := rfl
    have hl' : RegularL (decide (str! "pts" ∈ [h])) l := by
      have e : decide (str! "pts" ∈ [h]) = decide (h = str! "pts") := by
        simp [eq_comm]
      rw [e]; exact hl
    obtain ⟨t1, n, t2, -⟩ := serRest_layOut q l _ [h] 0 hw' (by simp) hl' (fun _ => rfl)
      (by intro e; exact absurd (by simpa using e) h2)
    simp only [toText, Sx.node, ser, ho]
    rw [t1, t2]
    simp only [closeList, List.isEmpty_nil, Bool.true_and, fileText]
    by_cases e1 : h = str! "module"
    · simp [e1]
    · by_cases e2 : h = str! "fp_lib_table"
      · simp [e2]
      · simp [e1, e2, h2]
  have hp : (St.new level).parentIs (str! "kicad_pcb") = false := rfl
  by_cases e1 : h = str! "module"
  · refine key true ?_
    have hw2 : Within { St.new level with seenModule := true } [] := rfl
    rw [openList_eq (St.new level) { St.new level with seenModule := true } [] hw2 0 (by simp) h h1
      (by subst e1; simp)]
    subst e1
    rfl
  · refine key false ?_
    rw [openList_eq (St.new level) (St.new level) [] hw 0 (by simp) h h1 (by simp [e1, h3, hp]), hb]
    rfl

/-! ## Lists the formatter does not follow -/

/-- No list around is a library table, and the nearest one has no say in how its
contents are placed. -/
def Idle (st : St) : Prop :=
  st.is (str! "fp_lib_table") = false ∧ ∀ w ∈ busyNames, st.parentIs w = false

theorem Idle.wantAtom {st : St} (h : Idle st) (ele : Str) : wantAtom st ele = none := by
  obtain ⟨h1, h2⟩ := h
  have p1 := h2 (str! "module") (by decide)
  have p2 := h2 (str! "dimension") (by decide)
  have p3 := h2 (str! "fp_text") (by decide)
  have p4 := h2 (str! "gr_text") (by decide)
  have p5 := h2 (str! "pts") (by decide)
  have p6 := h2 (str! "model") (by decide)
  have p7 := h2 (str! "pad") (by decide)
  have p8 := h2 (str! "kicad_pcb") (by decide)
  have p9 := h2 (str! "general") (by decide)
  have p10 := h2 (str! "layers") (by decide)
  have p11 := h2 (str! "setup") (by decide)
  have p12 := h2 (str! "pcbplotparams") (by decide)
  have p13 := h2 (str! "net_class") (by decide)
  have p14 := h2 (str! "zone") (by decide)
  have p15 := h2 (str! "polygon") (by decide)
  have p16 := h2 (str! "filled_polygon") (by decide)
  have a : wantModule st ele = none := by
    simp [wantModule, p1, p2, p3, p4, p5, p6, p7]
  have b : wantLayout st ele = none := by
    simp [wantLayout, p2, p8, p9, p10, p11, p12, p13, p14, p15, p16]
  have c : wantFpLibTable st = none := by
    simp [wantFpLibTable, h1]
  simp [Fm.wantAtom, a, b, c]

theorem Idle.element {st : St} (h : Idle st) (e : Sexp) : element st e = [' '] := by
  have : wantIndent st e = none := by
    unfold wantIndent
    split
    · exact h.wantAtom _
    · rfl
    · rfl
    · exact h.wantAtom _
  simp [Fm.element, this]

/-- What the formatter notes about a list it does not follow. -/
def note (ele : Str) : Option (Str × Option Indent) := if ele.isEmpty then none else some (ele, none)

theorem Idle.open {st : St} (h : Idle st) (v : Option Sexp) (hv : headAtom v ∉ busyNames) :
    openList st v = (['('], { st with stack := note (headAtom v) :: st.stack }) := by
  have hm : headAtom v ≠ str! "module" := fun e => hv (e ▸ by decide)
  have hs : headAtom v ≠ str! "segment" := fun e => hv (e ▸ by decide)
  have hp : headAtom v ≠ str! "pts" := fun e => hv (e ▸ by decide)
  have p5 := h.2 (str! "pts") (by decide)
  have p8 := h.2 (str! "kicad_pcb") (by decide)
  have hw : wantIndent st (.str (headAtom v)) = none := h.wantAtom _
  simp only [openList, hm, hs, hp, p5, p8, if_false, decide_false, Bool.and_false, Bool.false_and,
    Bool.false_eq_true, hw, List.nil_append, note]
  by_cases e : (headAtom v).isEmpty <;> simp [e]

theorem Idle.push {st : St} (h : st.is (str! "fp_lib_table") = false) {ele : Str} (he : ele ∉ busyNames) :
    Idle { st with stack := note ele :: st.stack } := by
  refine ⟨?_, fun w hw => ?_⟩
  · have e : ele ≠ str! "fp_lib_table" := fun e => he (e ▸ by decide)
    unfold St.is at h ⊢
    rw [List.any_cons, h, Bool.or_false]
    unfold note
    by_cases hn : ele.isEmpty
    · simp [hn]
    · simp [hn, e]
  · unfold St.parentIs note
    by_cases hn : ele.isEmpty
    · simp [hn]
    · have e : ele ≠ w := fun e => he (e ▸ hw)
      simp [hn, e]

theorem close_note (st : St) {ele : Str} (he : ele ∉ busyNames) :
    closeList { st with stack := note ele :: st.stack } = ([')'], st) := by
  have hm : ele ≠ str! "module" := fun e => he (e ▸ by decide)
  have hk : ele ≠ str! "kicad_pcb" := fun e => he (e ▸ by decide)
  have hf : ele ≠ str! "fp_lib_table" := fun e => he (e ▸ by decide)
  unfold note
  by_cases hn : ele.isEmpty
  · simp [hn, closeList]
  · simp [hn, closeList, hm, hk, hf]

mutual
/-- A tree the formatter does not follow is written on one line, whatever the
shape of its lists, and leaves the formatter as it was. -/
theorem ser_foreign (q : Str → Bool) : ∀ (e : Sexp) (st : St), Idle st → foreign e = true →
    ser q st e = (flat (atomText q) e, st)
  | .str s, st, _, _ => by simp [ser, flat]
  | .empty, st, _, _ => by simp [ser, flat]
  | .list [], st, hi, _ => by
    have hb : headAtom none ∉ busyNames := by decide
    simp only [ser, hi.open none hb]
    rw [close_note st hb]
    simp [flat]
  | .list (.str h :: l), st, hi, hf => by
    simp only [foreign, Bool.and_eq_true, Bool.not_eq_true', decide_eq_false_iff_not] at hf
    have hb : headAtom (some (.str h)) ∉ busyNames := hf.1
    have ih := serRest_foreign q l { st with stack := note h :: st.stack } (Idle.push hi.1 hb) hf.2
    simp only [ser, hi.open _ hb]
    simp only [headAtom] at hb ⊢
    rw [ih]
    simp only []
    rw [close_note st hb]
    simp [flat]
  | .list (.list x :: l), st, hi, hf => by
    simp only [foreign, Bool.and_eq_true] at hf
    have hb : headAtom (some (.list x)) ∉ busyNames := by simp only [headAtom]; decide
    have ix := ser_foreign q (.list x) { st with stack := note [] :: st.stack } (Idle.push hi.1 hb) hf.1
    have ih := serRest_foreign q l { st with stack := note [] :: st.stack } (Idle.push hi.1 hb) hf.2
    rw [ser]
    simp only [hi.open _ hb]
    simp only [headAtom] at hb ⊢
    rw [ix]
    simp only []
    rw [ih]
    simp only []
    rw [close_note st hb]
    simp [flat]
  | .list (.empty :: l), st, hi, hf => by
    simp only [foreign] at hf
    have hb : headAtom (some .empty) ∉ busyNames := by simp only [headAtom]; decide
    have ih := serRest_foreign q l { st with stack := note [] :: st.stack } (Idle.push hi.1 hb) hf
    simp only [ser, hi.open _ hb]
    simp only [headAtom] at hb ⊢
    rw [ih]
    simp only []
    rw [close_note st hb]
    simp [flat]
theorem serRest_foreign (q : Str → Bool) : ∀ (l : List Sexp) (st : St), Idle st → foreignL l = true →
    serRest q st l = (flatL (atomText q) l, st)
  | [], st, _, _ => by simp [serRest, flatL]
  | x :: l, st, hi, hf => by
    simp only [foreignL, Bool.and_eq_true] at hf
    rw [serRest]
    simp only [ser_foreign q x st hi hf.1, serRest_foreign q l st hi hf.2, hi.element, flatL]
end

/-- An entry of a board the formatter knows nothing about. -/
theorem ser_foreignEntry (q : Str → Bool) (x : Sexp) (st : St) (i : Option Indent)
    (hs : st.stack = [some (str! "kicad_pcb", i)]) (hx : foreignEntry x = true) :
    element st x ++ (ser q st x).1 =
      gap [str! "kicad_pcb"] 0 x ++ boardBreak st.indent st.seenModule st.seenSegment x ++
        entryText (atomText q) st.indent x ∧
    ∃ n, (ser q st x).2 = ⟨st.indent, st.stack, n,
      (match headOf x with | none => st.seenModule | some h => decide (h = str! "module")),
      st.seenSegment || decide (headOf x = some (str! "segment"))⟩ := by
  have hw : Within st [str! "kicad_pcb"] := by simp [Within, hs]
  match x, hx with
  | .list (.str h :: l), hx' =>
    have hx := hx'
    simp only [foreignEntry, foreign, Bool.and_eq_true, Bool.not_eq_true', decide_eq_false_iff_not] at hx
    obtain ⟨⟨h1, h2⟩, h3, h4⟩ := hx
    have hm : h ≠ str! "module" := fun e => h3 (e ▸ by decide)
    have hsg : h ≠ str! "segment" := fun e => h3 (e ▸ by decide)
    have hpl : place [str! "kicad_pcb"] 0 h = none := by
      have hf : byRules footprintRules (str! "kicad_pcb") h = none := by
        simp [byRules, footprintRules, Rule.applies]
      have hb : byRules boardRules (str! "kicad_pcb") h = none := by
        simp [entryNames, boardRules, not_or] at h2
        simp [byRules, boardRules, Rule.applies, h2]
      simp [place, placeIn, hf, hb]
    have hel : element st (.list (.str h :: l)) = [' '] := by
      rw [element_eq hw 0 (fun e => absurd e (by decide)) _ (by intro l' e; simp only [Sexp.list.injEq] at e; exact ⟨h, l, e.symm⟩)]
      simp [gap, hpl]
    have hpar : st.parentIs (str! "kicad_pcb") = true := by rw [hw.parentIs]; simp
    let st' : St := { st with seenModule := false }
    have hw' : Within st' [str! "kicad_pcb"] := within_same hw rfl
    have hwant : ∀ c : St, Within c [str! "kicad_pcb"] → wantIndent c (.str h) = none := by
      intro c hc
      have := wantAtom_eq hc 0 (fun e => absurd e (by decide)) h
      rw [hpl] at this
      exact this
    have ho : openList st (some (.str h)) =
        (boardBreak st.indent st.seenModule st.seenSegment (.list (.str h :: l)) ++ ['('],
          { st' with stack := note h :: st.stack }) := by
      have hp : h ≠ str! "pts" := fun e => h3 (e ▸ by decide)
      have hpp : ∀ c : St, Within c [str! "kicad_pcb"] → c.parentIs (str! "pts") = false := by
        intro c hc; rw [hc.parentIs]; simp
      have e1 := hwant st hw
      have e2 := hwant st' hw'
      have e3 := hpp st hw
      have e4 := hpp st' hw'
      simp only [st'] at e2 e4
      have hne : h.isEmpty = false := by cases h with | nil => exact absurd rfl h1 | cons => rfl
      obtain ⟨lv, stk, cnt, sm, sg⟩ := st
      cases sm
      · simp [openList, headAtom, hm, hsg, hp, e1, e3, hpar, boardBreak, headOf, note, hne, st']
      · simp only [] at e2 e4
        simp [openList, headAtom, hm, hsg, hp, e2, e4, hpar, boardBreak, headOf, note, hne, st', indentText_eq]
    have hlib : st'.is (str! "fp_lib_table") = false := by rw [hw'.is]; simp
    have ih := serRest_foreign q l { st' with stack := note h :: st'.stack } (Idle.push hlib h3) h4
    have hcl := close_note st' h3
    rw [hel]
    simp only [ser, ho]
    rw [show ({ st' with stack := note h :: st.stack } : St) = { st' with stack := note h :: st'.stack } from rfl, ih]
    simp only []
    rw [hcl]
    refine ⟨?_, st.ptsXyCount, ?_⟩
    · simp [gap, hpl, entryText, hx', flat]
    · simp [headOf, hm, hsg, st']

/-- One entry of a board. -/
theorem ser_boardItem (q : Str → Bool) (x : Sexp) (st : St) (i : Option Indent)
    (hs : st.stack = [some (str! "kicad_pcb", i)]) (hx : BoardItem x) :
    element st x ++ (ser q st x).1 =
      gap [str! "kicad_pcb"] 0 x ++ boardBreak st.indent st.seenModule st.seenSegment x ++
        entryText (atomText q) st.indent x ∧
    ∃ n, (ser q st x).2 = ⟨st.indent, st.stack, n,
      (match headOf x with | none => st.seenModule | some h => decide (h = str! "module")),
      st.seenSegment || decide (headOf x = some (str! "segment"))⟩ := by
  by_cases hfe : foreignEntry x = true
  · exact ser_foreignEntry q x st i hs hfe
  rw [entryText, if_neg hfe]
  have hw : Within st [str! "kicad_pcb"] := by simp [Within, hs]
  have hnp : ([str! "kicad_pcb"] : List Str).head? ≠ some (str! "pts") := by decide
  match x, hx with
  | .str s, _ =>
    refine ⟨?_, st.ptsXyCount, ?_⟩
    · rw [element_eq hw 0 (fun h => absurd h hnp) _ (by simp)]
      simp [gap, boardBreak, headOf, ser, layOut]
    · simp [headOf, ser]
  | .empty, _ =>
    refine ⟨?_, st.ptsXyCount, ?_⟩
    · rw [element_eq hw 0 (fun h => absurd h hnp) _ (by simp)]
      simp [gap, boardBreak, headOf, ser, layOut]
    · simp [headOf, ser]
  | .list [], hx => exact absurd hx (by simp [BoardItem])
  | .list (.list _ :: _), hx => exact absurd hx (by simp [BoardItem])
  | .list (.empty :: _), hx => exact absurd hx (by simp [BoardItem])
  | .list (.str h :: l), hx =>
    simp only [BoardItem] at hx
    obtain ⟨h1, h2, h3⟩ := hx.resolve_left hfe
    have hpar : st.parentIs (str! "kicad_pcb") = true := by rw [hw.parentIs]; simp
    let st' : St := { st with seenModule := decide (h = str! "module"),
                              seenSegment := st.seenSegment || decide (h = str! "segment") }
    have hw' : Within st' [str! "kicad_pcb"] := within_same hw rfl
    have ho := openList_eq st st' (boardBreak st.indent st.seenModule st.seenSegment (.list (.str h :: l)))
      hw' 0 (fun h => absurd h hnp) h h1 (by
        simp only [hpar, Bool.true_and, boardBreak, headOf, Option.some.injEq, indentText_eq]
        by_cases e1 : h = str! "module"
        · subst e1
          simp [st']
        · by_cases e2 : h = str! "segment"
          · subst e2
            obtain ⟨lv, stk, cnt, sm, sg⟩ := st
            cases sm <;> cases sg <;> simp [st']
          · obtain ⟨lv, stk, cnt, sm, sg⟩ := st
            cases sm <;> cases sg <;> simp [st', e1, e2])
    have hcons : Within (⟨inside st'.indent (place [str! "kicad_pcb"] 0 h),
        some (h, (place [str! "kicad_pcb"] 0 h).map ofPlace) :: st'.stack,
        bump st' [str! "kicad_pcb"] h, st'.seenModule, st'.seenSegment⟩ : St) [h, str! "kicad_pcb"] :=
      within_cons hw' _ _ _ _ _ _
    have h3' : RegularL (decide (str! "pts" ∈ [h, str! "kicad_pcb"])) l := by
      have : decide (str! "pts" ∈ [h, str! "kicad_pcb"]) = decide (h = str! "pts") := by
        by_cases e : h = str! "pts"
        · simp [e]
        · have e' : ¬ str! "pts" = h := fun x => e x.symm
          simp [e, e']
      rw [this]; exact h3
    have hb : h = str! "pts" → bump st' [str! "kicad_pcb"] h = 0 := by
      rintro rfl
      simp [bump]
    obtain ⟨t1, n, t2, -⟩ := serRest_layOut q l _ [h, str! "kicad_pcb"] 0 hcons (by simp) h3'
      (by intro e; simpa using hb (by simpa using e)) (by intro e; exact absurd (by simpa using e) h2)
    have hstk : st'.stack ≠ [] := by
      show st.stack ≠ []
      simp [hs]
    rw [element_eq hw 0 (fun h => absurd h hnp) _ (by intro l' e; simp only [Sexp.list.injEq] at e; exact ⟨h, l, e.symm⟩)]
    simp only [ser, ho]
    rw [t1, t2, closeList_eq _ h (place [str! "kicad_pcb"] 0 h) st'.stack st'.indent rfl hstk rfl]
    refine ⟨?_, n, ?_⟩
    · simp [layOut, st']
    · simp [headOf, st']

/-- The entries of a board. -/
theorem serRest_boardItems (q : Str → Bool) (l : List Sexp) (st : St) (i : Option Indent)
    (hs : st.stack = [some (str! "kicad_pcb", i)]) (hl : ∀ x ∈ l, BoardItem x) :
    (serRest q st l).1 = boardItems (atomText q) st.indent st.seenModule st.seenSegment l ∧
    ∃ n b c, (serRest q st l).2 = ⟨st.indent, st.stack, n, b, c⟩ := by
  induction l generalizing st with
  | nil => exact ⟨rfl, _, _, _, rfl⟩
  | cons x l ih =>
    obtain ⟨a1, n, a2⟩ := ser_boardItem q x st i hs (hl x List.mem_cons_self)
    simp only [serRest, boardItems]
    rw [a2]
    obtain ⟨b1, n', b, c, b2⟩ := ih ⟨st.indent, st.stack, n,
      (match headOf x with | none => st.seenModule | some h => decide (h = str! "module")),
      st.seenSegment || decide (headOf x = some (str! "segment"))⟩ hs
      (fun y hy => hl y (List.mem_cons_of_mem _ hy))
    refine ⟨?_, n', b, c, b2⟩
    rw [← a1]
    exact congrArg (_ ++ ·) b1

/-- A whole board. -/
theorem toText_board (q : Str → Bool) (level : Int) (l : List Sexp) (hl : ∀ x ∈ l, BoardItem x) :
    toText q level (Sx.node (str! "kicad_pcb") l) = boardText (atomText q) level l := by
  have hw : Within (St.new level) [] := rfl
  have ho := openList_eq (St.new level) (St.new level) [] hw 0 (by simp) (str! "kicad_pcb") (by decide)
    (by simp [St.new, St.parentIs])
  obtain ⟨t1, n, b, c, t2⟩ := serRest_boardItems q l ⟨level, [some (str! "kicad_pcb", none)], 0, false, false⟩
    none rfl hl
  have ho' : openList (St.new level) (some (.str (str! "kicad_pcb"))) =
      (str! "(", ⟨level, [some (str! "kicad_pcb", none)], 0, false, false⟩) := ho
  simp only [toText, Sx.node, ser, ho']
  rw [t1, t2]
  simp [closeList, boardText]

end Fm
end Verif
