import Verif.Lemmas.SchLocal
import Verif.Lemmas.SchPanic
import Verif.Props.C01
import Verif.Basic.Nm
/-!
# C73: schematic files can be put together; the end mark ends nothing
-/

namespace Verif
open Sch Spec Flt

/-- A header without libraries. -/
def Spec.schHeader : Str := str! "EESchema Schematic File Version 2\nEELAYER 25 0\nEELAYER END\n"

/-- The line a schematic ends with. -/
def Spec.schEnd : Str := str! "$EndSCHEMATC\n"

variable {F : Type}

/-- `r` is `s` with the contents of `s2` added to it. -/
def Spec.Joined (s s2 r : Schematic F) : Prop :=
  r.filename = s.filename ∧ r.libraries = s.libraries ∧ r.eelayer = s.eelayer ∧
  r.elements = s.elements ++ s2.elements ∧ r.sheets = s.sheets ++ s2.sheets ∧
  (r.description = s.description ∨ r.description = s2.description)

/-! ## Lemmas -/

theorem Sch.lines_header : lines schHeader =
    [str! "EESchema Schematic File Version 2", str! "EELAYER 25 0", str! "EELAYER END"] := by decide +kernel

theorem Sch.wholeLines_header : WholeLines schHeader :=
  Or.inr ⟨str! "EESchema Schematic File Version 2\nEELAYER 25 0\nEELAYER END", rfl⟩

/-- The elements, sheets and title blocks among some items. -/
def Sch.itemElements (is : List (Item F)) : List (Element F) :=
  is.filterMap fun i => match i with | .element e => some e | _ => none
def Sch.itemSheets (is : List (Item F)) : List Sheet :=
  is.filterMap fun i => match i with | .sheet e => some e | _ => none
def Sch.itemDescr (is : List (Item F)) (d : Description) : Description :=
  is.foldl (fun d i => match i with | .descr e => e | _ => d) d

variable [Flt F]

theorem Sch.foldl_add (is : List (Item F)) (sch : Schematic F) :
    is.foldl Item.add sch = { sch with
      description := itemDescr is sch.description, elements := sch.elements ++ itemElements is,
      sheets := sch.sheets ++ itemSheets is } := by
  induction is generalizing sch with
  | nil => simp [itemElements, itemSheets, itemDescr]
  | cons i is ih =>
    rw [List.foldl_cons, ih]
    cases i <;> simp [Item.add, itemElements, itemSheets, itemDescr]

theorem Sch.itemDescr_cases (is : List (Item F)) (d d' : Description) :
    itemDescr is d = itemDescr is d' ∨ (itemDescr is d = d ∧ ∀ i ∈ is, ∀ e, i ≠ Item.descr e) := by
  induction is generalizing d d' with
  | nil => exact .inr ⟨rfl, by simp⟩
  | cons i is ih =>
    cases i with
    | descr e => exact .inl rfl
    | element _ | sheet _ | nothing =>
      rcases ih d d' with h | h
      · exact .inl h
      · exact .inr ⟨h.1, by simpa using h.2⟩

theorem Sch.itemDescr_none (is : List (Item F)) (d : Description) (h : ∀ i ∈ is, ∀ e, i ≠ Item.descr e) :
    itemDescr is d = d := by
  induction is with
  | nil => rfl
  | cons i is ih =>
    rw [List.forall_mem_cons] at h
    cases i with
    | descr e => exact absurd rfl (h.1 e)
    | element _ | sheet _ | nothing => exact ih h.2

/-- A title block is read only at a line that announces one. -/
theorem Sch.content_descr : ∀ (n : Nat) (p : List Str) (is : List (Item F)), p.length ≤ n → content p = .ok is →
    (∀ l ∈ p, firstWord l ≠ some (str! "$Descr")) → ∀ i ∈ is, ∀ e, i ≠ Item.descr e := by
  intro n
  induction n with
  | zero =>
    intro p is hn h _
    cases p with
    | nil => cases h; simp
    | cons s p => simp at hn
  | succ n ih =>
    intro p is hn h hl
    cases p with
    | nil => cases h; simp
    | cons s p =>
      rw [content_cons] at h
      obtain ⟨⟨i, p'⟩, hi, h⟩ := Res.bind_eq_ok.1 h
      obtain ⟨is', his, h⟩ := Res.bind_eq_ok.1 h
      cases h
      have hf := readItem_forward hi
      have hsuf : p' <:+ s :: p := (parseItem_panic (Schematic.dflt : Schematic F) s p).2 (i.add .dflt) p' (by
        rw [parseItem_eq, hi]; rfl)
      rw [List.forall_mem_cons]
      refine ⟨?_, ih _ _ (by simp [next] at hf hn ⊢; omega) his fun l hm =>
        hl l (hsuf.subset ((next_suffix p').subset hm))⟩
      intro e he
      subst he
      have hw := hl s (List.mem_cons_self ..)
      simp only [readItem, here, Res.bind_ok] at hi
      cases hs : firstWord s with
      | none => rw [hs] at hi; cases hi
      | some w =>
        rw [hs] at hi hw
        have hne : w ≠ str! "$Descr" := fun h => hw (by rw [h])
        simp only [if_neg hne] at hi
        repeat' (first
          | (split at hi
             · first
                | (obtain ⟨x, _, hx⟩ := Res.bind_eq_ok.1 hi; cases hx; done)
                | (cases hi; done)))
        cases hi

theorem Sch.parse_header (b : Str) : (parseStr (schHeader ++ b) : Res (Schematic F)) =
    content (lines b) >>= fun js => .ok (js.foldl Item.add { Schematic.dflt with eelayer := str! "EELAYER 25 0" }) := by
  rw [parseStr, parse, lines_append wholeLines_header, lines_header, Sch.parseLines]
  have h1 : startsWith (str! "EELAYER 25 0") (str! "LIBS:") = false := by decide
  have h2 : startsWith (str! "EELAYER 25 0") (str! "EELAYER ") = true := by decide
  simp only [List.cons_append, List.nil_append, assumeLine, ne_eq, not_true, if_false, Res.bind_ok, parseLibs, h1, here, h2,
    Bool.not_true, Bool.false_eq_true, next, List.drop_one, List.tail_cons, parseItems_eq]
  rfl

/-! ## Theorems -/

/-- A file that is read can be extended by anything that is read after a header,
and the contents are added.  The title block is the one of the extension if it has
one. -/
theorem C73_concatenation (t b : Str) (s s2 : Schematic F) (ht : WholeLines t) (h : parseStr t = .ok s)
    (h2 : parseStr (schHeader ++ b) = .ok s2) :
    ∃ r, parseStr (t ++ b) = .ok r ∧ Joined s s2 r ∧
      ((∀ l ∈ lines b, firstWord l ≠ some (str! "$Descr")) → r.description = s.description) := by
  rw [Sch.parse_header] at h2
  obtain ⟨js, hj, h2⟩ := Res.bind_eq_ok.1 h2
  cases h2
  obtain ⟨sch, p, is, hi, rfl, hm⟩ := parseLines_split (f := none) (v := lines t) h
  refine ⟨(is ++ js).foldl Item.add sch, ?_, ?_, ?_⟩
  · show parseLines none (lines (t ++ b)) = _
    rw [lines_append ht, hm, content_append (lines b) _ p is (Nat.le_refl _) hi, hj]
    rfl
  · rw [List.foldl_append]
    simp only [foldl_add js, Joined, Schematic.dflt, List.nil_append, true_and]
    rcases itemDescr_cases js (is.foldl Item.add sch).description Description.dflt with h | h
    · exact .inr h
    · exact .inl h.1
  · intro hl
    rw [List.foldl_append]
    simp only [foldl_add js]
    exact itemDescr_none _ _ (content_descr _ _ _ (Nat.le_refl _) hj hl)

/-- It fails exactly if the extension fails, and in the same way. -/
theorem C73_concatenation_fails (t b : Str) (s : Schematic F) (ht : WholeLines t) (h : parseStr t = .ok s) :
    (∀ e, (parseStr (t ++ b) : Res (Schematic F)) = .err e ↔ (parseStr (schHeader ++ b) : Res (Schematic F)) = .err e) ∧
    (parseStr (t ++ b) = (.panic : Res (Schematic F)) ↔ (parseStr (schHeader ++ b) : Res (Schematic F)) = .panic) := by
  obtain ⟨sch, p, is, hi, rfl, hm⟩ := parseLines_split (f := none) (v := lines t) h
  have he : (parseStr (t ++ b) : Res (Schematic F)) =
      content (lines b) >>= fun js => .ok ((is ++ js).foldl Item.add sch) := by
    show parseLines none (lines (t ++ b)) = _
    rw [lines_append ht, hm, content_append (lines b) _ p is (Nat.le_refl _) hi, Res.bind_assoc]
    rfl
  rw [he, Sch.parse_header]
  cases (content (lines b) : Res (List (Item F))) with
  | ok js => exact ⟨fun e => ⟨fun h => (by cases h), fun h => (by cases h)⟩, ⟨fun h => (by cases h), fun h => (by cases h)⟩⟩
  | err x =>
    exact ⟨fun e => ⟨fun h => (by cases h; rfl), fun h => (by cases h; rfl)⟩, ⟨fun h => (by cases h), fun h => (by cases h)⟩⟩
  | panic => exact ⟨fun e => ⟨fun h => (by cases h), fun h => (by cases h)⟩, ⟨fun _ => rfl, fun _ => rfl⟩⟩
  | diverge => exact ⟨fun e => ⟨fun h => (by cases h), fun h => (by cases h)⟩, ⟨fun h => (by cases h), fun h => (by cases h)⟩⟩

/-- The end mark has no effect, wherever it is: it may be missing, and what
follows it is read like what comes before it. -/
theorem C73_end_mark_ignored (t b : Str) (s : Schematic F) (ht : WholeLines t) (h : parseStr t = .ok s) :
    (parseStr (t ++ schEnd ++ b) : Res (Schematic F)) = parseStr (t ++ b) := by
  obtain ⟨sch, p, is, hi, rfl, hm⟩ := parseLines_split (f := none) (v := lines t) h
  have hl : lines schEnd = [str! "$EndSCHEMATC"] := by decide +kernel
  have hE : WholeLines schEnd := Or.inr ⟨str! "$EndSCHEMATC", rfl⟩
  have hc : ∀ q, (content (str! "$EndSCHEMATC" :: q) : Res (List (Item F))) =
      content q >>= fun js => .ok (Item.nothing :: js) := by
    intro q
    rw [content_cons]
    rfl
  show parseLines none (lines (t ++ schEnd ++ b)) = parseLines none (lines (t ++ b))
  rw [lines_append (ht.append hE), lines_append ht, hl, List.append_assoc, lines_append ht, hm, hm,
    content_append _ _ p is (Nat.le_refl _) hi, content_append _ _ p is (Nat.le_refl _) hi, List.singleton_append, hc]
  simp only [Res.bind_assoc, Res.bind_ok, List.foldl_append, List.foldl_cons, Item.add]

theorem Sch.parse_block (t : Str) (s : Schematic F) (ht : WholeLines t) (h : parseStr t = .ok s) (ls : List Str)
    (hl : ∀ l ∈ ls, OneLine l) (i : Item F) (hc : content ls = .ok [i]) :
    parseStr (t ++ unlines ls) = .ok (i.add s) := by
  obtain ⟨sch, p, is, hi, rfl, hm⟩ := parseLines_split (f := none) (v := lines t) h
  show parseLines none (lines (t ++ unlines ls)) = _
  rw [lines_append ht, hm, content_append _ _ p is (Nat.le_refl _) hi, lines_unlines _ hl, hc]
  simp

/-- One block is read as one item. -/
theorem Sch.content_one (ls : List Str) (h0 : ls ≠ []) (i : Item F) (l : Str)
    (h : parseItem (Schematic.dflt : Schematic F) ls = .ok (i.add .dflt, [l]))
    (hi : ∀ j : Item F, j.add (Schematic.dflt : Schematic F) = i.add .dflt → j = i) : content ls = .ok [i] := by
  cases ls with
  | nil => exact absurd rfl h0
  | cons a ls =>
    rw [parseItem_eq] at h
    obtain ⟨⟨j, p⟩, hr, h⟩ := Res.bind_eq_ok.1 h
    simp only [Res.ok.injEq, Prod.mk.injEq] at h
    obtain ⟨h1, rfl⟩ := h
    rw [hi j h1] at hr
    rw [content_cons, hr]
    rfl

theorem Sch.add_element (e : Element F) (j : Item F)
    (h : j.add (Schematic.dflt : Schematic F) = (Item.element e).add .dflt) : j = .element e := by
  cases j <;> simp_all [Item.add, Schematic.dflt]

theorem Sch.add_sheet (e : Sheet) (j : Item F)
    (h : j.add (Schematic.dflt : Schematic F) = (Item.sheet e).add .dflt) : j = .sheet e := by
  cases j <;> simp_all [Item.add, Schematic.dflt]

/-- Writing one more element at the end of a file adds it to what is read, whatever
the file is. -/
theorem C73_append_element [TextLaws F] (t : Str) (s : Schematic F) (ht : WholeLines t) (h : parseStr t = .ok s) (e : Element F)
    (he : FitsElement e) : parseStr (t ++ e.show) = .ok { s with elements := s.elements ++ [e] } := by
  obtain ⟨l, hl⟩ := parseItem_element (Schematic.dflt : Schematic F) e ((fitsElement_iff e).1 he).1 ((fitsElement_iff e).1 he).2.1 []
  rw [List.append_nil] at hl
  rw [e.show_eq]
  exact Sch.parse_block t s ht h e.lns (e.lns_oneLine ((fitsElement_iff e).1 he).1 ((fitsElement_iff e).1 he).2.2) (.element e)
    (Sch.content_one _ e.lns_ne _ l hl (Sch.add_element e))

/-- The same for a sheet. -/
theorem C73_append_sheet [TextLaws F] (t : Str) (s : Schematic F) (ht : WholeLines t) (h : parseStr t = .ok s) (e : Sheet)
    (he : FitsSheet e) : parseStr (t ++ e.show) = .ok { s with sheets := s.sheets ++ [e] } := by
  have hl := parseItem_sheet (Schematic.dflt : Schematic F) e ⟨((fitsSheet_iff e).1 he).1, ((fitsSheet_iff e).1 he).2.1, ((fitsSheet_iff e).1 he).2.2.1⟩ []
  rw [List.append_nil] at hl
  rw [e.show_eq]
  exact Sch.parse_block t s ht h e.lns (e.lns_oneLine ((fitsSheet_iff e).1 he).1 ((fitsSheet_iff e).1 he).2.2.2) (.sheet e)
    (Sch.content_one _ (by simp [Sheet.lns]) _ _ hl (Sch.add_sheet e))

/-- A block without any lines in it is read as the default component. -/
theorem C73_empty_component (t : Str) (s : Schematic F) (ht : WholeLines t) (h : parseStr t = .ok s) :
    parseStr (t ++ str! "$Comp\n$EndComp\n") = .ok { s with elements := s.elements ++
      [.component ⟨str! "DUMMY", str! "U1", [], 0, 0, [], [], ⟨0, 0, 0, 0⟩⟩] } :=
  Sch.parse_block t s ht h [str! "$Comp", str! "$EndComp"] (by decide) (.element (.component .dflt)) rfl

/-- The same for a sheet. -/
theorem C73_empty_sheet (t : Str) (s : Schematic F) (ht : WholeLines t) (h : parseStr t = .ok s) :
    parseStr (t ++ str! "$Sheet\n$EndSheet\n") = .ok { s with sheets := s.sheets ++
      [{ x := 0, y := 0, dimx := 0, dimy := 0, unique := [], name := str! "DUMMY", nameSize := 60,
         filename := [], filenameSize := 60, labels := [] }] } :=
  Sch.parse_block t s ht h [str! "$Sheet", str! "$EndSheet"] (by decide) (.sheet .dflt) rfl

/-! ## Examples -/

/-- A title block and a junction. -/
def Spec.addedTitle : Description :=
  { Description.dflt with size := str! "A3", dimx := 10, dimy := 20, title := str! "Two" }
def Spec.addition : Str := (addedTitle.show ++ str! "Connection ~ 1 2\n")

example : WholeLines (sampleSchematic Nm).show ∧
    (parseStr (sampleSchematic Nm).show : Res (Schematic Nm)) = .ok { sampleSchematic Nm with filename := none } ∧
    (parseStr (schHeader ++ addition) : Res (Schematic Nm)) =
      .ok { (Schematic.dflt : Schematic Nm) with eelayer := str! "EELAYER 25 0", elements := [.connection ⟨1, 2⟩],
                                                  description := addedTitle } ∧
    (parseStr ((sampleSchematic Nm).show ++ addition) : Res (Schematic Nm)) =
      .ok { sampleSchematic Nm with
        filename := none, description := addedTitle,
        elements := (sampleSchematic Nm).elements ++ [.connection ⟨1, 2⟩] } :=
  ⟨.inr ⟨(sampleSchematic Nm).show.dropLast, by decide +kernel⟩, C01_roundtrip _ (by decide +kernel), by decide +kernel,
    by decide +kernel⟩

/-- What follows the end mark is read. -/
example : (parseStr (schHeader ++ schEnd ++ str! "Connection ~ 1 2\n") : Res (Schematic Nm)) =
    .ok { (Schematic.dflt : Schematic Nm) with eelayer := str! "EELAYER 25 0", elements := [.connection ⟨1, 2⟩] } := by
  decide +kernel

/-- A broken extension. -/
example : (parseStr ((sampleSchematic Nm).show ++ str! "Connection ~ 1\n") : Res (Schematic Nm)) = .err .other := by
  decide +kernel

end Verif
