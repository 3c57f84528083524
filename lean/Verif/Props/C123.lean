import Verif.Props.C69
import Verif.Props.C122
/-!
# C123: what additions to a board show in a line-by-line comparison
-/

namespace Verif
open Flt Lay

variable {F : Type} [Flt F]

namespace Spec

/-- The line a new net is written on. -/
def netLine (q : Str → Bool) (level : Int) (num : Int) (name : Str) : Str :=
  margin (level + 1) ++ flat (Fm.atomText q) (.list [.str (str! "net"), .str (showInt num), .str name])

/-- The lines of a block with a title and a list on each line. -/
def blockLines (q : Str → Bool) (level : Int) (title : Str) (lists : List Sexp) : List Str :=
  [margin (level + 1) ++ str! "(" ++ title] ++ lists.map (fun x => margin (level + 2) ++ flat (Fm.atomText q) x) ++
    [margin (level + 1) ++ str! ")"]

/-- The values of a net class and its nets. -/
def classEntries (n : NetClass F) : List Sexp :=
  [.list [.str (str! "clearance"), .str (toStr n.clearance)], .list [.str (str! "trace_width"), .str (toStr n.traceWidth)],
   .list [.str (str! "via_dia"), .str (toStr n.viaDia)], .list [.str (str! "via_drill"), .str (toStr n.viaDrill)],
   .list [.str (str! "uvia_dia"), .str (toStr n.uviaDia)], .list [.str (str! "uvia_drill"), .str (toStr n.uviaDrill)]] ++
  (n.diffPairGap.toList.map fun x => .list [.str (str! "diff_pair_gap"), .str (toStr x)]) ++
  (n.diffPairWidth.toList.map fun x => .list [.str (str! "diff_pair_width"), .str (toStr x)]) ++
  n.nets.map fun s => .list [.str (str! "add_net"), .str s]

/-- The empty line that ends the footprints of a board: it is added with what follows them. -/
def endOfFootprints (level : Int) (l : Layout F) : List Str :=
  if (flagsAfter false false l.elements).1 then [margin level] else []

end Spec
open Spec

theorem Diff.unlines_lines (s : Str) : s ++ str! "\n" = (fileLines s).flatMap (· ++ str! "\n") := by
  induction s with
  | nil => rfl
  | cons c s ih =>
    rw [fileLines]
    by_cases h : c = '\n'
    · subst h; simp only [if_true, List.flatMap_cons, ← ih]; rfl
    · rw [if_neg h]
      cases hs : fileLines s with
      | nil => exact absurd hs (Diff.lines_ne_nil s)
      | cons l ls =>
        rw [hs, List.flatMap_cons] at ih
        simp only [List.cons_append, List.flatMap_cons]
        rw [ih]

theorem Diff.lines_noLf (s : Str) : ∀ l ∈ fileLines s, '\n' ∉ l := by
  induction s with
  | nil => simp [fileLines]
  | cons c s ih =>
    rw [fileLines]
    by_cases h : c = '\n'
    · rw [if_pos h]; simpa using ih
    · rw [if_neg h]
      cases hs : fileLines s with
      | nil => exact absurd hs (Diff.lines_ne_nil s)
      | cons l ls =>
        rw [hs] at ih
        simp only [List.mem_cons, forall_eq_or_imp] at ih ⊢
        refine ⟨?_, ih.2⟩
        rintro (e | e)
        · exact h e.symm
        · exact ih.1 e

/-- Text that starts a new line and is put before a line break adds its lines. -/
theorem Diff.added (a x b : Str) : LinesAdded (fileLines x) (a ++ '\n' :: b) (a ++ '\n' :: (x ++ '\n' :: b)) := by
  refine ⟨a, b, by simp, ?_, Diff.lines_noLf x⟩
  rw [← Diff.unlines_lines]
  simp

theorem Lay.toText_append (q : Str → Bool) (level : Int) (l : Layout F) (e : Elem F) (h : PlainBoard l)
    (h' : PlainBoard { l with elements := l.elements ++ [e] }) :
    ∃ a, Lay.toText q level l = a ++ '\n' :: str! ")\n" ∧
      Lay.toText q level { l with elements := l.elements ++ [e] } =
        a ++ (separator level (flagsAfter false false l.elements).1 (flagsAfter false false l.elements).2 e ++
          boardElementText (Fm.atomText q) level e) ++ '\n' :: str! ")\n" := by
  refine ⟨str! "(" ++ Fm.atomText q (str! "kicad_pcb") ++ headerText (Fm.atomText q) level l ++
    boardElements (Fm.atomText q) level false false l.elements, C69_text q level l h, ?_⟩
  rw [C69_text q level _ h', boardElements_append]
  have hh : headerText (Fm.atomText q) level { l with elements := l.elements ++ [e] } = headerText (Fm.atomText q) level l := rfl
  rw [hh]
  simp [boardElements]

/-- What is added by an element that is neither footprint, track nor unknown. -/
theorem Lay.added_plain (q : Str → Bool) (level : Int) (l : Layout F) (e : Elem F) (h : PlainBoard l)
    (h' : PlainBoard { l with elements := l.elements ++ [e] }) (x : Str)
    (hsep : separator level (flagsAfter false false l.elements).1 (flagsAfter false false l.elements).2 e =
      if (flagsAfter false false l.elements).1 then startLine 1 level else [])
    (hx : boardElementText (Fm.atomText q) level e = '\n' :: x) :
    LinesAdded (endOfFootprints level l ++ fileLines x) (Lay.toText q level l)
      (Lay.toText q level { l with elements := l.elements ++ [e] }) := by
  obtain ⟨a, h1, h2⟩ := Lay.toText_append q level l e h h'
  rw [h1, h2, hsep, hx]
  unfold endOfFootprints
  by_cases hf : (flagsAfter false false l.elements).1 = true
  · rw [if_pos hf, if_pos hf]
    have := Diff.added a (margin level ++ '\n' :: x) (str! ")\n")
    rw [Diff.lines_break, Diff.lines_one (Diff.margin_noLf level)] at this
    rw [show a ++ (startLine 1 level ++ '\n' :: x) ++ '\n' :: str! ")\n" =
      a ++ '\n' :: ((margin level ++ '\n' :: x) ++ '\n' :: str! ")\n") by simp [startLine, margin]]
    exact this
  · rw [if_neg hf, if_neg hf]
    have := Diff.added a x (str! ")\n")
    simpa using this

omit [Flt F] in
theorem Lay.plain_append (l : Layout F) (e : Elem F) (h : PlainBoard l) (h1 : ∀ x, e ≠ .other x) (h2 : ∀ z, e ≠ .zone z) :
    PlainBoard { l with elements := l.elements ++ [e] } := by
  refine ⟨h.1, fun x hx => ?_⟩
  rcases List.mem_append.1 hx with hx | hx
  · exact h.2 x hx
  · rw [List.mem_singleton] at hx
    subst hx
    exact ⟨fun y hy => absurd hy (h1 y), fun z hz => absurd hz (h2 z)⟩

theorem Lay.sep_net (level : Int) (m s : Bool) (n : Fp.Net) :
    separator level m s (.net n : Elem F) = if m then startLine 1 level else [] := by
  refine Eq.trans (b := [] ++ ((if m then startLine 1 level else []) ++ [])) ?_ (by simp)
  cases m <;> rfl

theorem Lay.sep_class (level : Int) (m s : Bool) (n : NetClass F) :
    separator level m s (.netClass n) = if m then startLine 1 level else [] := by
  refine Eq.trans (b := [] ++ ((if m then startLine 1 level else []) ++ [])) ?_ (by simp)
  cases m <;> rfl

theorem Lay.sep_module (level : Int) (m s : Bool) (n : Fp.Module F) : separator level m s (.module_ n) = [] := by
  cases m <;> rfl

theorem Diff.showInt_noLf (i : Int) : '\n' ∉ showInt i := by
  exact (word_showInt i).noLf

/-- Adding a net to a board adds one line at the end (and the empty line after the footprints, if
they were last). -/
theorem C123_add_net (q : Str → Bool) (level : Int) (l : Layout F) (num : Int) (name : Str) (h : PlainBoard l) (hn : '\n' ∉ name) :
    LinesAdded (endOfFootprints level l ++ [netLine q level num name]) (Lay.toText q level l) (Lay.toText q level (l.addNet num name)) := by
  have hl : '\n' ∉ netLine q level num name := by
    unfold netLine
    rw [List.mem_append, not_or]
    exact ⟨Diff.margin_noLf _, Diff.flat_noLf q _ (by simp [Diff.oneLine_list, Diff.OneLine, hn, Diff.showInt_noLf])⟩
  rw [← Diff.lines_one hl]
  refine Lay.added_plain q level l (.net ⟨num, name⟩) h (Lay.plain_append l _ h (by simp) (by simp)) _ ?_ ?_
  · exact Lay.sep_net level _ _ _
  · rfl

theorem Diff.linewise_lists (q : Str → Bool) (level : Int) (x : Str) (hx : '\n' ∉ x) (lists : List Sexp)
    (h : ∀ e ∈ lists, (∃ l, e = .list l) ∧ Diff.OneLine e) (y : Str) :
    fileLines (x ++ linewise (Fm.atomText q) level lists ++ '\n' :: y) =
      [x] ++ lists.map (fun e => margin level ++ flat (Fm.atomText q) e) ++ fileLines y := by
  rw [Diff.lines_break]
  congr 1
  induction lists generalizing x with
  | nil => simp [linewise, Diff.lines_one hx]
  | cons e ls ih =>
    obtain ⟨⟨l, rfl⟩, ho⟩ := h e List.mem_cons_self
    have hl : '\n' ∉ margin level ++ flat (Fm.atomText q) (.list l) := by
      rw [List.mem_append, not_or]; exact ⟨Diff.margin_noLf _, Diff.flat_noLf q _ ho⟩
    have := ih _ hl fun e he => h e (List.mem_cons_of_mem _ he)
    rw [show x ++ linewise (Fm.atomText q) level (.list l :: ls) =
      x ++ '\n' :: (margin level ++ flat (Fm.atomText q) (.list l) ++ linewise (Fm.atomText q) level ls) by
        simp [linewise, startLine, margin]]
    rw [Diff.lines_break, this, Diff.lines_one hx]
    rfl

/-- Adding a net class adds a block of lines at the end: an empty line, the title, a line for each value and
each net, and the closing parenthesis. -/
theorem C123_add_netclass [TextLaws F] (q : Str → Bool) (level : Int) (l : Layout F) (nc : NetClass F) (h : PlainBoard l)
    (hn : '\n' ∉ nc.name) (hd : '\n' ∉ nc.desc) (hs : ∀ s ∈ nc.nets, '\n' ∉ s) :
    LinesAdded (endOfFootprints level l ++ [[]] ++ blockLines q level (Fm.atomText q (str! "net_class") ++ str! " " ++ Fm.atomText q nc.name ++
      str! " " ++ Fm.atomText q nc.desc) (classEntries nc)) (Lay.toText q level l) (Lay.toText q level (l.addNetclass nc)) := by
  have ho : ∀ e ∈ classEntries nc, (∃ l, e = .list l) ∧ Diff.OneLine e := by
    intro e he
    simp only [classEntries, List.mem_append, List.mem_map, List.mem_cons, List.not_mem_nil, or_false] at he
    rcases he with (((rfl | rfl | rfl | rfl | rfl | rfl) | ⟨x, _, rfl⟩) | ⟨x, _, rfl⟩) | ⟨s, h, rfl⟩
    all_goals refine ⟨⟨_, rfl⟩, ?_⟩
    all_goals first
      | simp [Diff.oneLine_list, Diff.OneLine, Diff.toStr_noLf]; done
      | simp [Diff.oneLine_list, Diff.OneLine, hs s h]
  have ht : '\n' ∉ margin (level + 1) ++ str! "(" ++ (Fm.atomText q (str! "net_class") ++ str! " " ++ Fm.atomText q nc.name ++
      str! " " ++ Fm.atomText q nc.desc) := by
    have h1 := Diff.atomText_noLf q (s := str! "net_class") (by decide)
    have h2 := Diff.atomText_noLf q hn
    have h3 := Diff.atomText_noLf q hd
    simp only [List.mem_append, not_or, h1, h2, h3, Diff.margin_noLf, not_false_eq_true, true_and, and_true]
    decide
  have hc : '\n' ∉ margin (level + 1) ++ str! ")" := by
    rw [List.mem_append, not_or]; exact ⟨Diff.margin_noLf _, by decide⟩
  have key := Lay.added_plain q level l (.netClass nc) h (Lay.plain_append l _ h (by simp) (by simp))
    ('\n' :: (margin (level + 1) ++ str! "(" ++ (Fm.atomText q (str! "net_class") ++ str! " " ++ Fm.atomText q nc.name ++
      str! " " ++ Fm.atomText q nc.desc) ++ linewise (Fm.atomText q) (level + 2) (classEntries nc) ++ '\n' ::
      (margin (level + 1) ++ str! ")"))) (Lay.sep_class level _ _ _) (by
      have hb : body nc.ser = [.str nc.name, .str nc.desc] ++ classEntries nc := by
        unfold NetClass.ser classEntries
        cases nc.diffPairGap <;> cases nc.diffPairWidth <;> rfl
      simp only [boardElementText, section_, hb]
      simp [linewise, startLine, margin, flat])
  rw [show ('\n' :: (margin (level + 1) ++ str! "(" ++ (Fm.atomText q (str! "net_class") ++ str! " " ++ Fm.atomText q nc.name ++
      str! " " ++ Fm.atomText q nc.desc) ++ linewise (Fm.atomText q) (level + 2) (classEntries nc) ++ '\n' ::
      (margin (level + 1) ++ str! ")"))) = [] ++ '\n' :: (margin (level + 1) ++ str! "(" ++ (Fm.atomText q (str! "net_class") ++ str! " " ++ Fm.atomText q nc.name ++
      str! " " ++ Fm.atomText q nc.desc) ++ linewise (Fm.atomText q) (level + 2) (classEntries nc) ++ '\n' ::
      (margin (level + 1) ++ str! ")")) from rfl, Diff.lines_break, Diff.linewise_lists q (level + 2) _ ht _ ho, Diff.lines_one hc] at key
  simpa [blockLines, fileLines, Layout.addNetclass] using key

/-- Adding a footprint adds an empty line and the lines of its own file, one level deeper. -/
theorem C123_add_footprint (q : Str → Bool) (level : Int) (l : Layout F) (m : Fp.Module F) (h : PlainBoard l) :
    ∃ content, Fp.toText q (level + 1) m = content ++ str! "\n)" ∧
      LinesAdded ([[]] ++ fileLines (margin (level + 1) ++ content) ++ [margin (level + 1) ++ str! ")"])
        (Lay.toText q level l) (Lay.toText q level { l with elements := l.elements ++ [.module_ m] }) := by
  obtain ⟨c, h1, h2⟩ := C69_footprint_as_in_file q level m
  refine ⟨c, h1, ?_⟩
  obtain ⟨a, h3, h4⟩ := Lay.toText_append q level l (.module_ m) h (Lay.plain_append l _ h (by simp) (by simp))
  rw [h3, h4, h2, Lay.sep_module]
  have hc : '\n' ∉ margin (level + 1) ++ str! ")" := by
    rw [List.mem_append, not_or]; exact ⟨Diff.margin_noLf _, by decide⟩
  have := Diff.added a ([] ++ '\n' :: ((margin (level + 1) ++ c) ++ '\n' :: (margin (level + 1) ++ str! ")"))) (str! ")\n")
  rw [Diff.lines_break, Diff.lines_break, Diff.lines_one hc] at this
  simpa [startLine, margin, fileLines] using this

/-- Setting an entry the setup does not have yet adds one line to the setup. -/
theorem C123_new_setup_entry (q : Str → Bool) (level : Int) (l : Layout F) (name value : Str)
    (h : PlainBoard l) (hx : ∀ e ∈ l.setup.elements, e.name ≠ name)
    (hn : name ≠ [] ∧ name ≠ str! "module" ∧ name ≠ str! "kicad_pcb" ∧ name ≠ str! "segment") (hl : '\n' ∉ name) (hv : '\n' ∉ value) :
    LinesAdded [margin (level + 2) ++ flat (Fm.atomText q) (.list [.str name, .str value])]
      (Lay.toText q level l) (Lay.toText q level { l with setup := l.setup.updateElement name value }) := by
  have hu : l.setup.updateElement name value = { l.setup with elements := l.setup.elements ++ [⟨name, value, none⟩] } := by
    have : ∀ es : List SetupElement, (∀ e ∈ es, e.name ≠ name) → updateElementIn name value es = none := by
      intro es
      induction es with
      | nil => intro _; rfl
      | cons e es ih =>
        intro h
        rw [updateElementIn, if_neg (h e List.mem_cons_self), ih fun e he => h e (List.mem_cons_of_mem _ he)]
        rfl
    unfold Setup.updateElement
    rw [this _ hx]
  rw [hu]
  have h' : PlainBoard { l with setup := { l.setup with elements := l.setup.elements ++ [⟨name, value, none⟩] } } := by
    refine ⟨fun s hs => ?_, h.2⟩
    simp only [List.mem_append, List.mem_singleton] at hs
    rcases hs with (hs | rfl) | hs
    · exact h.1 s (List.mem_append_left _ hs)
    · exact hn
    · exact h.1 s (List.mem_append_right _ hs)
  rw [C69_text q level l h, C69_text q level _ h']
  have hline : '\n' ∉ margin (level + 2) ++ flat (Fm.atomText q) (.list [.str name, .str value]) := by
    rw [List.mem_append, not_or]
    exact ⟨Diff.margin_noLf _, Diff.flat_noLf q _ (by simp [Diff.oneLine_list, Diff.OneLine, hl, hv])⟩
  rw [← Diff.lines_one hline]
  have := Diff.added (str! "(" ++ Fm.atomText q (str! "kicad_pcb") ++
      (flatL (Fm.atomText q) [Sx.pair (str! "version") (Sx.ofI l.version),
        Sx.node (str! "host") [.str l.host.tool, .str l.host.build]] ++
      section_ (Fm.atomText q) 2 (level + 1) (str! "general") (linewise (Fm.atomText q) (level + 2) (body l.general.ser)) ++
      startLine 2 (level + 1) ++ flat (Fm.atomText q) (Sx.pair (str! "page") (.str l.page)) ++
      section_ (Fm.atomText q) 1 (level + 1) (str! "layers") (linewise (Fm.atomText q) (level + 2) (l.layers.map Layer.ser)) ++
      (startLine 2 (level + 1) ++ ['('] ++ Fm.atomText q (str! "setup") ++
        linewise (Fm.atomText q) (level + 2) (l.setup.elements.map SetupElement.ser))))
    (margin (level + 2) ++ flat (Fm.atomText q) (.list [.str name, .str value]))
    (margin (level + 2) ++ ['('] ++ Fm.atomText q (str! "pcbplotparams") ++
        linewise (Fm.atomText q) (level + 3) (l.setup.pcbplotparams.map SetupElement.ser) ++ [')'] ++
        startLine 1 (level + 1) ++ [')'] ++ ['\n'] ++ boardElements (Fm.atomText q) level false false l.elements ++ str! "\n)\n")
  have hs : ∀ lv, startLine 1 lv = '\n' :: margin lv := fun _ => rfl
  have hlw : linewise (Fm.atomText q) (level + 2) ((l.setup.elements ++ [(⟨name, value, none⟩ : SetupElement)]).map SetupElement.ser) =
      linewise (Fm.atomText q) (level + 2) (l.setup.elements.map SetupElement.ser) ++
        '\n' :: (margin (level + 2) ++ flat (Fm.atomText q) (.list [.str name, .str value])) := by
    simp [linewise, SetupElement.ser, hs]
  simp only [headerText, section_, hlw, hs] at this ⊢
  simpa using this

omit [Flt F] in
theorem Lay.flagsAfter_append (m s : Bool) (a b : List (Elem F)) :
    flagsAfter m s (a ++ b) = flagsAfter (flagsAfter m s a).1 (flagsAfter m s a).2 b := by
  induction a generalizing m s with
  | nil => rfl
  | cons e a ih => exact ih _ _

omit [Flt F] in
/-- The empty line comes with the addition exactly if a footprint was last (on a board without
unknown parts). -/
theorem C123_empty_line (level : Int) (l : Layout F) (h : ∀ e ∈ l.elements, ∀ x, e ≠ .other x) :
    endOfFootprints level l = [margin level] ↔ ∃ es m, l.elements = es ++ [.module_ m] := by
  unfold endOfFootprints
  rcases List.eq_nil_or_concat l.elements with he | ⟨es, e, he⟩
  · rw [he]; simp [flagsAfter]
  · rw [List.concat_eq_append] at he
    rw [he, Lay.flagsAfter_append]
    have ho := h e (by rw [he]; simp)
    cases e with
    | module_ m => exact ⟨fun _ => ⟨es, m, rfl⟩, fun _ => rfl⟩
    | other x => exact absurd rfl (ho x)
    | _ =>
      refine ⟨fun h => ?_, fun ⟨a, b, h⟩ => ?_⟩
      · exact absurd h (by simp [flagsAfter, afterModule])
      · exact absurd (List.append_inj_right' h rfl) (by simp)

/-- The sample board meets the hypotheses, and its file does change. -/
example : PlainBoard Spec.sampleLayout ∧ (∀ e ∈ Spec.sampleLayout.setup.elements, e.name ≠ str! "grid_origin") ∧
    Lay.toText Fm.stdQuote 0 (Spec.sampleLayout.addNet 7 (str! "+5V")) ≠ Lay.toText Fm.stdQuote 0 Spec.sampleLayout := by
  refine ⟨Spec.sampleLayout_plain, by decide, by decide +kernel⟩

example : netLine Fm.stdQuote 0 7 (str! "+5V") = str! "  (net 7 +5V)" := by decide

/-- A footprint at the end: the empty line comes with the net. -/
example : endOfFootprints 0 ({ Spec.sampleLayout with elements := [.module_ ⟨str! "R", []⟩] } : Layout Nm) = [[]] := by decide

end Verif
