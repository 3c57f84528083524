import Verif.Props.C01
import Verif.Props.C03
import Verif.Lemmas.SchPanic
import Verif.Lemmas.SchBreak
import Verif.Props.C76
/-!
# C04: reading a damaged schematic

The full claim is that `parse_str` returns a value or an error and never panics,
for every text.  It is false: the theorems below show whole families of texts on
which the reader panics.  What holds is that a text that does not start with the
schematic header is rejected with an error (`C04_foreign_rejected_partial`), and
that the reader panics only on the kinds of damage listed in
`Verif/Spec/SchematicDefects.lean` (`C04_panic_cause`, `C04_undamaged_partial`).
`C04_panics_iff` says exactly on which texts it panics, and `C04_truncation` what
becomes of a good file that was cut off.
-/

namespace Verif
open Sch Spec Flt

variable {F : Type} [Flt F]

/-- Any text whose first line is not the schematic header is rejected with an error.
Missing from the full claim: texts with the header. -/
theorem C04_foreign_rejected_partial (t : Str)
    (h : (lines t).head? ≠ some (str! "EESchema Schematic File Version 2")) :
    (parseStr t : Res (Schematic F)) = .err .other := by
  unfold parseStr parse parseLines
  cases hl : lines t with
  | nil => rfl
  | cons a l =>
    rw [hl, List.head?_cons, ne_eq, Option.some.injEq] at h
    rw [assumeLine, if_pos h]
    rfl

example : (lines (str! "(module x)")).head? ≠ some (str! "EESchema Schematic File Version 2") := by decide

/-- The reader panics only on a text with one of the listed kinds of damage. -/
theorem C04_panic_cause (t : Str) (h : (parseStr t : Res (Schematic F)) = .panic) : SchDefect (lines t) :=
  parseLines_panic h

/-- A text without such damage is read or rejected with an error.
Missing from the full claim: damaged texts, which make the reader panic. -/
theorem C04_undamaged_partial (t : Str) (h : ¬ SchDefect (lines t)) :
    (∃ s : Schematic F, parseStr t = .ok s) ∨ ∃ e, (parseStr t : Res (Schematic F)) = .err e := by
  cases hp : (parseStr t : Res (Schematic F)) with
  | ok s => exact Or.inl ⟨s, rfl⟩
  | err e => exact Or.inr ⟨e, rfl⟩
  | panic => exact absurd (C04_panic_cause t hp) h
  | diverge => exact absurd hp (C03_parse_terminates t)

/-- A text with a wire, a connection and a line of another kind, without damage. -/
example : ¬ SchDefect (lines (str! "EESchema Schematic File Version 2\nLIBS:power\nEELAYER 25 0\nEELAYER END\n\
    Wire Wire Line\n\t1 2 3 4\nConnection ~ 1 2\nKmarq B 1 2\n$EndSCHEMATC\n")) := by
  generalize hl : lines _ = ls
  have hls : ls = [str! "EESchema Schematic File Version 2", str! "LIBS:power", str! "EELAYER 25 0",
      str! "EELAYER END", str! "Wire Wire Line", str! "\t1 2 3 4", str! "Connection ~ 1 2",
      str! "Kmarq B 1 2", str! "$EndSCHEMATC"] := by rw [← hl]; decide +kernel
  clear hl
  rintro (⟨libs, h, hlib⟩ | h)
  · rw [hls] at h
    injection h with _ h
    obtain ⟨r, hr⟩ := hlib (str! "EELAYER 25 0") (by rw [← h]; decide)
    cases hr
  · have hno : ∀ w, (w = str! "$Comp" ∨ w = str! "$Sheet" ∨ w = str! "$Descr" ∨ w = str! "F" ∨ w = str! "Text") →
        ∀ l ∈ ls, ¬ Begins w l := by
      rw [hls]; unfold Begins
      rintro w (rfl | rfl | rfl | rfl | rfl) <;> decide +kernel
    cases h with
    | blankLine hl h =>
      have : ∀ l ∈ ls, ∃ c ∈ l, ¬ isWs c = true := by rw [hls]; decide +kernel
      obtain ⟨c, hc, hn⟩ := this _ hl
      exact hn (h c hc)
    | openComponent h he => exact hno _ (by simp) _ (by simp) h
    | openSheet h he => exact hno _ (by simp) _ (by simp) h
    | openDescription h he => exact hno _ (by simp) _ (by simp) h
    | @cut a l h =>
      rcases h with h | h
      · have : (a ++ [l]).getLast? = some (str! "$EndSCHEMATC") := by rw [hls]; decide
        rw [List.getLast?_append] at this
        cases this
        exact absurd h (by unfold Begins; decide)
      · exact hno _ (by simp) _ (by simp) h
    | field hl h => exact hno _ (by simp) _ hl h.1
    | label hl h => exact hno _ (by simp) _ hl h.1

/-- A text that ends in its header always makes the reader panic. -/
theorem C04_header_only_panics (t : Str) (h : EndsInHeader (lines t)) :
    (parseStr t : Res (Schematic F)) = .panic := by
  obtain ⟨libs, hl, hlib⟩ := h
  have hp : ∀ (libs : List Str) (sch : Schematic F), (∀ l ∈ libs, ∃ r, l = str! "LIBS:" ++ r) →
      (parseLibs sch libs).2 = [] := by
    intro libs
    induction libs with
    | nil => intro _ _; rfl
    | cons a libs ih =>
      intro sch h
      rw [List.forall_mem_cons] at h
      obtain ⟨⟨r, rfl⟩, h⟩ := h
      rw [parseLibs, if_pos (by rfl)]
      exact ih _ h
  unfold parseStr parse parseLines
  rw [hl, assumeLine, if_neg (by simp), Res.bind_ok]
  simp only [hp libs _ hlib]
  rfl

example : EndsInHeader (lines (str! "EESchema Schematic File Version 2\nLIBS:power\n")) :=
  ⟨[str! "LIBS:power"], by decide, by simp⟩

/-- The reader panics on exactly the texts described in `Verif/Spec/SchematicPanics.lean`:
the file ends in its header, or complete items are followed by a line without words, an
item the file ends in, a component with a field in which a letter is missing, or a label
without thickness. -/
theorem C04_panics_iff (t : Str) : (parseStr t : Res (Schematic F)) = .panic ↔ SchematicPanics F (lines t) :=
  lines_panic none (lines t)

/-- Every text that neither follows the grammar of schematics (C76) nor makes the reader
panic is rejected with an error. -/
theorem C04_error_iff (t : Str) : (∃ e, (parseStr t : Res (Schematic F)) = .err e) ↔
    (∀ s : Schematic F, ¬ SchematicLines (lines t) s) ∧ ¬ SchematicPanics F (lines t) := by
  simp only [← C76_grammar, ← C04_panics_iff]
  cases hp : (parseStr t : Res (Schematic F)) with
  | ok s => simp
  | err e => simp
  | panic => simp
  | diverge => exact absurd hp (C03_parse_terminates t)

/-- A field with an empty direction after a complete item. -/
example : SchematicPanics Nm (lines (str! "EESchema Schematic File Version 2\nEELAYER 25 0\nEELAYER END\n\
    NoConn ~ 3 4\n$Comp\nL R R1\nF 0 \"R1\" \"\" 1 2 60 0000 C CNN\n$EndComp\n")) := by
  rw [← C04_panics_iff]
  decide +kernel

/-- The same, but the damage comes after an error. -/
example : ¬ SchematicPanics Nm (lines (str! "EESchema Schematic File Version 2\nEELAYER 25 0\nEELAYER END\n\
    NoConn ~ 3 x\n$Comp\nL R R1\nF 0 \"R1\" \"\" 1 2 60 0000 C CNN\n$EndComp\n")) := by
  rw [← C04_panics_iff]
  decide +kernel

theorem Sch.content_prefix {ls : List Str} {ps : List (Part F)} (h : ContentLines ls ps) :
    ∀ a, a <+: ls → ∃ b c, ∃ qs : List (Part F), a = b ++ c ∧ ContentLines b qs ∧ qs <+: ps ∧ (c = [] ∨ BreaksOff F c) := by
  induction h with
  | nil =>
    intro a ha
    exact ⟨[], [], [], List.prefix_nil.1 ha, .nil, List.nil_prefix, .inl rfl⟩
  | @cons x y p ps h ht ih =>
    intro a ha
    obtain ⟨more, hm⟩ := ha
    rcases List.append_eq_append_iff.1 hm with ⟨r, h1, h2⟩ | ⟨r, h1, h2⟩
    · subst h1
      by_cases ha : a = []
      · exact ⟨[], [], [], ha, .nil, List.nil_prefix, .inl rfl⟩
      by_cases hr : r = []
      · subst hr
        rw [List.append_nil] at h
        refine ⟨a, [], [p], by simp, ?_, by simp, .inl rfl⟩
        have := ContentLines.cons h .nil
        rwa [List.append_nil] at this
      · exact ⟨[], a, [], rfl, .nil, List.nil_prefix, .inr (.cut ha hr h)⟩
    · obtain ⟨b, c, qs, hbc, h3, h5, h4⟩ := ih r ⟨more, h2.symm⟩
      exact ⟨x ++ b, c, _, by rw [h1, hbc, List.append_assoc], .cons h h3, (List.prefix_cons_inj _).2 h5, h4⟩

/-- What is left of a good file of which only the first lines are left. -/
theorem Sch.truncated (ls more : List Str) (s : Schematic F) (h : SchematicLines (ls ++ more) s) :
    (ls.length = 0 ∨ ls.length = s.libraries.length + 2) ∧ (∃ e, (parseLines none ls : Res (Schematic F)) = .err e) ∨
    ls.length ≠ 0 ∧ ls.length ≠ s.libraries.length + 2 ∧ (SchematicPanics F ls ∨
      ∃ m : Schematic F, SchematicLines ls m ∧ m.libraries = s.libraries ∧ m.eelayer = s.eelayer ∧
        m.elements <+: s.elements ∧ m.sheets <+: s.sheets) := by
  obtain ⟨layer, body, ps, hl, hl3, _, hc, _, hel, hsh⟩ := h
  obtain ⟨head, hhead⟩ : ∃ head, head = str! "EESchema Schematic File Version 2" ::
    (s.libraries.map fun n => str! "LIBS:" ++ n) := ⟨_, rfl⟩
  have hlen : head.length = s.libraries.length + 1 := by rw [hhead]; simp
  have hl2 : ls ++ more = head ++ (str! "EELAYER " ++ layer) :: str! "EELAYER END" :: body := by
    rw [hl, hhead]
  have open_ : parseLines none ls = (do
      let p ← assumeLine (str! "EESchema Schematic File Version 2") ls
      let (sch, p) := parseLibs (⟨none, [], .dflt, [], [], []⟩ : Schematic F) p
      let s ← here p
      if !startsWith s (str! "EELAYER ") then .err .other
      else do
        let sch := { sch with eelayer := s }
        let p ← assumeLine (str! "EELAYER END") (next p)
        parseItems p.length sch p) := rfl
  rcases List.append_eq_append_iff.1 hl2 with ⟨r, h1, h2⟩ | ⟨r, h1, h2⟩
  · cases ls with
    | nil => exact .inl ⟨.inl rfl, _, open_⟩
    | cons l ls =>
      right
      have : (l :: ls).length ≤ s.libraries.length + 1 := by
        rw [← hlen, h1, List.length_append]
        omega
      refine ⟨by simp, by omega, .inl (.inl ?_)⟩
      rw [hhead] at h1
      injection h1 with e h1
      rw [← e]
      refine ⟨ls, rfl, fun x hx => ?_⟩
      have : x ∈ s.libraries.map fun n => str! "LIBS:" ++ n := by rw [h1]; exact List.mem_append_left _ hx
      obtain ⟨n, _, rfl⟩ := List.mem_map.1 this
      exact ⟨n, rfl⟩
  · match r, h1, h2 with
    | [], h1, h2 =>
      right
      rw [h1, List.append_nil, hlen]
      refine ⟨by simp, by simp, .inl (.inl ?_)⟩
      rw [hhead]
      exact ⟨_, rfl, by simp⟩
    | [x], h1, h2 =>
      left
      injection h2 with hx _
      subst hx
      refine ⟨.inr (by rw [h1, List.length_append, hlen]; rfl), .other, ?_⟩
      rw [open_, h1, hhead, List.cons_append, (Lib.assume_iff ..).2 rfl, Res.bind_ok,
        libs_accept _ _ (by intro s r e; cases e; rfl)]
      rfl
    | x :: y :: a, h1, h2 =>
      right
      simp only [List.cons_append, List.cons.injEq] at h2
      obtain ⟨rfl, rfl, h2⟩ := h2
      obtain ⟨b, c, qs, rfl, hb, hq, hcc⟩ := content_prefix hc a ⟨more, h2.symm⟩
      have hln : ls.length = s.libraries.length + 1 + ((b ++ c).length + 2) := by
        rw [h1, List.length_append, hlen]
        rfl
      refine ⟨by omega, by omega, ?_⟩
      rcases hcc with rfl | hcc
      · right
        refine ⟨⟨none, s.libraries, (qs.filterMap Part.descr?).getLastD .dflt, qs.filterMap Part.element?,
          qs.filterMap Part.sheet?, str! "EELAYER " ++ layer⟩, ⟨layer, b, qs, ?_, rfl, rfl, hb, rfl, rfl, rfl⟩,
          rfl, hl3.symm, ?_, ?_⟩
        · rw [h1, hhead, List.append_nil]
          rfl
        · rw [hel]
          exact hq.filterMap _
        · rw [hsh]
          exact hq.filterMap _
      · exact .inl (.inr ⟨s.libraries, layer, b, c, qs, by rw [h1, hhead]; rfl, hb, hcc⟩)

/-- A good file of which only the first lines are left is read if it was cut between two
items, and makes the reader panic otherwise.  It is rejected with an error only if no line is
left or the last one left is the first line of the layers. -/
theorem C04_truncation (t : Str) (more : List Str) (s : Schematic F) (h : SchematicLines (lines t ++ more) s) :
    (∃ e, (parseStr t : Res (Schematic F)) = .err e) ↔
      (lines t).length = 0 ∨ (lines t).length = s.libraries.length + 2 := by
  have hp : (parseStr t : Res (Schematic F)) = parseLines none (lines t) := rfl
  rcases truncated _ _ _ h with ⟨h1, h2⟩ | ⟨h1, h2, h3 | ⟨m, h3, _⟩⟩
  · exact iff_of_true (hp ▸ h2) h1
  · rw [(C04_panics_iff t).2 h3]
    simp [h1, h2]
  · rw [(C76_grammar t m).2 h3]
    simp [h1, h2]

/-- If what is left of a good file is read at all, nothing is made up: the libraries and the
layers are the same and the elements and sheets are the first ones of the whole file. -/
theorem C04_truncation_reads (t : Str) (more : List Str) (s m : Schematic F) (h : SchematicLines (lines t ++ more) s)
    (hm : parseStr t = .ok m) :
    m.libraries = s.libraries ∧ m.eelayer = s.eelayer ∧ m.elements <+: s.elements ∧ m.sheets <+: s.sheets := by
  have hp : (parseStr t : Res (Schematic F)) = parseLines none (lines t) := rfl
  rcases truncated _ _ _ h with ⟨_, e, h2⟩ | ⟨_, _, h3 | ⟨m', h3, h4⟩⟩
  · rw [hp, h2] at hm
    cases hm
  · rw [(C04_panics_iff t).2 h3] at hm
    cases hm
  · rw [(C76_grammar t m').2 h3] at hm
    cases hm
    exact h4

/-- The first eight lines of the file of C76. -/
example : ∃ more, SchematicLines (lines ((smallSchematic.take 110)) ++ more) smallSchematicValue := by
  have h := smallSchematic_lines
  have : lines smallSchematic = lines (smallSchematic.take 110) ++ (lines smallSchematic).drop (lines (smallSchematic.take 110)).length := by
    decide +kernel
  rw [this] at h
  exact ⟨_, h⟩

variable [TextLaws F]

/-- The words added to the end of a saved schematic. -/
theorem Sch.parseStr_append (s : Schematic F) (h : FitsSchematic s) (a : Str) (l : List Str)
    (hx : ∀ x ∈ a :: l, OneLine x) :
    ∃ n, parseStr (s.show ++ unlines (a :: l)) = (do
      let (sch, p) ← parseItem ({ s with filename := none } : Schematic F) (a :: l)
      parseItems (n + l.length) sch (next p) : Res (Schematic F)) := by
  obtain ⟨n, hn, he⟩ := parse_show_append none s h (a :: l) hx
  obtain ⟨m, rfl⟩ : ∃ m, n = m + l.length + 1 := ⟨n - (l.length + 1), by simp at hn; omega⟩
  refine ⟨m, ?_⟩
  rw [parseStr, he, parseItems]
  simp

/-- One blank line after a saved schematic makes the reader panic. -/
theorem C04_blank_line_panics (s : Schematic F) (h : FitsSchematic s) (blank : Str)
    (hb : ∀ c ∈ blank, c = ' ' ∨ c = '\t') :
    (parseStr (s.show ++ blank ++ str! "\n") : Res (Schematic F)) = .panic := by
  have hol : OneLine blank :=
    ⟨fun hc => by rcases hb _ hc with h | h <;> exact absurd h (by decide),
     fun hc => by rcases hb _ (List.mem_of_getLast? hc) with h | h <;> exact absurd h (by decide)⟩
  obtain ⟨n, hn⟩ := parseStr_append s h blank [] (by simpa using hol)
  have hu : unlines [blank] = blank ++ str! "\n" := by simp [unlines]
  rw [hu, ← List.append_assoc] at hn
  rw [hn, parseItem, here, Res.bind_ok]
  have hw : firstWord blank = none := by
    have : ∀ b : Str, (∀ c ∈ b, c = ' ' ∨ c = '\t') → splitWs b = [] := by
      intro b
      induction b with
      | nil => intro _; rfl
      | cons c b ih =>
        intro hc
        rw [List.forall_mem_cons] at hc
        have := splitWs_space (c := c) (by rcases hc.1 with h | h <;> subst h <;> decide) b
        rw [this, ih hc.2]
    rw [firstWord, this blank hb]
    rfl
  rw [hw]
  rfl

example : FitsSchematic (sampleSchematic Nm) ∧ ∀ c ∈ str! " \t ", c = ' ' ∨ c = '\t' := by decide +kernel

/-- A saved schematic followed by the first line of a wire makes the reader panic. -/
theorem C04_cut_wire_panics (s : Schematic F) (h : FitsSchematic s) :
    (parseStr (s.show ++ str! "Wire Wire Line\n") : Res (Schematic F)) = .panic := by
  obtain ⟨n, hn⟩ := parseStr_append s h (str! "Wire Wire Line") [] (by decide)
  have hu : unlines [str! "Wire Wire Line"] = str! "Wire Wire Line\n" := by decide
  rw [hu] at hn
  rw [hn]
  have hf : firstWord (str! "Wire Wire Line") = some (str! "Wire") := by decide
  have hp : parseWire [str! "Wire Wire Line"] = .panic := by decide
  rw [parseItem]
  simp only [here, Res.bind_ok, hf, hp]
  rfl

/-- A file that ends inside a component makes the reader panic: here, one cut just
before the end mark of any component after any saved schematic. -/
theorem C04_truncated_component_panics (s : Schematic F) (h : FitsSchematic s) (c : Component F)
    (hc : FitsComponent c) (t : Str) (ht : t ++ str! "$EndComp\n" = c.show) :
    (parseStr (s.show ++ t) : Res (Schematic F)) = .panic := by
  have hr := ((fitsComponent_iff c).1 hc).1
  obtain ⟨pre, hpre⟩ : ∃ pre, pre = c.lLine :: c.u :: c.pLine :: (c.arPath ++ (c.fields.map Field.show ++
      [c.oneLineOf, c.rotation.line])) := ⟨_, rfl⟩
  have hl : c.lns = (str! "$Comp" :: pre) ++ [str! "$EndComp"] := by
    rw [hpre]; simp [Component.lns, Component.tailLines]
  have hteq : t = unlines (str! "$Comp" :: pre) := by
    have : c.show = unlines (str! "$Comp" :: pre) ++ str! "$EndComp\n" := by
      rw [c.show_eq, hl, unlines_append]; rfl
    rw [this] at ht
    exact List.append_cancel_right ht
  have hol : ∀ x ∈ str! "$Comp" :: pre, OneLine x := fun x hx =>
    c.lns_oneLine hr ((fitsComponent_iff c).1 hc).2.2 x (by rw [hl]; exact List.mem_append_left _ hx)
  obtain ⟨n, hn⟩ := parseStr_append s h _ _ hol
  rw [hteq, hn]
  have hf : firstWord (str! "$Comp") = some (str! "$Comp") := by decide
  have hloop : parseComponentLoop (.dflt : Component F) pre = .panic := by
    rw [hpre, compLoop_l _ c ((fitsComponent_iff c).1 hc).2.1, compLoop_u _ _ rfl hr, compLoop_p _ _ hr, compLoop_ar _ _ _ (fun a ha => (hr.2.2.2.2.2.2.1 a ha).2),
      compLoop_f _ _ _ hc.2.2.2.2.2.2.2.1]
    have hf1 : Verif.firstWord c.oneLineOf = some (str! "1") := by
      unfold Component.oneLineOf
      flat
      rfl
    rw [parseComponentLoop.eq_def]
    simp only
    rw [if_neg (ne_of_firstWord hf1 (by decide) (by decide))]
    simp only [hf1]
    simp [parseRotation_line c.rotation hr.2.2.2.2.2.2.2.2, parseComponentLoop]
  rw [parseItem]
  simp only [here, Res.bind_ok, hf, parseComponent, next, List.drop_succ_cons, List.drop_zero, hloop]
  rfl

example : ∃ t, t ++ str! "$EndComp\n" = (sampleComponent Nm).show := by
  refine ⟨(sampleComponent Nm).show.take ((sampleComponent Nm).show.length - 9), ?_⟩
  decide +kernel

/-- A global label line without its last word makes the reader panic. -/
theorem C04_short_label_panics (s : Schematic F) (h : FitsSchematic s) :
    (parseStr (s.show ++ str! "Text GLabel 1 2 0 60 UnSpc ~\nNET\n") : Res (Schematic F)) = .panic := by
  obtain ⟨n, hn⟩ := parseStr_append s h (str! "Text GLabel 1 2 0 60 UnSpc ~") [str! "NET"] (by decide)
  have hu : unlines [str! "Text GLabel 1 2 0 60 UnSpc ~", str! "NET"] =
      str! "Text GLabel 1 2 0 60 UnSpc ~\nNET\n" := by decide
  rw [hu] at hn
  rw [hn]
  have hf : firstWord (str! "Text GLabel 1 2 0 60 UnSpc ~") = some (str! "Text") := by decide
  have hp : parseText [str! "Text GLabel 1 2 0 60 UnSpc ~", str! "NET"] = .panic := by decide
  rw [parseItem]
  simp only [here, Res.bind_ok, hf, hp]
  rfl

end Verif
