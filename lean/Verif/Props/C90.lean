import Verif.Lemmas.SchOut
import Verif.Lemmas.SchRead
import Verif.Props.C76
import Verif.Props.C01
/-!
# C90 – the reader says which lines of a schematic it skips
-/

namespace Verif
open Sch Spec Told Flt

variable {F : Type} [Flt F]

/-! ## Interleaved lists -/

theorem Spec.Interleaved.all {α : Type} (ls : List α) : Interleaved ls ls [] := by
  induction ls with
  | nil => exact .nil
  | cons a ls ih => exact .left ih

theorem Spec.Interleaved.append {α : Type} {l1 a1 b1 : List α} (h : Interleaved l1 a1 b1) {l2 a2 b2 : List α}
    (h2 : Interleaved l2 a2 b2) : Interleaved (l1 ++ l2) (a1 ++ a2) (b1 ++ b2) := by
  induction h with
  | nil => exact h2
  | left _ ih => exact .left ih
  | right _ ih => exact .right ih

theorem Spec.Interleaved.sublist {α : Type} {l a b : List α} (h : Interleaved l a b) : List.Sublist b l := by
  induction h with
  | nil => exact .slnil
  | left _ ih => exact .cons _ ih
  | right _ ih => exact .cons_cons _ ih

theorem Spec.Interleaved.mem {α : Type} {l a b : List α} (h : Interleaved l a b) {x : α} (hx : x ∈ a) : x ∈ l := by
  induction h with
  | nil => exact hx
  | left _ ih =>
    rcases List.mem_cons.1 hx with rfl | hx
    · exact List.mem_cons_self ..
    · exact List.mem_cons_of_mem _ (ih hx)
  | right _ ih => exact List.mem_cons_of_mem _ (ih hx)

/-! ## Leaving out the skipped lines -/

theorem Sch.comp_pruned {ls : List Str} {es : List (CompEntry F)} (h : CompLines ls es) :
    ∃ kept sk, CompSkips ls sk ∧ CompLines kept es ∧ CompSkips kept [] ∧ Interleaved ls kept sk := by
  induction h with
  | nil => exact ⟨[], [], .nil, .nil, .nil, .nil⟩
  | names hb hw _ ih =>
    obtain ⟨k, s, h1, h2, h3, h4⟩ := ih
    exact ⟨_, s, .entry (by decide) hb h1, .names hb hw h2, .entry (by decide) hb h3, .left h4⟩
  | unit hb _ ih =>
    obtain ⟨k, s, h1, h2, h3, h4⟩ := ih
    exact ⟨_, s, .entry (by decide) hb h1, .unit hb h2, .entry (by decide) hb h3, .left h4⟩
  | position hb hw _ ih =>
    obtain ⟨k, s, h1, h2, h3, h4⟩ := ih
    exact ⟨_, s, .entry (by decide) hb h1, .position hb hw h2, .entry (by decide) hb h3, .left h4⟩
  | field hb hw _ ih =>
    obtain ⟨k, s, h1, h2, h3, h4⟩ := ih
    exact ⟨_, s, .entry (by decide) hb h1, .field hb hw h2, .entry (by decide) hb h3, .left h4⟩
  | rotation hb hw _ ih =>
    obtain ⟨k, s, h1, h2, h3, h4⟩ := ih
    exact ⟨_, s, .rotation hb h1, .rotation hb hw h2, .rotation hb h3, .left (.left h4)⟩
  | path hb _ ih =>
    obtain ⟨k, s, h1, h2, h3, h4⟩ := ih
    exact ⟨_, s, .entry (by decide) hb h1, .path hb h2, .entry (by decide) hb h3, .left h4⟩
  | other hb he _ ih =>
    obtain ⟨k, s, h1, h2, h3, h4⟩ := ih
    exact ⟨k, _, .other hb h1, h2, h3, .right h4⟩

theorem Sch.sheet_pruned {ls : List Str} {es : List SheetEntry} (h : SheetLines ls es) :
    ∃ kept sk, SheetSkips ls sk ∧ SheetLines kept es ∧ SheetSkips kept [] ∧ Interleaved ls kept sk := by
  have nF : ∀ {l : Str} {i : Int}, Numbered l i → ∃ n, BeginsWith ('F' :: n) l := fun ⟨n, hb, _⟩ => ⟨n, hb⟩
  induction h with
  | nil => exact ⟨[], [], .nil, .nil, .nil, .nil⟩
  | box hb hw _ ih =>
    obtain ⟨k, s, h1, h2, h3, h4⟩ := ih
    exact ⟨_, s, .entry (.inl hb) h1, .box hb hw h2, .entry (.inl hb) h3, .left h4⟩
  | unique hb hw _ ih =>
    obtain ⟨k, s, h1, h2, h3, h4⟩ := ih
    exact ⟨_, s, .entry (.inr (.inl hb)) h1, .unique hb hw h2, .entry (.inr (.inl hb)) h3, .left h4⟩
  | name hb hw _ ih =>
    obtain ⟨k, s, h1, h2, h3, h4⟩ := ih
    exact ⟨_, s, .entry (.inr (.inr (nF hb))) h1, .name hb hw h2, .entry (.inr (.inr (nF hb))) h3, .left h4⟩
  | file hb hw _ ih =>
    obtain ⟨k, s, h1, h2, h3, h4⟩ := ih
    exact ⟨_, s, .entry (.inr (.inr (nF hb))) h1, .file hb hw h2, .entry (.inr (.inr (nF hb))) h3, .left h4⟩
  | label hb h0 h1' hw _ ih =>
    obtain ⟨k, s, h1, h2, h3, h4⟩ := ih
    exact ⟨_, s, .entry (.inr (.inr (nF hb))) h1, .label hb h0 h1' hw h2, .entry (.inr (.inr (nF hb))) h3, .left h4⟩
  | other hs hu hf he _ ih =>
    obtain ⟨k, s, h1, h2, h3, h4⟩ := ih
    exact ⟨k, _, .other hs hu hf h1, h2, h3, .right h4⟩

theorem Spec.names_component (sk : List Str) : List.Forall₂ Names (sk.map componentNotice) sk := by
  induction sk with
  | nil => exact .nil
  | cons a sk ih => exact .cons (.inl rfl) ih

theorem Spec.names_sheet (sk : List Str) : List.Forall₂ Names (sk.map sheetNotice) sk := by
  induction sk with
  | nil => exact .nil
  | cons a sk ih => exact .cons (.inr rfl) ih

theorem Spec.names_append {a b c d : List Str} (h : List.Forall₂ Names a b) (h2 : List.Forall₂ Names c d) :
    List.Forall₂ Names (a ++ c) (b ++ d) := by
  induction h with
  | nil => exact h2
  | cons h _ ih => exact .cons h ih

theorem Sch.part_pruned {a : List Str} {p : Part F} (h : PartLines a p) :
    ∃ kept sk ns, PartNotices a ns ∧ PartLines kept p ∧ PartNotices kept [] ∧ Interleaved a kept sk ∧
      List.Forall₂ Names ns sk := by
  obtain ⟨ns, hn⟩ := part_notices h
  cases h with
  | component hb h hd =>
    obtain ⟨k, s, h1, h2, h3, h4⟩ := comp_pruned h
    have := (Interleaved.all [str! "$EndComp"])
    refine ⟨_, s, _, .component hb h1, .component hb h2 hd, PartNotices.component hb h3, .left ?_, names_component s⟩
    simpa using h4.append this
  | sheet hb h hd =>
    obtain ⟨k, s, h1, h2, h3, h4⟩ := sheet_pruned h
    have := (Interleaved.all [str! "$EndSheet"])
    refine ⟨_, s, _, .sheet hb h1, .sheet hb h2 hd, PartNotices.sheet hb h3, .left ?_, names_sheet s⟩
    simpa using h4.append this
  | @descr l ls d hb h =>
    have hn : PartNotices (l :: ls) [] :=
      .plain (fun h' => absurd (begins_unique hb h') (by decide)) (fun h' => absurd (begins_unique hb h') (by decide))
    exact ⟨_, [], _, hn, .descr hb h, hn, .all _, .nil⟩
  | @mark l hb =>
    have hn : PartNotices [l] [] :=
      .plain (fun h' => absurd (begins_unique hb h') (by decide)) (fun h' => absurd (begins_unique hb h') (by decide))
    exact ⟨_, [], _, hn, .mark hb, hn, .all _, .nil⟩
  | wire h =>
    have h' := h
    obtain ⟨l, m, kind, third, _, _, _, _, rfl, hl, _⟩ := h'
    have hb : BeginsWith (str! "Wire") l := ⟨_, hl⟩
    have hn : PartNotices [l, m] [] :=
      .plain (fun h' => absurd (begins_unique hb h') (by decide)) (fun h' => absurd (begins_unique hb h') (by decide))
    exact ⟨_, [], _, hn, .wire h, hn, .all _, .nil⟩
  | @connection l p h =>
    have h' := h
    obtain ⟨_, _, _, hl, _⟩ := h'
    have hb : BeginsWith (str! "Connection") l := ⟨_, hl⟩
    have hn : PartNotices [l] [] :=
      .plain (fun h' => absurd (begins_unique hb h') (by decide)) (fun h' => absurd (begins_unique hb h') (by decide))
    exact ⟨_, [], _, hn, .connection h, hn, .all _, .nil⟩
  | @noConnect l p h =>
    have h' := h
    obtain ⟨_, _, _, hl, _⟩ := h'
    have hb : BeginsWith (str! "NoConn") l := ⟨_, hl⟩
    have hn : PartNotices [l] [] :=
      .plain (fun h' => absurd (begins_unique hb h') (by decide)) (fun h' => absurd (begins_unique hb h') (by decide))
    exact ⟨_, [], _, hn, .noConnect h, hn, .all _, .nil⟩
  | @text _ t h =>
    have h' := h
    obtain ⟨l, _, _, _, _, _, shape, _, _, _, rfl, hl, _⟩ := h'
    have hb : BeginsWith (str! "Text") l := ⟨_, hl⟩
    have hn : PartNotices [l, t.text] [] :=
      .plain (fun h' => absurd (begins_unique hb h') (by decide)) (fun h' => absurd (begins_unique hb h') (by decide))
    exact ⟨_, [], _, hn, .text h, hn, .all _, .nil⟩
  | @other l w hb hw =>
    have hn : PartNotices [l] [] :=
      .plain (fun h' => hw (by rw [begins_unique hb h']; decide)) (fun h' => hw (by rw [begins_unique hb h']; decide))
    exact ⟨_, [], _, hn, .other hb hw, hn, .all _, .nil⟩

theorem Sch.content_pruned {b : List Str} {ps : List (Part F)} (h : ContentLines b ps) :
    ∃ kept sk ns, ContentNotices F b ns ∧ ContentLines kept ps ∧ ContentNotices F kept [] ∧ Interleaved b kept sk ∧
      List.Forall₂ Names ns sk := by
  induction h with
  | nil => exact ⟨[], [], [], .nil, .nil, .nil, .nil, .nil⟩
  | cons h _ ih =>
    obtain ⟨k2, s2, n2, i1, i2, i3, i4, i5⟩ := ih
    obtain ⟨k1, s1, n1, j1, j2, j3, j4, j5⟩ := part_pruned h
    exact ⟨k1 ++ k2, s1 ++ s2, n1 ++ n2, .cons h j1 i1, .cons j2 i2, .cons j2 j3 i3, j4.append i4, names_append j5 i5⟩

/-! ## Files that are read -/

/-- The body of an accepted file. -/
theorem Sch.tell_body (fn : Option Str) (libs body : List Str) (layer : Str) {ns : List Str}
    (h : ContentNotices F body ns) :
    (tellLines fn (str! "EESchema Schematic File Version 2" :: (libs.map fun n => str! "LIBS:" ++ n) ++
      (str! "EELAYER " ++ layer) :: str! "EELAYER END" :: body) : Told (Schematic F)).out = ns := by
  unfold tellLines
  simp only [Schematic.dflt]
  rw [List.cons_append, bind_of_out ((Lib.assume_iff ..).2 rfl),
    libs_accept _ _ (by intro s r e; cases e; exact notLibs layer)]
  dsimp only
  rw [show ∀ (l : Str) r, here (l :: r) = .ok l from fun _ _ => rfl, bind_of_ok,
    show startsWith (str! "EELAYER " ++ layer) (str! "EELAYER ") = true from List.isPrefixOf_iff_prefix.2 ⟨layer, rfl⟩]
  simp only [Bool.not_true, Bool.false_eq_true, if_false, next, List.drop_one, List.tail_cons]
  rw [bind_of_out ((Lib.assume_iff ..).2 rfl)]
  exact content_tells h _ _ (Nat.le_refl _)

/-- Reading with the notices gives the same result as reading without them. -/
theorem C90_same (fn : Option Str) (t : Str) : (tell fn t : Told (Schematic F)).res = Sch.parse fn t :=
  tellLines_res fn (lines t)

/-- What is printed while a schematic is read are exactly the notices for the lines of its
components and sheets that begin with none of the known words, in the order of the file. -/
theorem C90_exact (fn : Option Str) (t : Str) (s : Schematic F) (h : Sch.parse fn t = .ok s) (ns : List Str) :
    (tell fn t : Told (Schematic F)).out = ns ↔ ContentNotices F ((lines t).drop (s.libraries.length + 3)) ns := by
  obtain ⟨-, layer, body, ps, hl, -, -, hc, -⟩ := (Sch.lines_iff fn (lines t) s).1 h
  dsimp only at hl
  have hb : (lines t).drop (s.libraries.length + 3) = body := by
    rw [hl, List.cons_append, show s.libraries.length + 3 = (s.libraries.length + 2) + 1 from rfl, List.drop_succ_cons,
      show s.libraries.length + 2 = (s.libraries.map fun n => str! "LIBS:" ++ n).length + 2 by rw [List.length_map],
      List.drop_append]
    simp
  obtain ⟨ms, hm⟩ := content_notices hc
  have ht : (tell fn t : Told (Schematic F)).out = ms := by
    show (tellLines fn (lines t) : Told (Schematic F)).out = ms
    rw [hl]
    exact tell_body fn _ _ _ hm
  rw [ht, hb]
  constructor
  · rintro rfl; exact hm
  · intro h2
    have h3 := tell_body fn s.libraries body layer h2
    rw [← hl] at h3
    exact ht.symm.trans h3

/-- The notices name every line that can be left out: without the lines they name, which
appear in the file in the same order, the file is read as the same schematic, and nothing
is printed. -/
theorem C90_pruned (fn : Option Str) (t : Str) (s : Schematic F) (h : Sch.parse fn t = .ok s) :
    ∃ kept skipped, Interleaved (lines t) kept skipped ∧
      List.Forall₂ Names (tell fn t : Told (Schematic F)).out skipped ∧
      Sch.parseLines fn kept = .ok s ∧ (tellLines fn kept : Told (Schematic F)).out = [] := by
  obtain ⟨hf, layer, body, ps, hl, h1, h2, hc, h3, h4, h5⟩ := (Sch.lines_iff fn (lines t) s).1 h
  obtain ⟨kept, sk, ns, i1, i2, i3, i4, i5⟩ := content_pruned hc
  dsimp only at hl
  refine ⟨_, sk, ?_, ?_, ?_, tell_body fn s.libraries kept layer i3⟩
  · rw [hl]
    have h0 := Interleaved.all (str! "EESchema Schematic File Version 2" :: (s.libraries.map fun n => str! "LIBS:" ++ n) ++
      [str! "EELAYER " ++ layer, str! "EELAYER END"])
    simpa using h0.append i4
  · have : (tell fn t : Told (Schematic F)).out = ns := by
      show (tellLines fn (lines t) : Told (Schematic F)).out = ns
      rw [hl]
      exact tell_body fn _ _ _ i1
    rw [this]
    exact i5
  · exact (Sch.lines_iff fn _ s).2 ⟨hf, layer, kept, ps, rfl, h1, h2, i2, h3, h4, h5⟩

/-- The same about texts, if no line ends in a carriage return. -/
theorem C90_pruned_text (fn : Option Str) (t : Str) (s : Schematic F) (h : Sch.parse fn t = .ok s)
    (hr : ∀ l ∈ lines t, EndsLine l) :
    ∃ kept skipped, Interleaved (lines t) kept skipped ∧
      List.Forall₂ Names (tell fn t : Told (Schematic F)).out skipped ∧
      Sch.parse fn (unlines kept) = .ok s ∧ (tell fn (unlines kept) : Told (Schematic F)).out = [] := by
  obtain ⟨kept, sk, h1, h2, h3, h4⟩ := C90_pruned fn t s h
  have hk : lines (unlines kept) = kept :=
    lines_unlines kept fun l hl => ⟨lines_noLf t l (h1.mem hl), hr l (h1.mem hl)⟩
  refine ⟨kept, sk, h1, h2, ?_, ?_⟩
  · rw [Sch.parse, hk, h3]
  · rw [tell, hk, h4]

/-! ## Any text -/

theorem Sch.component_out : ∀ (n : Nat) (p : List Str) (d : Component F), p.length ≤ n →
    ∃ sk, List.Sublist sk p ∧ (tellComponentLoop d p).out = sk.map componentNotice := by
  intro n
  induction n with
  | zero =>
    intro p d hn
    cases p with
    | nil => exact ⟨[], .slnil, by rw [tellComponentLoop.eq_def]; rfl⟩
    | cons => simp at hn
  | succ n ih =>
    intro p d hn
    cases p with
    | nil => exact ⟨[], .slnil, by rw [tellComponentLoop.eq_def]; rfl⟩
    | cons s p =>
      simp only [List.length_cons, Nat.succ_le_succ_iff] at hn
      have quiet : ∀ {β : Type} (r : Res β) (f : β → Component F),
          ∃ sk, List.Sublist sk (s :: p) ∧ (of r >>= fun x => tellComponentLoop (f x) p).out = sk.map componentNotice := by
        intro β r f
        refine out_of (P := fun o => ∃ sk, List.Sublist sk (s :: p) ∧ o = sk.map componentNotice)
          ⟨[], List.nil_sublist _, rfl⟩ r _ fun a _ => ?_
        obtain ⟨sk, h1, h2⟩ := ih p (f a) hn
        exact ⟨sk, .cons _ h1, h2⟩
      rw [tell_component_loop]
      split
      · exact ⟨[], List.nil_sublist _, rfl⟩
      split
      · exact quiet (parseComponentL s d) id
      split
      · exact quiet (.ok ()) fun _ => { d with u := s }
      split
      · exact quiet (parseComponentP s d) id
      split
      · exact quiet (parseComponentF s d) id
      split
      · cases p with
        | nil => exact ⟨[], List.nil_sublist _, rfl⟩
        | cons s2 p =>
          refine out_of (P := fun o => ∃ sk, List.Sublist sk (s :: s2 :: p) ∧ o = sk.map componentNotice)
            ⟨[], List.nil_sublist _, rfl⟩ _ _ fun a _ => ?_
          obtain ⟨sk, h1, h2⟩ := ih p { d with rotation := a } (by simp at hn; omega)
          exact ⟨sk, .cons _ (.cons _ h1), h2⟩
      split
      · exact quiet (.ok ()) fun _ => { d with arPath := d.arPath ++ [s] }
      · obtain ⟨sk, h1, h2⟩ := ih p d hn
        refine ⟨s :: sk, .cons_cons _ h1, ?_⟩
        rw [say_out, h2]
        rfl

theorem Sch.sheet_out (p : List Str) : ∀ d : Sheet,
    ∃ sk, List.Sublist sk p ∧ (tellSheetLoop d p).out = sk.map sheetNotice := by
  induction p with
  | nil => intro d; exact ⟨[], .slnil, rfl⟩
  | cons s p ih =>
    intro d
    by_cases hend : s = str! "$EndSheet"
    · rw [tellSheetLoop, if_pos hend]
      exact ⟨[], List.nil_sublist _, rfl⟩
    by_cases hb : BeginsWith (str! "S") s ∨ BeginsWith (str! "U") s ∨ ∃ n, BeginsWith ('F' :: n) s
    · obtain ⟨r, h1, -⟩ := tell_sheet_known d hend hb p
      rw [h1]
      refine out_of (P := fun o => ∃ sk, List.Sublist sk (s :: p) ∧ o = sk.map sheetNotice)
        ⟨[], List.nil_sublist _, rfl⟩ _ _ fun a _ => ?_
      obtain ⟨sk, h1, h2⟩ := ih a
      exact ⟨sk, .cons _ h1, h2⟩
    · rw [not_or, not_or, not_exists] at hb
      rw [tell_sheet_other d hend hb.1 hb.2.1 hb.2.2 p, say_out]
      obtain ⟨sk, h1, h2⟩ := ih d
      exact ⟨s :: sk, .cons_cons _ h1, by rw [h2]; rfl⟩

theorem Sch.item_out (sch : Schematic F) (s : Str) (p : List Str) :
    ∃ sk, List.Sublist sk (s :: p) ∧ List.Forall₂ Names (tellItem sch (s :: p)).out sk := by
  by_cases hc : firstWord s = some (str! "$Comp")
  · obtain ⟨sk, h1, h2⟩ := component_out _ p (.dflt : Component F) (Nat.le_refl _)
    exact ⟨sk, .cons _ h1, by rw [tellItem_comp _ _ _ hc, h2]; exact names_component sk⟩
  by_cases hs : firstWord s = some (str! "$Sheet")
  · obtain ⟨sk, h1, h2⟩ := sheet_out p .dflt
    exact ⟨sk, .cons _ h1, by rw [tellItem_sheet _ _ _ hs, h2]; exact names_sheet sk⟩
  · exact ⟨[], List.nil_sublist _, by rw [tellItem_plain _ _ _ hc hs]; exact .nil⟩

theorem Sch.items_out (n : Nat) : ∀ (sch : Schematic F) (p : List Str),
    ∃ sk, List.Sublist sk p ∧ List.Forall₂ Names (tellItems n sch p).out sk := by
  induction n with
  | zero => intro sch p; cases p <;> exact ⟨[], List.nil_sublist _, .nil⟩
  | succ n ih =>
    intro sch p
    cases p with
    | nil => exact ⟨[], List.nil_sublist _, .nil⟩
    | cons s p =>
      rw [tellItems]
      · cases hr : (tellItem sch (s :: p)).res with
        | ok r =>
          rw [bind_ok_out hr]
          rw [tellItem_res, parseItem_eq] at hr
          obtain ⟨⟨i, p'⟩, hi, h⟩ := Res.bind_eq_ok.1 hr
          cases h
          obtain ⟨a, ha, hl⟩ := read_part s p (next p') i ⟨p', hi, rfl⟩
          obtain ⟨kept, sk, ns, j1, -, -, j4, j5⟩ := part_pruned hl
          obtain ⟨sk2, k1, k2⟩ := ih (i.add sch) (next p')
          rw [ha, part_tells hl j1]
          exact ⟨sk ++ sk2, j4.sublist.append k1, names_append j5 k2⟩
        | _ =>
          rw [bind_fail_out (by simp [hr])]
          exact item_out sch s p
      · simp

/-- Whatever the text is and however reading ends, what is printed names lines of the text, in
their order and each at most as often as it is there. -/
theorem C90_any (fn : Option Str) (t : Str) : ∃ skipped, List.Sublist skipped (lines t) ∧
    List.Forall₂ Names (tell fn t : Told (Schematic F)).out skipped := by
  show ∃ skipped, List.Sublist skipped (lines t) ∧ List.Forall₂ Names (tellLines fn (lines t) : Told (Schematic F)).out skipped
  generalize lines t = v
  unfold tellLines
  refine out_of (P := fun o => ∃ sk, List.Sublist sk v ∧ List.Forall₂ Names o sk) ⟨[], List.nil_sublist _, .nil⟩ _ _ fun p hp => ?_
  rw [Lib.assume_iff] at hp
  obtain ⟨names, rest, h0, h1, h2⟩ := libs_read p ({ Schematic.dflt with filename := fn } : Schematic F)
  rw [h2]
  dsimp only
  refine out_of (P := fun o => ∃ sk, List.Sublist sk v ∧ List.Forall₂ Names o sk) ⟨[], List.nil_sublist _, .nil⟩ _ _ fun s hs => ?_
  split
  · exact ⟨[], List.nil_sublist _, .nil⟩
  refine out_of (P := fun o => ∃ sk, List.Sublist sk v ∧ List.Forall₂ Names o sk) ⟨[], List.nil_sublist _, .nil⟩ _ _ fun p2 hp2 => ?_
  obtain ⟨sk, h3, h4⟩ := items_out p2.length { ({ Schematic.dflt with filename := fn, libraries := Schematic.dflt.libraries ++ names } : Schematic F) with eelayer := s } p2
  refine ⟨sk, ?_, h4⟩
  rw [Lib.assume_iff] at hp2
  have h5 := here_cons hs
  rw [hp, h0, h5, hp2]
  exact .cons _ (List.Sublist.trans (.cons _ (.cons _ h3)) (List.sublist_append_right _ _))

/-- Nothing is printed for a text that does not begin with the first line of a schematic. -/
theorem C90_foreign (fn : Option Str) (t : Str) (h : ∀ ls, lines t ≠ str! "EESchema Schematic File Version 2" :: ls) :
    (tell fn t : Told (Schematic F)).out = [] := by
  show (tellLines fn (lines t) : Told (Schematic F)).out = []
  unfold tellLines
  refine out_of (P := fun o => o = []) rfl _ _ fun p hp => ?_
  rw [Lib.assume_iff] at hp
  exact absurd hp (h p)

/-! ## Saved schematics -/

theorem Sch.saved_part (sch sch' : Schematic F) (ls rest : List Str) (l : Str) (h0 : ls ≠ [])
    (h : parseItem sch (ls ++ rest) = .ok (sch', l :: rest)) : ∃ p : Part F, PartLines ls p := by
  cases ls with
  | nil => exact absurd rfl h0
  | cons s ls =>
    rw [parseItem_eq] at h
    obtain ⟨⟨i, p'⟩, hi, h⟩ := Res.bind_eq_ok.1 h
    cases h
    obtain ⟨a, ha, hl⟩ := read_part s (ls ++ rest) rest i ⟨_, hi, rfl⟩
    rw [← List.cons_append] at ha
    have := List.append_cancel_right ha
    subst this
    exact ⟨_, hl⟩

/-- The notices for a saved element: a component without a unit line is written with an
empty line in its place. -/
def Spec.savedNotices : Element F → List Str
  | .component c => if c.u = [] then [componentNotice []] else []
  | _ => []

variable [TextLaws F]

theorem Sch.fields_skip (l : List (Sch.Field F)) {rest sk : List Str} (h : CompSkips rest sk) :
    CompSkips (l.map Field.show ++ rest) sk := by
  induction l with
  | nil => exact h
  | cons f l ih => exact .entry (w := str! "F") (by decide) ((firstWord_iff ..).1 f.firstWord) ih

theorem Sch.paths_skip (l : List Str) (hl : ∀ a ∈ l, firstWord a = some (str! "AR")) {rest sk : List Str}
    (h : CompSkips rest sk) : CompSkips (l ++ rest) sk := by
  induction l with
  | nil => exact h
  | cons a l ih =>
    rw [List.forall_mem_cons] at hl
    exact .entry (w := str! "AR") (by decide) ((firstWord_iff ..).1 hl.1) (ih hl.2)

theorem Sch.begins_char {c d : Char} (t : Str) (hc : isWs c = false) (hd : isWs d = true) : BeginsWith [c] (c :: d :: t) :=
  (firstWord_iff ..).1 (firstWord_char t hc hd)

theorem Sch.labels_skip (l : List SheetLabel) : ∀ i, SheetSkips (labelLines i l) [] := by
  induction l with
  | nil => intro i; exact .nil
  | cons a l ih =>
    intro i
    refine .entry (.inr (.inr ⟨showNat i, ?_⟩)) (ih _)
    rw [← firstWord_iff]
    flat
    exact firstWord_word (solid_fnum i) (by decide) _

theorem Sch.saved_element (e : Element F) (h : FitsElement e) : PartNotices e.lns (savedNotices e) := by
  cases e with
  | component c =>
    have hu := h.2.2.2.1
    have hp := h.2.2.2.2.2.2.1
    have h1 : BeginsWith (str! "1") c.oneLineOf := by
      rw [← firstWord_iff]
      unfold Component.oneLineOf Verif.firstWord
      flat
      rw [splitWs_space (by decide), splitWs_pad (by decide)]
      rfl
    have hL : BeginsWith (str! "L") c.lLine := by
      unfold Component.lLine
      flat
      exact begins_char _ (by decide) (by decide)
    have hP : BeginsWith (str! "P") c.pLine := by
      unfold Component.pLine
      flat
      exact begins_char _ (by decide) (by decide)
    have hend : CompSkips (c.pLine :: (c.arPath ++ (c.fields.map Field.show ++ [c.oneLineOf, c.rotation.line]))) [] :=
      .entry (w := str! "P") (by decide) hP (paths_skip _ (fun a ha => (hp a ha).2) (fields_skip _ (.rotation (.inl h1) .nil)))
    have hall : CompSkips (c.lLine :: c.u :: c.pLine :: (c.arPath ++ (c.fields.map Field.show ++ [c.oneLineOf, c.rotation.line])))
        (if c.u = [] then [[]] else []) := by
      refine .entry (w := str! "L") (by decide) hL ?_
      split
      · rename_i hc
        rw [hc]
        refine .other ?_ hend
        intro w _ hb
        rw [← firstWord_iff] at hb
        cases hb
      · rename_i hc
        exact .entry (w := str! "U") (by decide) ((firstWord_iff ..).1 (hu.resolve_left hc)) hend
    have := PartNotices.component (l := str! "$Comp") ((firstWord_iff ..).1 (by decide)) hall
    have e1 : savedNotices (.component c) = (if c.u = [] then [[]] else []).map componentNotice := by
      show (if c.u = [] then _ else _) = _
      split <;> rfl
    rw [e1]
    simpa [Element.lns, Component.lns, Component.tailLines] using this
  | wire w =>
    have hb : BeginsWith (str! "Wire") (str! "Wire " ++ w.type_.show ++ str! " Line") := by
      rw [← firstWord_iff]
      cases w.type_ <;> decide
    exact .plain (fun h' => absurd (begins_unique hb h') (by decide)) (fun h' => absurd (begins_unique hb h') (by decide))
  | connection p =>
    have hb : BeginsWith (str! "Connection") (connLine p) := by
      rw [← firstWord_iff, Verif.firstWord, splitWs_conn]; rfl
    exact .plain (fun h' => absurd (begins_unique hb h') (by decide)) (fun h' => absurd (begins_unique hb h') (by decide))
  | noConnect p =>
    have hb : BeginsWith (str! "NoConn") (noConnLine p) := by
      rw [← firstWord_iff, Verif.firstWord, splitWs_noConn]; rfl
    exact .plain (fun h' => absurd (begins_unique hb h') (by decide)) (fun h' => absurd (begins_unique hb h') (by decide))
  | text t =>
    have hb : BeginsWith (str! "Text") t.head := by
      rw [← firstWord_iff, Verif.firstWord, splitWs_textHead t ((fitsText_iff t).1 h).1]; rfl
    exact .plain (fun h' => absurd (begins_unique hb h') (by decide)) (fun h' => absurd (begins_unique hb h') (by decide))
  | other s =>
    obtain ⟨⟨_, w, hw, hn⟩, _⟩ := (fitsOther_iff s).1 h
    have hb := (firstWord_iff ..).1 hw
    exact .plain (fun h' => hn (by rw [begins_unique hb h']; decide)) (fun h' => hn (by rw [begins_unique hb h']; decide))

theorem Sch.saved_sheet (s : Sheet) : PartNotices s.lns [] := by
  have h0 : BeginsWith ('F' :: str! "0") s.f0Line := by
    rw [← firstWord_iff]
    unfold Sheet.f0Line
    flat
    exact firstWord_word (w := str! "F0") (by decide) (by decide) _
  have h1 : BeginsWith ('F' :: str! "1") s.f1Line := by
    rw [← firstWord_iff]
    unfold Sheet.f1Line
    flat
    exact firstWord_word (w := str! "F1") (by decide) (by decide) _
  have hS : BeginsWith (str! "S") s.sLine := by
    unfold Sheet.sLine
    flat
    exact begins_char _ (by decide) (by decide)
  have hU : BeginsWith (str! "U") s.uLine := by
    unfold Sheet.uLine
    flat
    exact begins_char _ (by decide) (by decide)
  have := PartNotices.sheet (l := str! "$Sheet") ((firstWord_iff ..).1 (by decide))
    (.entry (.inl hS) (.entry (.inr (.inl hU)) (.entry (.inr (.inr ⟨_, h0⟩)) (.entry (.inr (.inr ⟨_, h1⟩)) (labels_skip s.labels 2)))))
  simpa [Sheet.lns] using this

theorem Sch.saved_body (s : Schematic F) (h : FitsSchematic s) :
    ContentNotices F (s.description.lns ++ (s.elements.flatMap Element.lns ++ (s.sheets.flatMap Sheet.lns ++
      [str! "$EndSCHEMATC"]))) (s.elements.flatMap savedNotices) := by
  obtain ⟨_, _, _, hd, hes, hss⟩ := h
  have hm : BeginsWith (str! "$EndSCHEMATC") (str! "$EndSCHEMATC") := (firstWord_iff ..).1 (by decide)
  have hmark : ContentNotices F [str! "$EndSCHEMATC"] [] :=
    .cons (a := [str! "$EndSCHEMATC"]) (b := []) (ns := []) (ms := []) (.mark hm)
      (.plain (fun h' => absurd (begins_unique hm h') (by decide)) (fun h' => absurd (begins_unique hm h') (by decide))) .nil
  have hsheets : ContentNotices F (s.sheets.flatMap Sheet.lns ++ [str! "$EndSCHEMATC"]) [] := by
    revert hss
    generalize s.sheets = ss
    intro hss
    induction ss with
    | nil => exact hmark
    | cons a ss ih =>
      rw [List.forall_mem_cons] at hss
      have hf := (fitsSheet_iff a).1 hss.1
      obtain ⟨p, hp⟩ := saved_part (F := F) .dflt _ a.lns [] _ (by simp [Sheet.lns])
        (parseItem_sheet .dflt a ⟨hf.1, (by have := hss.1.2.2.2.2.1; exact this.1), hss.1.2.2.2.2.2.2.2.2.2.2⟩ [])
      rw [List.flatMap_cons, List.append_assoc]
      exact .cons (ns := []) hp (saved_sheet a) (ih hss.2)
  have helems : ContentNotices F (s.elements.flatMap Element.lns ++ (s.sheets.flatMap Sheet.lns ++ [str! "$EndSCHEMATC"]))
      (s.elements.flatMap savedNotices) := by
    revert hes
    generalize s.elements = es
    intro hes
    induction es with
    | nil => exact hsheets
    | cons a es ih =>
      rw [List.forall_mem_cons] at hes
      have hf := (fitsElement_iff a).1 hes.1
      obtain ⟨l, hl⟩ := parseItem_element (.dflt : Schematic F) a hf.1 hf.2.1 []
      obtain ⟨p, hp⟩ := saved_part (F := F) .dflt _ a.lns [] _ a.lns_ne hl
      rw [List.flatMap_cons, List.append_assoc, List.flatMap_cons]
      exact .cons hp (saved_element a hes.1) (ih hes.2)
  obtain ⟨p, hp⟩ := saved_part (F := F) .dflt _ s.description.lns [] _ (by simp [Description.lns])
    (parseItem_descr .dflt s.description hd [])
  have hb : BeginsWith (str! "$Descr") s.description.descrLine := by
    rw [← firstWord_iff]
    unfold Description.descrLine
    flat
    exact firstWord_word (w := str! "$Descr") (by decide) (by decide) _
  exact .cons (ns := []) hp (.plain (fun h' => absurd (begins_unique hb h') (by decide))
    (fun h' => absurd (begins_unique hb h') (by decide))) helems

/-- Reading a saved schematic prints one notice for each component without a unit line and
nothing else. -/
theorem C90_saved (fn : Option Str) (s : Schematic F) (h : FitsSchematic s) :
    (tell fn s.show : Told (Schematic F)).out = s.elements.flatMap savedNotices := by
  show (tellLines fn (lines s.show) : Told (Schematic F)).out = _
  obtain ⟨layer, hl⟩ := List.isPrefixOf_iff_prefix.1 h.2.2.1
  have := tell_body fn s.libraries _ layer (saved_body s h)
  obtain ⟨h1, hend⟩ := (fitsSchematic_line s).1 h
  rw [Schematic.show_eq, lines_unlines _ (s.lns_oneLine h1.1 h1.2.1.1 hend), Schematic.lns, ← hl]
  simpa using this

/-- Nothing is printed if all components have a unit line. -/
theorem C90_saved_quiet (fn : Option Str) (s : Schematic F) (h : FitsSchematic s)
    (hu : ∀ c, Element.component c ∈ s.elements → c.u ≠ []) : (tell fn s.show : Told (Schematic F)).out = [] := by
  rw [C90_saved fn s h, List.flatMap_eq_nil_iff]
  intro e he
  cases e with
  | component c => simp [savedNotices, hu c he]
  | _ => rfl

/-! ## Examples -/

/-- Two lines of the component are skipped. -/
example : (tell none smallSchematic : Told (Schematic Nm)).out =
    [str! "skipping unknown component line ", str! "skipping unknown component line something"] := by decide +kernel

/-- The default component of the sample has no unit line. -/
example : (sampleSchematic Nm).elements.flatMap savedNotices = [str! "skipping unknown component line "] := by decide +kernel

/-- A file that is not accepted can still cause notices. -/
example : (tell none (str!
    "EESchema Schematic File Version 2\nEELAYER 25 0\nEELAYER END\n$Sheet\nodd\nS 1 2\n$EndSheet\n") :
    Told (Schematic Nm)).out = [str! "skipping unknown sheet line odd"] := by decide +kernel

end Verif
