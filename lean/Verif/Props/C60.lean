import Verif.Props.C59
import Verif.Props.C35
/-!
# C60: editing a board, then saving and reading it
-/

namespace Verif
open Flt Lay Spec

variable {F : Type} [Flt F]

/-- A board element that can be saved and has no unsavable text. -/
def Lay.Fine (e : Elem F) : Prop :=
  GoodBoardElem e ∧ (∀ s ∈ boardStrings e, Clean s) ∧ ∀ t ∈ boardTrees e, CleanTree t

theorem Lay.fine_module (m : Fp.Module F) : Lay.Fine (.module_ m) ↔ GoodModule m := by
  simp only [Lay.Fine, GoodBoardElem, boardStrings, boardTrees, GoodModule, List.forall_mem_cons,
    List.mem_flatMap]
  constructor
  · rintro ⟨h1, ⟨h2, h3⟩, _⟩
    exact ⟨h2, fun e he => ⟨h1 e he, fun s hs => h3 s ⟨e, he, hs⟩⟩⟩
  · rintro ⟨h1, h2⟩
    exact ⟨fun e he => (h2 e he).1, ⟨h1, fun s ⟨e, he, hs⟩ => (h2 e he).2 s hs⟩, by simp⟩

theorem Lay.fine_adjust (x y : F) {e : Elem F} (h : Lay.Fine e) : Lay.Fine (e.adjust x y) := by
  cases e with
  | module_ m =>
    rw [Lay.fine_module] at h
    exact (Lay.fine_module _).2 (Fp.run_good (.move x y) trivial m h)
  | _ => exact h

theorem Lay.updateNames_rename (old new : Str) (ns : List Str) :
    Lay.updateNames (fun n => (rename n old new, none)) ns = (ns.map fun n => rename n old new, none) := by
  induction ns with
  | nil => rfl
  | cons n ns ih => simp [Lay.updateNames, ih]

theorem Lay.updatePads_rename (old new : Str) (es : List (Fp.Elem F)) :
    Lay.updatePads (fun n => (rename n old new, none)) es =
      (es.map (Fp.Module.renameNetElem old new), none) := by
  induction es with
  | nil => rfl
  | cons e es ih =>
    cases e with
    | pad p =>
      rcases hn : p.net with _ | n
      · have : p.renameNet old new = p := by
          obtain ⟨⟩ := p; simp only at hn; subst hn; rfl
        simp [updatePads, hn, ih, Fp.Module.renameNetElem, this]
      · have : p.renameNet old new = { p with net := some { n with name := rename n.name old new } } := by
          simp only [Fp.Pad.renameNet, hn, rename]
          split <;> simp_all
        simp [updatePads, hn, ih, Fp.Module.renameNetElem, this]
    | _ => simp [updatePads, ih, Fp.Module.renameNetElem]

/-- One element with a net renamed. -/
def Lay.renamed (old new : Str) : Elem F → Elem F
  | .net n => .net { n with name := rename n.name old new }
  | .netClass nc => .netClass { nc with nets := nc.nets.map fun n => rename n old new }
  | .module_ m => .module_ (m.renameNet old new)
  | .zone z => .zone { z with netName := rename z.netName old new }
  | x => x

theorem Lay.changeNetName_eq (l : Layout F) (old new : Str) :
    l.changeNetName old new = .ok { l with elements := l.elements.map (Lay.renamed old new) } := by
  have h1 : ∀ e : Elem F, e.updateNames (fun n => (rename n old new, none)) =
      (Lay.renamed old new e, none) := by
    intro e
    cases e <;> simp [Elem.updateNames, Lay.renamed, Lay.updateNames_rename, Lay.updatePads_rename,
      Fp.Module.renameNet]
  have h2 : ∀ es : List (Elem F), updateElems (fun n => (rename n old new, none)) es =
      (es.map (Lay.renamed old new), none) := by
    intro es
    induction es with
    | nil => rfl
    | cons e es ih => simp [updateElems, h1, ih]
  simp [Layout.changeNetName, Layout.updateNetNames, h2]

theorem Lay.clean_rename {n old new : Str} (h : Clean n) (hn : Clean new) : Clean (rename n old new) := by
  unfold rename; split <;> assumption

theorem Lay.fine_renamed (old new : Str) (hn : Clean new) {e : Elem F} (h : Lay.Fine e) :
    Lay.Fine (Lay.renamed old new e) := by
  cases e with
  | module_ m =>
    rw [Lay.fine_module] at h
    exact (Lay.fine_module _).2 (Fp.run_good (.renameNet old new) hn m h)
  | net n =>
    obtain ⟨h1, h2, h3⟩ := h
    refine ⟨h1, ?_, h3⟩
    simp only [boardStrings, Lay.renamed, List.mem_singleton, forall_eq] at h2 ⊢
    exact Lay.clean_rename h2 hn
  | netClass n =>
    obtain ⟨h1, h2, h3⟩ := h
    refine ⟨h1, ?_, h3⟩
    simp only [boardStrings, Lay.renamed, List.forall_mem_cons, List.forall_mem_map] at h2 ⊢
    exact ⟨h2.1, h2.2.1, fun s hs => Lay.clean_rename (h2.2.2 s hs) hn⟩
  | zone z =>
    obtain ⟨h1, h2, h3⟩ := h
    refine ⟨h1, ?_, h3⟩
    simp only [boardStrings, Lay.renamed, List.forall_mem_cons] at h2 ⊢
    exact ⟨Lay.clean_rename h2.1 hn, h2.2⟩
  | _ => exact h

/-- A board that can be saved. -/
def Lay.Ready (l : Layout F) : Prop := SavableLayout l ∧ CleanLayout l

theorem Lay.ready_elements {l : Layout F} (h : Lay.Ready l) {es : List (Elem F)}
    (he : ∀ e ∈ es, Lay.Fine e) : Lay.Ready { l with elements := es } :=
  ⟨⟨h.1.1, h.1.2.1, h.1.2.2.1, h.1.2.2.2.1, fun e h' => (he e h').1⟩,
    ⟨h.2.1, fun e h' => (he e h').2⟩⟩

theorem Lay.ready_fine {l : Layout F} (h : Lay.Ready l) : ∀ e ∈ l.elements, Lay.Fine e :=
  fun e he => ⟨h.1.2.2.2.2 e he, h.2.2 e he⟩

theorem Lay.updateElementIn_mem (name value : Str) (es es' : List SetupElement)
    (h : updateElementIn name value es = some es') :
    ∀ e ∈ es', e ∈ es ∨ ∃ e0 ∈ es, e = { e0 with value1 := value } := by
  induction es generalizing es' with
  | nil => simp [updateElementIn] at h
  | cons x xs ih =>
    simp only [updateElementIn] at h
    split at h
    · cases h
      intro e he
      rcases List.mem_cons.1 he with rfl | he
      · exact .inr ⟨x, by simp, rfl⟩
      · exact .inl (by simp [he])
    · rcases hu : updateElementIn name value xs with _ | ys
      · simp [hu] at h
      · simp only [hu, Option.map_some, Option.some.injEq] at h
        subst h
        intro e he
        rcases List.mem_cons.1 he with rfl | he
        · exact .inl (by simp)
        · rcases ih ys hu e he with h | ⟨e0, h, h'⟩
          · exact .inl (by simp [h])
          · exact .inr ⟨e0, by simp [h], h'⟩

theorem Lay.ready_setup {l : Layout F} (h : Lay.Ready l) (n v : Str) (hn : n ≠ str! "pcbplotparams")
    (cn : Clean n) (cv : Clean v) : Lay.Ready { l with setup := l.setup.updateElement n v } := by
  obtain ⟨⟨a1, a2, a3, a4, a5⟩, ⟨b1, b2⟩⟩ := h
  have key : (l.setup.updateElement n v).pcbplotparams = l.setup.pcbplotparams ∧
      ∀ e ∈ (l.setup.updateElement n v).elements,
        e ∈ l.setup.elements ∨ (∃ e0 ∈ l.setup.elements, e = { e0 with value1 := v }) ∨ e = ⟨n, v, none⟩ := by
    simp only [Setup.updateElement]
    split
    · rename_i es hes
      refine ⟨rfl, fun e he => ?_⟩
      rcases Lay.updateElementIn_mem n v _ _ hes e he with h | h
      · exact .inl h
      · exact .inr (.inl h)
    · refine ⟨rfl, fun e he => ?_⟩
      rcases List.mem_append.1 he with h | h
      · exact .inl h
      · exact .inr (.inr (List.mem_singleton.1 h))
  refine ⟨⟨a1, a2, a3, fun e he => ?_, a5⟩, ⟨fun s hs => ?_, b2⟩⟩
  · rcases key.2 e he with h | ⟨e0, h, rfl⟩ | rfl
    · exact a4 e h
    · exact a4 e0 h
    · exact hn
  · simp only [headerStrings, List.mem_cons, List.mem_append, List.mem_flatMap, key.1] at hs b1
    rcases hs with hs | hs | hs | (hs | hs) | hs
    · exact b1 s (.inl hs)
    · exact b1 s (.inr (.inl hs))
    · exact b1 s (.inr (.inr (.inl hs)))
    · exact b1 s (.inr (.inr (.inr (.inl (.inl hs)))))
    · obtain ⟨e, he, hs⟩ := hs
      have old : ∀ e0 ∈ l.setup.elements, ∀ s ∈ setupStrings e0, Clean s := fun e0 h0 s hs =>
        b1 s (.inr (.inr (.inr (.inl (.inr ⟨e0, h0, hs⟩)))))
      rcases key.2 e he with h | ⟨e0, h, rfl⟩ | rfl
      · exact old e h s hs
      · simp only [setupStrings, List.mem_cons] at hs
        rcases hs with hs | hs | hs
        · exact old e0 h s (by simp [setupStrings, hs])
        · rw [hs]; exact cv
        · exact old e0 h s (by simp only [setupStrings, List.mem_cons]; exact .inr (.inr hs))
      · simp only [setupStrings, Option.toList_none, List.mem_cons, List.not_mem_nil, or_false] at hs
        rcases hs with hs | hs <;> rw [hs] <;> assumption
    · exact b1 s (.inr (.inr (.inr (.inr hs))))

theorem Lay.modifyModuleIn_mem (r : Str) (f : Fp.Module F → Fp.Module F) (es es' : List (Elem F))
    (h : modifyModuleIn r f es = some es') :
    ∀ e ∈ es', e ∈ es ∨ ∃ m, Elem.module_ m ∈ es ∧ e = .module_ (f m) := by
  induction es generalizing es' with
  | nil => simp [modifyModuleIn] at h
  | cons x xs ih =>
    have skip : (modifyModuleIn r f xs).map (x :: ·) = some es' →
        ∀ e ∈ es', e ∈ x :: xs ∨ ∃ m, Elem.module_ m ∈ x :: xs ∧ e = .module_ (f m) := by
      intro h
      rcases hu : modifyModuleIn r f xs with _ | ys
      · simp [hu] at h
      · simp only [hu, Option.map_some, Option.some.injEq] at h
        subst h
        intro e he
        rcases List.mem_cons.1 he with rfl | he
        · exact .inl (by simp)
        · rcases ih ys hu e he with h | ⟨e0, h, h'⟩
          · exact .inl (by simp [h])
          · exact .inr ⟨e0, by simp [h], h'⟩
    cases x with
    | module_ m =>
      simp only [modifyModuleIn] at h
      split at h
      · cases h
        intro e he
        rcases List.mem_cons.1 he with rfl | he
        · exact .inr ⟨m, by simp, rfl⟩
        · exact .inl (by simp [he])
      · exact skip h
    | _ => exact skip h

theorem Lay.run_ready (e : BoardEdit F) (he : e.Fits) (l l' : Layout F) (h : Lay.Ready l)
    (hr : e.run l = .ok l') : Lay.Ready l' := by
  have fine := Lay.ready_fine h
  have snoc : ∀ e : Elem F, Lay.Fine e → Lay.Ready { l with elements := l.elements ++ [e] } := by
    intro e he
    refine Lay.ready_elements h fun x hx => ?_
    rcases List.mem_append.1 hx with hx | hx
    · exact fine x hx
    · rw [List.mem_singleton] at hx; subst hx; exact he
  have via : ∀ f : Elem F → Elem F, (∀ e, Lay.Fine e → Lay.Fine (f e)) →
      Lay.Ready { l with elements := l.elements.map f } := by
    intro f hf
    refine Lay.ready_elements h fun x hx => ?_
    obtain ⟨e', h', rfl⟩ := List.mem_map.1 hx
    exact hf e' (fine e' h')
  cases e with
  | move x y => cases hr; exact via _ fun _ => Lay.fine_adjust x y
  | renameNet a b =>
    simp only [BoardEdit.run, Lay.changeNetName_eq, Res.ok.injEq] at hr
    subst hr
    exact via _ fun _ => Lay.fine_renamed a b he
  | addNet n name =>
    cases hr
    refine snoc _ ⟨he.1, ?_, by simp [boardTrees]⟩
    simpa [boardStrings] using he.2
  | addNetclass nc =>
    cases hr
    exact snoc _ ⟨trivial, he, by simp [boardTrees]⟩
  | setSetup n v => cases hr; exact Lay.ready_setup h n v he.1 he.2.1 he.2.2
  | append e => cases hr; exact snoc _ he
  | editModule r es =>
    simp only [BoardEdit.run, Layout.modifyModule] at hr
    split at hr
    · rename_i es' hes
      cases hr
      refine Lay.ready_elements h fun x hx => ?_
      rcases Lay.modifyModuleIn_mem r _ _ _ hes x hx with hx | ⟨m, hm, rfl⟩
      · exact fine x hx
      · exact (Lay.fine_module _).2 (C59_edits_keep_savable es he m ((Lay.fine_module m).1 (fine _ hm)))
    · simp at hr

/-- No editing call ever aborts the program. -/
theorem C60_edits_return (edits : List (BoardEdit F)) (l : Layout F) :
    ∃ l', runBoard edits l = .ok l' := by
  induction edits generalizing l with
  | nil => exact ⟨l, rfl⟩
  | cons e es ih =>
    rcases hr : e.run l with l' | x | _ | _
    · simpa [runBoard, hr] using ih l'
    · simpa [runBoard, hr] using ih l
    all_goals
      exfalso
      cases e <;> simp [BoardEdit.run, Lay.changeNetName_eq, Layout.modifyModule] at hr
      split at hr <;> simp at hr

/-- A board that can be saved can still be saved after any editing session
(moving, renaming nets, adding nets and net classes, changing the setup, editing
modules, appending elements) whose arguments fit the file format. -/
theorem C60_edits_keep_savable (edits : List (BoardEdit F)) (hf : ∀ e ∈ edits, e.Fits)
    (l l' : Layout F) (h : SavableLayout l) (hc : CleanLayout l) (hr : runBoard edits l = .ok l') :
    SavableLayout l' ∧ CleanLayout l' := by
  have main : ∀ (edits : List (BoardEdit F)) (l l' : Layout F), (∀ e ∈ edits, e.Fits) →
      Lay.Ready l → runBoard edits l = .ok l' → Lay.Ready l' := by
    intro edits
    induction edits with
    | nil => intro l l' _ h hr; cases hr; exact h
    | cons e es ih =>
      intro l l' hf h hr
      rw [List.forall_mem_cons] at hf
      simp only [runBoard] at hr
      split at hr
      · rename_i l2 h2
        exact ih l2 l' hf.2 (Lay.run_ready e hf.1 l l2 h h2) hr
      · exact ih l l' hf.2 h hr
      · simp at hr
      · simp at hr
  exact main edits l l' hf ⟨h, hc⟩ hr

variable [TextLaws F] [ZeroLaws F]

/-- Saving after the session and reading the text gives exactly the edited
board. -/
theorem C60_edit_save_read (q : Str → Bool) (hq : QuotesWhenNeeded q) (level : Int)
    (edits : List (BoardEdit F)) (hf : ∀ e ∈ edits, e.Fits) (l : Layout F) (h : SavableLayout l)
    (hc : CleanLayout l) :
    ∃ l', runBoard edits l = .ok l' ∧ Lay.parse (Lay.toText q level l') = .ok l' := by
  obtain ⟨l', hr⟩ := C60_edits_return edits l
  obtain ⟨h1, h2⟩ := C60_edits_keep_savable edits hf l l' h hc hr
  refine ⟨l', hr, ?_⟩
  have := C35_layout_roundtrip q hq level l' h1 h2 [] Sexp.Text.blank_nil
  rwa [List.append_nil] at this

/-- Saving and reading at any point of a session makes no difference to what the
session ends with. -/
theorem C60_save_in_between (q : Str → Bool) (hq : QuotesWhenNeeded q) (level : Int)
    (before after : List (BoardEdit F)) (hf : ∀ e ∈ before, e.Fits) (l : Layout F)
    (h : SavableLayout l) (hc : CleanLayout l) :
    (do let l1 ← runBoard before l
        let l2 ← Lay.parse (Lay.toText q level l1)
        runBoard after l2) = runBoard (before ++ after) l := by
  obtain ⟨l', hr, hp⟩ := C60_edit_save_read q hq level before hf l h hc
  have app : ∀ (a b : List (BoardEdit F)) (l : Layout F),
      runBoard (a ++ b) l = (do let x ← runBoard a l; runBoard b x) := by
    intro a b
    induction a with
    | nil => intro l; rfl
    | cons e es ih =>
      intro l
      simp only [List.cons_append, runBoard]
      cases e.run l <;> first | exact ih _ | rfl
  rw [app, hr]
  simp only [Res.bind_ok, hp]

/-- A session: move everything, rename a net, add one, change a setup entry, turn
a module over, try to edit one that is not there. -/
def Spec.sampleBoardSession : List (BoardEdit Nm) :=
  [.move ⟨100⟩ ⟨0⟩, .renameNet (str! "GND") (str! "0 V"), .addNet 2 (str! "vcc"),
   .setSetup (str! "user_trace_width") (str! "0.2"), .editModule (str! "R1") [.flip],
   .append (.module_ sampleModule), .editModule (str! "REF**") sampleSession]

example : ∃ l', runBoard sampleBoardSession sampleLayout = .ok l' ∧
    Lay.parse (Lay.toText Fm.stdQuote 0 l') = .ok l' := by
  refine C60_edit_save_read _ stdQuote_quotes 0 _ ?_ _ sampleLayout_savable sampleLayout_clean
  simp only [sampleBoardSession, List.forall_mem_cons, BoardEdit.Fits]
  refine ⟨trivial, by decide, ⟨by decide, by decide⟩, ⟨by decide, by decide, by decide⟩, ?_, ?_, ?_, by simp⟩
  · simp [FpEdit.Fits]
  · exact (Lay.fine_module _).2 sampleModule_good
  · exact sampleSession_fits

end Verif
