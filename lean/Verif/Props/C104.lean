import Verif.Props.C103
import Verif.Props.C101
import Verif.Props.C68
import Verif.Props.C70
import Verif.Lemmas.Merge
/-!
# C104 – edits to different parts of a file can be merged

Two people change the same file in different places.  A version control system merges the two
versions line by line.  The merged file is read, and it is read as the merge of what they wrote.
-/

namespace Verif
open Spec

variable {F : Type} [Flt F]

/-- **C104.** Schematics of whole items: elements and sheets are merged, the title block is the
one that was changed. -/
theorem C104_schematic {libs : List Str} {layer : Str} {b o t r : List (List Str × Part F)} {wb wo wt wr : Str}
    (hb : ∀ p ∈ b, PartLines p.1 p.2) (ho : ∀ p ∈ o, PartLines p.1 p.2) (ht : ∀ p ∈ t, PartLines p.1 p.2)
    (hm : Merged b o t r)
    (lb : lines wb = headLines libs layer ++ linesOf b) (lo : lines wo = headLines libs layer ++ linesOf o)
    (lt : lines wt = headLines libs layer ++ linesOf t) (lr : lines wr = headLines libs layer ++ linesOf r) :
    ∃ sb so st sr : Sch.Schematic F, Sch.parseStr wb = .ok sb ∧ Sch.parseStr wo = .ok so ∧ Sch.parseStr wt = .ok st ∧
      Sch.parseStr wr = .ok sr ∧ Merged sb.elements so.elements st.elements sr.elements ∧
      Merged sb.sheets so.sheets st.sheets sr.sheets ∧
      ((b.filterMap fun p => p.2.descr?).length = 1 → (o.filterMap fun p => p.2.descr?).length ≤ 1 →
        (t.filterMap fun p => p.2.descr?).length ≤ 1 →
        MergedValue sb.description so.description st.description sr.description) := by
  have hr : ∀ p ∈ r, PartLines p.1 p.2 := fun p hp => (Mrg.perm_mem hm p hp).elim (ho p) (ht p)
  refine ⟨_, _, _, _, Trade.read_parts lb (Trade.content_pieces b hb), Trade.read_parts lo (Trade.content_pieces o ho),
    Trade.read_parts lt (Trade.content_pieces t ht), Trade.read_parts lr (Trade.content_pieces r hr),
    Mrg.filterMap _ (Mrg.map _ hm), Mrg.filterMap _ (Mrg.map _ hm), ?_⟩
  intro h1 h2 h3
  have := Mrg.single (Mrg.filterMap (fun p : List Str × Part F => p.2.descr?) hm) h1 h2 h3
  simp only [Trade.ofParts, List.filterMap_map]
  exact Mrg.value (fun l : List Sch.Description => l.getLastD _) this

/-- How many entries of a kind some pieces of a component have. -/
def Spec.entriesOf {F : Type} (k : Nat) (ps : List (List Str × List (CompEntry F))) : Nat :=
  ((ps.flatMap Prod.snd).filter fun e => e.kind = k).length

/-- The kind is there once in the old version and not more often in the new ones. -/
def Spec.OnceEach {F : Type} (k : Nat) (b o t : List (List Str × List (CompEntry F))) : Prop :=
  entriesOf k b = 1 ∧ entriesOf k o ≤ 1 ∧ entriesOf k t ≤ 1

theorem Mrg.entries {F β : Type} (g : CompEntry F → Option β) (k : Nat) (hg : ∀ e, (g e).isSome = decide (e.kind = k))
    (ps : List (List Str × List (CompEntry F))) : ((ps.flatMap Prod.snd).filterMap g).length = entriesOf k ps := by
  unfold entriesOf
  induction ps.flatMap Prod.snd with
  | nil => rfl
  | cons e l ih =>
    have := hg e
    rw [List.filterMap_cons, List.filter_cons]
    cases h : g e with
    | none => rw [h] at this; simp [← this, ih]
    | some v => rw [h] at this; simp [← this, ih]

/-- The lines of one component: fields and paths are merged, and of what a component has once
(names, unit, position, rotation) the changed value is taken. -/
theorem C104_component {libs : List Str} {layer l : Str} {before after : List Str} {pb pa : List (Part F)}
    {b o t r : List (List Str × List (CompEntry F))} {wb wo wt wr : Str}
    (h0 : ContentLines before pb) (h1 : ContentLines after pa) (hl : BeginsWith (str! "$Comp") l)
    (hb : ∀ p ∈ b, CompLines p.1 p.2) (ho : ∀ p ∈ o, CompLines p.1 p.2) (ht : ∀ p ∈ t, CompLines p.1 p.2)
    (hm : Merged b o t r)
    (lb : lines wb = headLines libs layer ++ (before ++ (l :: linesOf b ++ [str! "$EndComp"] ++ after)))
    (lo : lines wo = headLines libs layer ++ (before ++ (l :: linesOf o ++ [str! "$EndComp"] ++ after)))
    (lt : lines wt = headLines libs layer ++ (before ++ (l :: linesOf t ++ [str! "$EndComp"] ++ after)))
    (lr : lines wr = headLines libs layer ++ (before ++ (l :: linesOf r ++ [str! "$EndComp"] ++ after))) :
    ∃ (s : Sch.Schematic F) (ea eb : List (Sch.Element F)) (cb co ct cr : Sch.Component F),
      Sch.parseStr wb = .ok { s with elements := eb ++ .component cb :: ea } ∧
      Sch.parseStr wo = .ok { s with elements := eb ++ .component co :: ea } ∧
      Sch.parseStr wt = .ok { s with elements := eb ++ .component ct :: ea } ∧
      Sch.parseStr wr = .ok { s with elements := eb ++ .component cr :: ea } ∧
      Merged cb.fields co.fields ct.fields cr.fields ∧ Merged cb.arPath co.arPath ct.arPath cr.arPath ∧
      (OnceEach 0 b o t → MergedValue (cb.name, cb.reference) (co.name, co.reference) (ct.name, ct.reference)
        (cr.name, cr.reference)) ∧
      (OnceEach 1 b o t → MergedValue cb.u co.u ct.u cr.u) ∧
      (OnceEach 2 b o t → MergedValue (cb.x, cb.y) (co.x, co.y) (ct.x, ct.y) (cr.x, cr.y)) ∧
      (OnceEach 4 b o t → MergedValue cb.rotation co.rotation ct.rotation cr.rotation) := by
  have hr : ∀ p ∈ r, CompLines p.1 p.2 := fun p hp => (Mrg.perm_mem hm p hp).elim (ho p) (ht p)
  have read : ∀ (ps : List (List Str × List (CompEntry F))) (w : Str) (c : Sch.Component F), (∀ p ∈ ps, CompLines p.1 p.2) →
      lines w = headLines libs layer ++ (before ++ (l :: linesOf ps ++ [str! "$EndComp"] ++ after)) →
      Describes (ps.flatMap Prod.snd) c →
      Sch.parseStr w = .ok { Trade.ofParts libs layer (pb ++ pa) with
        elements := pb.filterMap Part.element? ++ .component c :: pa.filterMap Part.element? } := by
    intro ps w c hp hw hd
    rw [Trade.read_parts hw (Trade.content_append h0 (.cons (.component hl (Trade.comp_pieces ps hp) hd) h1))]
    have h1 : (Part.element (.component c) : Part F).descr? = none := rfl
    have h2 : (Part.element (.component c) : Part F).element? = some (.component c) := rfl
    have h3 : (Part.element (.component c) : Part F).sheet? = none := rfl
    simp only [Trade.ofParts, List.filterMap_append, List.filterMap_cons, h1, h2, h3]
  have hm' := Mrg.flatMap Prod.snd hm
  obtain ⟨cb, db⟩ := Trade.comp_exists (b.flatMap Prod.snd)
  obtain ⟨co, do_⟩ := Trade.comp_exists (o.flatMap Prod.snd)
  obtain ⟨ct, dt⟩ := Trade.comp_exists (t.flatMap Prod.snd)
  obtain ⟨cr, dr⟩ := Trade.comp_exists (r.flatMap Prod.snd)
  refine ⟨_, _, _, cb, co, ct, cr, read b wb cb hb lb db, read o wo co ho lo do_, read t wt ct ht lt dt,
    read r wr cr hr lr dr, ?_⟩
  obtain ⟨b1, b2, b3, b4, b5, b6⟩ := db
  obtain ⟨o1, o2, o3, o4, o5, o6⟩ := do_
  obtain ⟨t1, t2, t3, t4, t5, t6⟩ := dt
  obtain ⟨r1, r2, r3, r4, r5, r6⟩ := dr
  have once : ∀ {β : Type} (g : CompEntry F → Option β) (k : Nat), (∀ e, (g e).isSome = decide (e.kind = k)) →
      OnceEach k b o t → ∀ d : β, MergedValue (((b.flatMap Prod.snd).filterMap g).getLastD d)
        (((o.flatMap Prod.snd).filterMap g).getLastD d) (((t.flatMap Prod.snd).filterMap g).getLastD d)
        (((r.flatMap Prod.snd).filterMap g).getLastD d) := by
    rintro β g k hg ⟨k1, k2, k3⟩ d
    exact Mrg.value (fun l : List β => l.getLastD d) (Mrg.single (Mrg.filterMap g hm') (by rw [Mrg.entries g k hg]; exact k1)
      (by rw [Mrg.entries g k hg]; exact k2) (by rw [Mrg.entries g k hg]; exact k3))
  refine ⟨?_, ?_, fun h => ?_, fun h => ?_, fun h => ?_, fun h => ?_⟩
  · rw [b5, o5, t5, r5]; exact Mrg.filterMap _ hm'
  · rw [b6, o6, t6, r6]; exact Mrg.filterMap _ hm'
  · rw [b1, o1, t1, r1]; exact once _ 0 (by rintro (_ | _) <;> rfl) h _
  · rw [b2, o2, t2, r2]; exact once _ 1 (by rintro (_ | _) <;> rfl) h _
  · rw [b3, o3, t3, r3]; exact once _ 2 (by rintro (_ | _) <;> rfl) h _
  · rw [b4, o4, t4, r4]; exact once _ 4 (by rintro (_ | _) <;> rfl) h _

/-- Symbol libraries of whole symbols. -/
theorem C104_library {b o t r : List (List Str × Lib.Symbol F)} {tail : List Str} {wb wo wt wr : Str}
    (hb : ∀ p ∈ b, SymbolLines p.1 p.2 ∧ p.1.head? ≠ some (str! "#End Library"))
    (ho : ∀ p ∈ o, SymbolLines p.1 p.2 ∧ p.1.head? ≠ some (str! "#End Library"))
    (ht : ∀ p ∈ t, SymbolLines p.1 p.2 ∧ p.1.head? ≠ some (str! "#End Library")) (hm : Merged b o t r)
    (hl : LibraryTail tail) (lb : lines wb = libraryHead ++ (linesOf b ++ tail))
    (lo : lines wo = libraryHead ++ (linesOf o ++ tail)) (lt : lines wt = libraryHead ++ (linesOf t ++ tail))
    (lr : lines wr = libraryHead ++ (linesOf r ++ tail)) :
    ∃ sb so st sr : List (Lib.Symbol F), Lib.parseStr wb = .ok ⟨sb⟩ ∧ Lib.parseStr wo = .ok ⟨so⟩ ∧
      Lib.parseStr wt = .ok ⟨st⟩ ∧ Lib.parseStr wr = .ok ⟨sr⟩ ∧ Merged sb so st sr := by
  have hr := fun p hp => (Mrg.perm_mem hm p hp).elim (ho p) (ht p)
  have read : ∀ (ps : List (List Str × Lib.Symbol F)) (w : Str),
      (∀ p ∈ ps, SymbolLines p.1 p.2 ∧ p.1.head? ≠ some (str! "#End Library")) →
      lines w = libraryHead ++ (linesOf ps ++ tail) → Lib.parseStr w = .ok ⟨ps.map Prod.snd⟩ := fun ps w hp hw =>
    (C75_grammar ..).2 ⟨_, hw, Trade.symbols_pieces ps (fun p h => (hp p h).1) (fun p h => (hp p h).2) hl⟩
  exact ⟨_, _, _, _, read b wb hb lb, read o wo ho lo, read t wt ht lt, read r wr hr lr, Mrg.map _ hm⟩

theorem Mrg.unique_of {α : Type} {P : Sexp → α → Prop} {de : Sexp → Res α} (h : ∀ e v, de e = .ok v ↔ P e v)
    (x : Sexp) (a b : α) (ha : P x a) (hb : P x b) : a = b :=
  Res.ok.inj (((h x a).2 ha).symm.trans ((h x b).2 hb))

/-- Footprints: if the old file and both new ones are read, the merged one is read too, and its
elements are the merged ones.  The parts are merged as they are, whatever their order. -/
theorem C104_footprint {name : Str} {b o t r : List Sexp} {vb vo vt : Fp.Module F} (hm : Merged b o t r)
    (hb : Fp.Module.de (.list (.str (str! "module") :: .str name :: b)) = .ok vb)
    (ho : Fp.Module.de (.list (.str (str! "module") :: .str name :: o)) = .ok vo)
    (ht : Fp.Module.de (.list (.str (str! "module") :: .str name :: t)) = .ok vt) :
    ∃ es, Fp.Module.de (.list (.str (str! "module") :: .str name :: r)) = .ok ⟨name, es⟩ ∧
      Merged vb.elements vo.elements vt.elements es := by
  simp only [Fp.module_iff] at hb ho ht ⊢
  obtain ⟨_, eb, hb⟩ := hb
  obtain ⟨_, eo, ho⟩ := ho
  obtain ⟨_, et, ht⟩ := ht
  simp only [Sexp.list.injEq, List.cons.injEq, Sexp.str.injEq, true_and] at eb eo et
  obtain ⟨-, rfl⟩ := eb
  obtain ⟨-, rfl⟩ := eo
  obtain ⟨-, rfl⟩ := et
  obtain ⟨rs, h1, h2⟩ := Mrg.many (Mrg.unique_of Fp.elem_iff) hm hb ho ht
  exact ⟨rs, ⟨_, rfl, h1⟩, h2⟩

/-- Library tables. -/
theorem C104_table {b o t r : List Sexp} {vb vo vt : Tbl.FpLibTable} (hm : Merged b o t r)
    (hb : Tbl.FpLibTable.de (.list (.str (str! "fp_lib_table") :: b)) = .ok vb)
    (ho : Tbl.FpLibTable.de (.list (.str (str! "fp_lib_table") :: o)) = .ok vo)
    (ht : Tbl.FpLibTable.de (.list (.str (str! "fp_lib_table") :: t)) = .ok vt) :
    ∃ ls, Tbl.FpLibTable.de (.list (.str (str! "fp_lib_table") :: r)) = .ok ⟨ls⟩ ∧
      Merged vb.libs vo.libs vt.libs ls := by
  simp only [Tbl.table_iff] at hb ho ht ⊢
  obtain ⟨_, eb, hb⟩ := hb
  obtain ⟨_, eo, ho⟩ := ho
  obtain ⟨_, et, ht⟩ := ht
  simp only [Sexp.list.injEq, List.cons.injEq, true_and] at eb eo et
  subst eb eo et
  obtain ⟨rs, h1, h2⟩ := Mrg.many (Mrg.unique_of Tbl.lib_iff) hm hb ho ht
  exact ⟨rs, ⟨_, rfl, h1⟩, h2⟩

theorem Mrg.part_unique (x : Sexp) (a b : BoardPart F) (ha : BoardPartTree x a) (hb : BoardPartTree x b) : a = b := by
  have hn : Shuf.boardPartName a = Shuf.boardPartName b := by
    have key : ∀ a b : BoardPart F, BoardPartTree x a → BoardPartTree x b → Shuf.boardPartName a ≠ [] →
        Shuf.boardPartName a = Shuf.boardPartName b := by
      intro a b ha hb h
      obtain ⟨r, rfl⟩ := Trade.part_head ha h
      rcases Shuf.boardPart_name ha with ⟨h1, -⟩ | ⟨-, h2⟩
      · rcases Shuf.boardPart_name hb with ⟨-, h2⟩ | ⟨h2, -⟩
        · exact h2.symm
        · exact absurd h1 h2
      · exact absurd h2 h
    by_cases h : Shuf.boardPartName a = []
    · by_cases h' : Shuf.boardPartName b = []
      · rw [h, h']
      · exact (key b a hb ha h').symm
    · exact key a b ha hb h
  have h1 := (Lay.step_iff Lay.Layout.dflt (Lay.withBoardItem Lay.Layout.dflt a) x).2 ⟨a, ha, rfl⟩
  have h2 := (Lay.step_iff Lay.Layout.dflt (Lay.withBoardItem Lay.Layout.dflt b) x).2 ⟨b, hb, rfl⟩
  have h : Lay.withBoardItem Lay.Layout.dflt a = Lay.withBoardItem Lay.Layout.dflt b := Res.ok.inj (h1.symm.trans h2)
  cases a <;> cases b <;> first
    | exact absurd hn (by simp only [Shuf.boardPartName]; decide)
    | (simp [Lay.withBoardItem] at h; rw [h])

theorem Mrg.parts_count {l : List Sexp} {is : List (BoardPart F)} (h : Many BoardPartTree l is) {β : Type}
    (f : BoardPart F → Option β) (n : Str) (hn : n ∈ headingNames)
    (hf : ∀ a, (f a).isSome = decide (Shuf.boardPartName a = n)) : (is.filterMap f).length = (namesOf l).count n := by
  have h0 : n ≠ [] := by rintro rfl; revert hn; decide
  induction h with
  | nil => simp [namesOf]
  | @cons x l a as hx _ ih =>
    rw [show namesOf (x :: l) = namesOf [x] ++ namesOf l from Shuf.namesOf_append [x] l, List.count_append, ← ih,
      List.filterMap_cons]
    have hfa := hf a
    by_cases ha : Shuf.boardPartName a = n
    · obtain ⟨r, rfl⟩ := Trade.part_head hx (by rwa [ha])
      have h1 : (namesOf [Sexp.list (.str (Shuf.boardPartName a) :: r)]).count n = 1 := by
        rw [ha]; simp [namesOf]
      rw [h1]
      cases h : f a with
      | none => rw [h] at hfa; simp [ha] at hfa
      | some v => simp; omega
    · have h1 : (namesOf [x]).count n = 0 := by
        rw [List.count_eq_zero]
        intro hc
        have : ∃ r, x = .list (.str n :: r) := by
          match x, hc with
          | .list (.str m :: r), hc => simp only [namesOf, List.mem_singleton] at hc; exact ⟨r, by rw [hc]⟩
          | .str _, hc => simp [namesOf] at hc
          | .empty, hc => simp [namesOf] at hc
          | .list [], hc => simp [namesOf] at hc
          | .list (.empty :: _), hc => simp [namesOf] at hc
          | .list (.list _ :: _), hc => simp [namesOf] at hc
        obtain ⟨r, rfl⟩ := this
        rcases Shuf.boardPart_name hx with ⟨-, h⟩ | ⟨h, -⟩
        · exact ha h
        · exact h hn
      rw [h1]
      cases h : f a with
      | none => simp
      | some v => rw [h] at hfa; simp [ha] at hfa

/-- A section is there once in the old file and not more often in the new ones. -/
def Spec.OnceNamed (n : Str) (b o t : List Sexp) : Prop :=
  (namesOf b).count n = 1 ∧ (namesOf o).count n ≤ 1 ∧ (namesOf t).count n ≤ 1

/-- Boards: the elements are merged, and of each section of the heading the changed one is taken,
if it is there once in the old file and not more often in the new ones. -/
theorem C104_board {b o t r : List Sexp} {vb vo vt : Lay.Layout F} (hm : Merged b o t r)
    (hb : Lay.Layout.de (.list (.str (str! "kicad_pcb") :: b)) = .ok vb)
    (ho : Lay.Layout.de (.list (.str (str! "kicad_pcb") :: o)) = .ok vo)
    (ht : Lay.Layout.de (.list (.str (str! "kicad_pcb") :: t)) = .ok vt) :
    ∃ vr, Lay.Layout.de (.list (.str (str! "kicad_pcb") :: r)) = .ok vr ∧
      Merged vb.elements vo.elements vt.elements vr.elements ∧
      (OnceNamed (str! "version") b o t → MergedValue vb.version vo.version vt.version vr.version) ∧
      (OnceNamed (str! "host") b o t → MergedValue vb.host vo.host vt.host vr.host) ∧
      (OnceNamed (str! "general") b o t → MergedValue vb.general vo.general vt.general vr.general) ∧
      (OnceNamed (str! "page") b o t → MergedValue vb.page vo.page vt.page vr.page) ∧
      (OnceNamed (str! "layers") b o t → MergedValue vb.layers vo.layers vt.layers vr.layers) ∧
      (OnceNamed (str! "setup") b o t → MergedValue vb.setup vo.setup vt.setup vr.setup) := by
  simp only [Lay.board_iff] at hb ho ht ⊢
  obtain ⟨_, ib, eb, hb, b1, b2, b3, b4, b5, b6, b7⟩ := hb
  obtain ⟨_, io, eo, ho, o1, o2, o3, o4, o5, o6, o7⟩ := ho
  obtain ⟨_, it, et, ht, t1, t2, t3, t4, t5, t6, t7⟩ := ht
  simp only [Sexp.list.injEq, List.cons.injEq, true_and] at eb eo et
  subst eb eo et
  obtain ⟨rs, h1, h2⟩ := Mrg.many Mrg.part_unique hm hb ho ht
  have once : ∀ {β : Type} (f : BoardPart F → Option β) (n : Str), n ∈ headingNames →
      (∀ a, (f a).isSome = decide (Shuf.boardPartName a = n)) → OnceNamed n b o t → ∀ d : β,
      MergedValue ((ib.filterMap f).getLast?.getD d) ((io.filterMap f).getLast?.getD d)
        ((it.filterMap f).getLast?.getD d) ((rs.filterMap f).getLast?.getD d) := by
    rintro β f n hn hf ⟨k1, k2, k3⟩ d
    exact Mrg.value (fun l : List β => l.getLast?.getD d) (Mrg.single (Mrg.filterMap f h2)
      (by rw [Mrg.parts_count hb f n hn hf]; exact k1) (by rw [Mrg.parts_count ho f n hn hf]; exact k2)
      (by rw [Mrg.parts_count ht f n hn hf]; exact k3))
  refine ⟨⟨_, _, _, _, _, _, _⟩, ⟨_, rs, rfl, h1, rfl, rfl, rfl, rfl, rfl, rfl, rfl⟩, ?_, fun h => ?_, fun h => ?_,
    fun h => ?_, fun h => ?_, fun h => ?_, fun h => ?_⟩
  · rw [b7, o7, t7]; exact Mrg.filterMap _ h2
  · rw [b1, o1, t1]; exact once BoardPart.version? (str! "version") (by decide) (by rintro (_ | _) <;> rfl) h _
  · rw [b2, o2, t2]; exact once BoardPart.host? (str! "host") (by decide) (by rintro (_ | _) <;> rfl) h _
  · rw [b3, o3, t3]; exact once BoardPart.general? (str! "general") (by decide) (by rintro (_ | _) <;> rfl) h _
  · rw [b4, o4, t4]; exact once BoardPart.page? (str! "page") (by decide) (by rintro (_ | _) <;> rfl) h _
  · rw [b5, o5, t5]; exact once BoardPart.layers? (str! "layers") (by decide) (by rintro (_ | _) <;> rfl) h _
  · rw [b6, o6, t6]; exact once BoardPart.setup? (str! "setup") (by decide) (by rintro (_ | _) <;> rfl) h _

/-! ## Saved files -/

/-- Saved schematics: merging the lines of the files gives the file of the merged elements. -/
theorem C104_saved_schematic [Flt.TextLaws F] {s : Sch.Schematic F} {b o t r : List (Sch.Element F)} (hm : Merged b o t r) {w : Str}
    (h : ({ s with elements := b } : Sch.Schematic F).print = .ok w) :
    ∃ wo wt wr, ({ s with elements := o } : Sch.Schematic F).print = .ok wo ∧
      ({ s with elements := t } : Sch.Schematic F).print = .ok wt ∧
      ({ s with elements := r } : Sch.Schematic F).print = .ok wr ∧
      Merged (fileLines w) (fileLines wo) (fileLines wt) (fileLines wr) := by
  obtain ⟨sh, h1, h2⟩ := Sch.Schematic.print_ok _ w h
  have h3 : ∀ l : List (Sch.Element F), ({ s with elements := l } : Sch.Schematic F).print =
      .ok (s.before ++ (l.map Sch.Element.show).flatten ++ sh ++ str! "$EndSCHEMATC\n") := fun l =>
    Sch.Schematic.print_of { s with elements := l } sh h1
  refine ⟨_, _, _, h3 o, h3 t, h3 r, ?_⟩
  rw [Res.ok.inj (h.symm.trans (h3 b))]
  obtain ⟨p, hp⟩ := s.before_ends
  have key : ∀ l : List (Sch.Element F),
      fileLines (s.before ++ (l.map Sch.Element.show).flatten ++ sh ++ str! "$EndSCHEMATC\n") =
        fileLines p ++ (l.flatMap (fun e => fileLines e.show.dropLast) ++ fileLines (sh ++ str! "$EndSCHEMATC\n")) := by
    intro l
    have : (l.map Sch.Element.show).flatten = l.flatMap (fun e => e.show.dropLast ++ str! "\n") := by
      induction l with
      | nil => rfl
      | cons e l ih =>
        obtain ⟨a, ha⟩ := e.show_ends
        simp only [List.map_cons, List.flatten_cons, List.flatMap_cons, ih]
        rw [ha]; simp
    rw [this, hp]
    simp only [List.append_assoc, List.cons_append, List.nil_append]
    rw [Diff.lines_break, ← Mrg.lines_before (fun e : Sch.Element F => e.show.dropLast) l (sh ++ str! "$EndSCHEMATC\n")]
  rw [key, key, key, key]
  exact .same _ (Mrg.suffix _ (Mrg.flatMap _ hm))

/-- Elements of a footprint that start on a line of their own. -/
def Spec.OwnLine (e : Fp.Elem F) : Prop :=
  (∃ p, e = .pad p) ∨ (∃ p, e = .line p) ∨ (∃ p, e = .poly p) ∨ (∃ p, e = .circle p) ∨
    (∃ p, e = .text p) ∨ (∃ p, e = .model p) ∨ (∃ p, e = .at_ p)

/-- Saved footprints: merging the lines of the files gives the file of the merged elements, if
these start on lines of their own. -/
theorem C104_saved_footprint (q : Str → Bool) (level : Int) (name : Str) (first : List (Fp.Elem F)) {b o t r : List (Fp.Elem F)}
    (hm : Merged b o t r) (hb : ∀ e ∈ b, OwnLine e) (ho : ∀ e ∈ o, OwnLine e) (ht : ∀ e ∈ t, OwnLine e) :
    Merged (fileLines (Fp.toText q level ⟨name, first ++ b⟩)) (fileLines (Fp.toText q level ⟨name, first ++ o⟩))
      (fileLines (Fp.toText q level ⟨name, first ++ t⟩)) (fileLines (Fp.toText q level ⟨name, first ++ r⟩)) := by
  have hr : ∀ e ∈ r, OwnLine e := fun e he => (Mrg.perm_mem hm e he).elim (ho e) (ht e)
  have key : ∀ l : List (Fp.Elem F), (∀ e ∈ l, OwnLine e) → fileLines (Fp.toText q level ⟨name, first ++ l⟩) =
      fileLines (str! "(" ++ Fm.atomText q (str! "module") ++ str! " " ++ Fm.atomText q name ++
        first.flatMap (elementText (Fm.atomText q) level)) ++
      (l.flatMap (fun e => fileLines ((elementText (Fm.atomText q) level e).drop 1)) ++ fileLines (str! ")")) := by
    intro l hl
    rw [C68_text]
    have : l.flatMap (elementText (Fm.atomText q) level) =
        l.flatMap (fun e => '\n' :: (elementText (Fm.atomText q) level e).drop 1) := by
      induction l with
      | nil => rfl
      | cons e l ih =>
        obtain ⟨rest, he⟩ := C68_own_line (Fm.atomText q) level e (hl e (by simp))
        simp only [List.flatMap_cons, ih fun e he => hl e (by simp [he])]
        rw [he]; rfl
    simp only [List.flatMap_append]
    rw [this]
    have := Mrg.lines_after (fun e : Fp.Elem F => (elementText (Fm.atomText q) level e).drop 1) l
      (str! "(" ++ Fm.atomText q (str! "module") ++ str! " " ++ Fm.atomText q name ++
        first.flatMap (elementText (Fm.atomText q) level)) (str! ")")
    simp only [List.append_assoc, List.cons_append, List.nil_append] at this ⊢
    exact this
  rw [key b hb, key o ho, key t ht, key r hr]
  exact .same _ (Mrg.suffix _ (Mrg.flatMap _ hm))

/-- Saved library tables. -/
theorem C104_saved_table (q : Str → Bool) (level : Int) {b o t r : List Tbl.Lib} (hm : Merged b o t r) :
    Merged (fileLines (Tbl.toText q level ⟨b⟩)) (fileLines (Tbl.toText q level ⟨o⟩))
      (fileLines (Tbl.toText q level ⟨t⟩)) (fileLines (Tbl.toText q level ⟨r⟩)) := by
  have key : ∀ l : List Tbl.Lib, fileLines (Tbl.toText q level ⟨l⟩) =
      fileLines (str! "(" ++ Fm.atomText q (str! "fp_lib_table")) ++
      (l.flatMap (fun e => fileLines ((libLine (Fm.atomText q) level e).drop 1)) ++ fileLines (str! ")")) := by
    intro l
    rw [C70_text]
    have : l.flatMap (libLine (Fm.atomText q) level) =
        l.flatMap (fun e => '\n' :: (libLine (Fm.atomText q) level e).drop 1) := rfl
    rw [this]
    have := Mrg.lines_after (fun e : Tbl.Lib => (libLine (Fm.atomText q) level e).drop 1) l
      (str! "(" ++ Fm.atomText q (str! "fp_lib_table")) (str! ")")
    simp only [List.append_assoc, List.cons_append, List.nil_append] at this ⊢
    exact this
  rw [key b, key o, key t, key r]
  exact .same _ (Mrg.suffix _ (Mrg.flatMap _ hm))

/-! ## Examples -/

/-- One of us changes the name of the first net and adds a third one, the other changes the
version. -/
def Spec.ourNets (version a : String) (more : List Sexp) : List Sexp :=
  [.list [.str (str! "version"), .str version.toList], .list [.str (str! "net"), .str (str! "1"), .str a.toList],
    .list [.str (str! "net"), .str (str! "2"), .str (str! "GND")]] ++ more

example : Merged (ourNets "4" "A" []) (ourNets "4" "B" [.list [.str (str! "net"), .str (str! "3"), .str (str! "C")]])
      (ourNets "5" "A" []) (ourNets "5" "B" [.list [.str (str! "net"), .str (str! "3"), .str (str! "C")]]) ∧
    OnceNamed (str! "version") (ourNets "4" "A" [])
      (ourNets "4" "B" [.list [.str (str! "net"), .str (str! "3"), .str (str! "C")]]) (ourNets "5" "A" []) ∧
    (∃ vb vo vt : Lay.Layout Nm, Lay.Layout.de (.list (.str (str! "kicad_pcb") :: ourNets "4" "A" [])) = .ok vb ∧
      Lay.Layout.de (.list (.str (str! "kicad_pcb") ::
        ourNets "4" "B" [.list [.str (str! "net"), .str (str! "3"), .str (str! "C")]])) = .ok vo ∧
      Lay.Layout.de (.list (.str (str! "kicad_pcb") :: ourNets "5" "A" [])) = .ok vt ∧
      vb.version = 4 ∧ vo.elements.length = 3 ∧ vt.version = 5) :=
  ⟨.theirs [_] [_] (.ours [_] [_] (.same [_] (.ours [] [_] .nil))), ⟨by decide +kernel, by decide +kernel, by decide +kernel⟩,
    _, _, _, rfl, rfl, rfl, rfl, rfl, rfl⟩

/-- What is read of the merged board. -/
example : ∃ vr : Lay.Layout Nm, Lay.Layout.de (.list (.str (str! "kicad_pcb") ::
    ourNets "5" "B" [.list [.str (str! "net"), .str (str! "3"), .str (str! "C")]])) = .ok vr ∧
    vr.version = 5 ∧ vr.elements.length = 3 := ⟨_, rfl, rfl, rfl⟩

/-- Two connections; one of us moves the first, the other moves the second. -/
example : Merged [Sch.Element.connection (F := Nm) ⟨1, 2⟩, .connection ⟨3, 4⟩] [.connection ⟨5, 6⟩, .connection ⟨3, 4⟩]
      [.connection ⟨1, 2⟩, .connection ⟨7, 8⟩] [.connection ⟨5, 6⟩, .connection ⟨7, 8⟩] ∧
    ∃ w, ({ (Sch.Schematic.dflt : Sch.Schematic Nm) with elements := [.connection ⟨1, 2⟩, .connection ⟨3, 4⟩] } : Sch.Schematic Nm).print = .ok w :=
  ⟨.ours [_] [_] (.theirs [_] [_] .nil), _, rfl⟩

/-- Elements that start on lines of their own. -/
example : ∀ e ∈ threeElements.elements, OwnLine e := by
  intro e he
  simp only [threeElements, List.mem_cons, List.not_mem_nil, or_false] at he
  rcases he with rfl | rfl | rfl
  · exact .inl ⟨_, rfl⟩
  · exact .inr (.inr (.inr (.inr (.inl ⟨_, rfl⟩))))
  · exact .inr (.inr (.inl ⟨_, rfl⟩))

end Verif
