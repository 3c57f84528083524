import Verif.Props.C75
import Verif.Props.C76
import Verif.Spec.LineOrder
import Verif.Props.C79
import Verif.Props.C102
import Mathlib.Data.List.Perm.Basic
/-!
# C103 – lines in another order

What happens to what is read when the lines of a schematic or of a symbol library are written
in another order.
-/

namespace Verif
open Spec

variable {F : Type} [Flt F]

namespace Trade

theorem flatMap_eq {α β : Type} {allowed : α → α → Prop} (f : α → List β)
    (hf : ∀ x y, allowed x y → f x = [] ∨ f y = []) {l l' : List α} (h : Traded allowed l l') :
    l.flatMap f = l'.flatMap f := by
  induction h with
  | refl => rfl
  | swap a b x y h =>
    rcases hf x y h with e | e <;> simp [e]
  | trans _ _ ih ih' => exact ih.trans ih'

theorem perm {α : Type} {allowed : α → α → Prop} {l l' : List α} (h : Traded allowed l l') : l.Perm l' := by
  induction h with
  | refl => exact .refl _
  | swap a b x y h => exact .append_left _ (.swap ..)
  | trans _ _ ih ih' => exact ih.trans ih'

theorem none_or {ε β : Type} (kind : ε → Nat) (g : ε → Option β) (hg : ∀ e e', (g e).isSome → (g e').isSome → kind e = kind e')
    (x y : List ε) (h : ∀ e ∈ x, ∀ e' ∈ y, kind e ≠ kind e') : x.filterMap g = [] ∨ y.filterMap g = [] := by
  by_contra hc
  rw [not_or] at hc
  obtain ⟨b, hb⟩ := List.exists_mem_of_ne_nil _ hc.1
  obtain ⟨b', hb'⟩ := List.exists_mem_of_ne_nil _ hc.2
  obtain ⟨e, he, h1⟩ := List.mem_filterMap.1 hb
  obtain ⟨e', he', h2⟩ := List.mem_filterMap.1 hb'
  exact h e he e' he' (hg e e' (by simp [h1]) (by simp [h2]))

theorem comp_append {a b : List Str} {ea eb : List (CompEntry F)} (h : CompLines a ea) (hb : CompLines b eb) :
    CompLines (a ++ b) (ea ++ eb) := by
  induction h with
  | nil => exact hb
  | names h1 h2 _ ih => exact .names h1 h2 ih
  | unit h1 _ ih => exact .unit h1 ih
  | position h1 h2 _ ih => exact .position h1 h2 ih
  | field h1 h2 _ ih => exact .field h1 h2 ih
  | rotation h1 h2 _ ih => exact .rotation h1 h2 ih
  | path h1 _ ih => exact .path h1 ih
  | other h1 h2 _ ih => exact .other h1 h2 ih

theorem sheet_append {a b : List Str} {ea eb : List SheetEntry} (h : SheetLines a ea) (hb : SheetLines b eb) :
    SheetLines (a ++ b) (ea ++ eb) := by
  induction h with
  | nil => exact hb
  | box h1 h2 _ ih => exact .box h1 h2 ih
  | unique h1 h2 _ ih => exact .unique h1 h2 ih
  | name h1 h2 _ ih => exact .name h1 h2 ih
  | file h1 h2 _ ih => exact .file h1 h2 ih
  | label h1 h2 h3 h4 _ ih => exact .label h1 h2 h3 h4 ih
  | other h1 h2 h3 h4 _ ih => exact .other h1 h2 h3 h4 ih

theorem comp_pieces (ps : List (List Str × List (CompEntry F))) (h : ∀ p ∈ ps, CompLines p.1 p.2) :
    CompLines (linesOf ps) (ps.flatMap Prod.snd) := by
  induction ps with
  | nil => exact .nil
  | cons p ps ih => exact comp_append (h p (by simp)) (ih fun q hq => h q (by simp [hq]))

theorem sheet_pieces (ps : List (List Str × List SheetEntry)) (h : ∀ p ∈ ps, SheetLines p.1 p.2) :
    SheetLines (linesOf ps) (ps.flatMap Prod.snd) := by
  induction ps with
  | nil => exact .nil
  | cons p ps ih => exact sheet_append (h p (by simp)) (ih fun q hq => h q (by simp [hq]))

theorem content_pieces (ps : List (List Str × Part F)) (h : ∀ p ∈ ps, PartLines p.1 p.2) :
    ContentLines (linesOf ps) (ps.map Prod.snd) := by
  induction ps with
  | nil => exact .nil
  | cons p ps ih => exact .cons (h p (by simp)) (ih fun q hq => h q (by simp [hq]))

theorem comp_describes {ps ps' : List (List Str × List (CompEntry F))} (h : Traded CompApart ps ps') (c : Sch.Component F)
    (hd : Describes (ps.flatMap Prod.snd) c) : Describes (ps'.flatMap Prod.snd) c := by
  have key : ∀ {β : Type} (g : CompEntry F → Option β),
      (∀ e e', (g e).isSome → (g e').isSome → e.kind = e'.kind) →
      (ps.flatMap Prod.snd).filterMap g = (ps'.flatMap Prod.snd).filterMap g := by
    intro β g hg
    rw [List.filterMap_flatMap, List.filterMap_flatMap]
    exact flatMap_eq _ (fun x y hxy => none_or CompEntry.kind g hg x.2 y.2 hxy) h
  obtain ⟨h1, h2, h3, h4, h5, h6⟩ := hd
  rw [key CompEntry.names? (by intro e e'; cases e <;> cases e' <;> simp [CompEntry.names?, CompEntry.kind])] at h1
  rw [key CompEntry.unit? (by intro e e'; cases e <;> cases e' <;> simp [CompEntry.unit?, CompEntry.kind])] at h2
  rw [key CompEntry.position? (by intro e e'; cases e <;> cases e' <;> simp [CompEntry.position?, CompEntry.kind])] at h3
  rw [key CompEntry.rotation? (by intro e e'; cases e <;> cases e' <;> simp [CompEntry.rotation?, CompEntry.kind])] at h4
  rw [key CompEntry.field? (by intro e e'; cases e <;> cases e' <;> simp [CompEntry.field?, CompEntry.kind])] at h5
  rw [key CompEntry.path? (by intro e e'; cases e <;> cases e' <;> simp [CompEntry.path?, CompEntry.kind])] at h6
  exact ⟨h1, h2, h3, h4, h5, h6⟩

theorem sheet_describes {ps ps' : List (List Str × List SheetEntry)} (h : Traded SheetApart ps ps') (c : Sch.Sheet)
    (hd : DescribesSheet (ps.flatMap Prod.snd) c) : DescribesSheet (ps'.flatMap Prod.snd) c := by
  have key : ∀ {β : Type} (g : SheetEntry → Option β),
      (∀ e e', (g e).isSome → (g e').isSome → e.kind = e'.kind) →
      (ps.flatMap Prod.snd).filterMap g = (ps'.flatMap Prod.snd).filterMap g := by
    intro β g hg
    rw [List.filterMap_flatMap, List.filterMap_flatMap]
    exact flatMap_eq _ (fun x y hxy => none_or SheetEntry.kind g hg x.2 y.2 hxy) h
  obtain ⟨h1, h2, h3, h4, h5⟩ := hd
  rw [key SheetEntry.box? (by intro e e'; cases e <;> cases e' <;> simp [SheetEntry.box?, SheetEntry.kind])] at h1
  rw [key SheetEntry.unique? (by intro e e'; cases e <;> cases e' <;> simp [SheetEntry.unique?, SheetEntry.kind])] at h2
  rw [key SheetEntry.name? (by intro e e'; cases e <;> cases e' <;> simp [SheetEntry.name?, SheetEntry.kind])] at h3
  rw [key SheetEntry.file? (by intro e e'; cases e <;> cases e' <;> simp [SheetEntry.file?, SheetEntry.kind])] at h4
  rw [key SheetEntry.label? (by intro e e'; cases e <;> cases e' <;> simp [SheetEntry.label?, SheetEntry.kind])] at h5
  exact ⟨h1, h2, h3, h4, h5⟩

theorem comp_exists (es : List (CompEntry F)) : ∃ c : Sch.Component F, Describes es c :=
  ⟨{ name := ((es.filterMap CompEntry.names?).getLastD (str! "DUMMY", str! "U1")).1,
     reference := ((es.filterMap CompEntry.names?).getLastD (str! "DUMMY", str! "U1")).2,
     u := (es.filterMap CompEntry.unit?).getLastD [],
     x := ((es.filterMap CompEntry.position?).getLastD (0, 0)).1,
     y := ((es.filterMap CompEntry.position?).getLastD (0, 0)).2,
     arPath := es.filterMap CompEntry.path?, fields := es.filterMap CompEntry.field?,
     rotation := (es.filterMap CompEntry.rotation?).getLastD ⟨0, 0, 0, 0⟩ }, rfl, rfl, rfl, rfl, rfl, rfl⟩

theorem sheet_exists (es : List SheetEntry) : ∃ c : Sch.Sheet, DescribesSheet es c :=
  ⟨{ x := ((es.filterMap SheetEntry.box?).getLastD (0, 0, 0, 0)).1,
     y := ((es.filterMap SheetEntry.box?).getLastD (0, 0, 0, 0)).2.1,
     dimx := ((es.filterMap SheetEntry.box?).getLastD (0, 0, 0, 0)).2.2.1,
     dimy := ((es.filterMap SheetEntry.box?).getLastD (0, 0, 0, 0)).2.2.2,
     unique := (es.filterMap SheetEntry.unique?).getLastD [],
     name := ((es.filterMap SheetEntry.name?).getLastD (str! "DUMMY", 60)).1,
     nameSize := ((es.filterMap SheetEntry.name?).getLastD (str! "DUMMY", 60)).2,
     filename := ((es.filterMap SheetEntry.file?).getLastD ([], 60)).1,
     filenameSize := ((es.filterMap SheetEntry.file?).getLastD ([], 60)).2,
     labels := es.filterMap SheetEntry.label? }, rfl, rfl, rfl, rfl, rfl⟩

/-- The schematic some items stand for. -/
def ofParts (libs : List Str) (layer : Str) (ps : List (Part F)) : Sch.Schematic F :=
  { filename := none, libraries := libs, eelayer := str! "EELAYER " ++ layer,
    description := (ps.filterMap Part.descr?).getLastD
      ⟨[], 0, 0, str! "Normal", str! "Tue 19 May 2015", [], [], [], [], [], [], 1, 1⟩,
    elements := ps.filterMap Part.element?, sheets := ps.filterMap Part.sheet? }

theorem read_parts {t : Str} {libs : List Str} {layer : Str} {body : List Str} {ps : List (Part F)}
    (ht : lines t = headLines libs layer ++ body) (hc : ContentLines body ps) :
    Sch.parseStr t = .ok (ofParts libs layer ps) := by
  rw [C76_grammar, ht]
  exact ⟨layer, body, ps, by simp [headLines, ofParts], rfl, rfl, hc, rfl, rfl, rfl⟩

theorem content_append {a b : List Str} {pa pb : List (Part F)} (h : ContentLines a pa) (hb : ContentLines b pb) :
    ContentLines (a ++ b) (pa ++ pb) := by
  induction h with
  | nil => exact hb
  | @cons a' b' p ps h _ ih => rw [List.append_assoc]; exact .cons h ih

theorem symbols_pieces (ps : List (List Str × Lib.Symbol F)) (h : ∀ p ∈ ps, SymbolLines p.1 p.2)
    (hm : ∀ p ∈ ps, p.1.head? ≠ some (str! "#End Library")) {tail : List Str} (ht : LibraryTail tail) :
    SymbolList (linesOf ps ++ tail) (ps.map Prod.snd) := by
  induction ps with
  | nil => rcases ht with rfl | ⟨rest, rfl⟩
           · exact .eof
           · exact .mark
  | cons p ps ih =>
    have := ih (fun q hq => h q (by simp [hq])) fun q hq => hm q (by simp [hq])
    rw [show linesOf (p :: ps) ++ tail = p.1 ++ (linesOf ps ++ tail) by simp [linesOf]]
    exact .symbol (h p (by simp)) (hm p (by simp)) this

theorem pairs {α β : Type} {R : α → β → Prop} {l : List α} {r : List β} (h : List.Forall₂ R l r) {l' : List α}
    (hp : l.Perm l') : ∃ r', r.Perm r' ∧ List.Forall₂ R l' r' := by
  induction hp generalizing r with
  | nil => exact ⟨r, .refl _, h⟩
  | cons x _ ih =>
    cases h with
    | cons h1 h2 =>
      obtain ⟨r', hr, h'⟩ := ih h2
      exact ⟨_ :: r', hr.cons _, .cons h1 h'⟩
  | swap x y l =>
    rcases h with _ | ⟨h1, _ | ⟨h2, h3⟩⟩
    exact ⟨_, .swap .., .cons h2 (.cons h1 h3)⟩
  | trans _ _ ih ih' =>
    obtain ⟨r', hr, h'⟩ := ih h
    obtain ⟨r'', hr', h''⟩ := ih' h'
    exact ⟨r'', hr.trans hr', h''⟩

theorem part_head {x : Sexp} {a : BoardPart F} (h : BoardPartTree x a) (hn : Shuf.boardPartName a ≠ []) :
    ∃ r, x = .list (.str (Shuf.boardPartName a) :: r) := by
  cases h with
  | version h => obtain ⟨_, rfl, -⟩ := h; exact ⟨_, rfl⟩
  | host h => obtain rfl := h; exact ⟨_, rfl⟩
  | general h => obtain ⟨_, _, _, _, _, _, _, _, _, rfl, -⟩ := h; exact ⟨_, rfl⟩
  | page h => obtain ⟨_, rfl, -⟩ := h; exact ⟨_, rfl⟩
  | layers h => obtain ⟨_, rfl, -⟩ := h; exact ⟨_, rfl⟩
  | setup h => obtain ⟨_, _, rfl, -⟩ := h; exact ⟨_, rfl⟩
  | _ => exact absurd rfl hn

theorem parts_count {l : List Sexp} {is : List (BoardPart F)} (h : Many BoardPartTree l is) {β : Type}
    (f : BoardPart F → Option β) (n : Str) (h0 : n ≠ []) (hf : ∀ a, Shuf.boardPartName a ≠ n → f a = none) :
    (is.filterMap f).length ≤ (namesOf l).count n := by
  induction h with
  | nil => simp
  | @cons x l a as hx _ ih =>
    rw [show namesOf (x :: l) = namesOf [x] ++ namesOf l from Shuf.namesOf_append [x] l, List.count_append]
    by_cases ha : Shuf.boardPartName a = n
    · obtain ⟨r, rfl⟩ := part_head hx (by rwa [ha])
      have h1 : (namesOf [Sexp.list (.str (Shuf.boardPartName a) :: r)]).count n = 1 := by
        rw [ha]; simp [namesOf]
      have h2 : ((a :: as).filterMap f).length ≤ 1 + (as.filterMap f).length := by
        rw [List.filterMap_cons]
        split <;> simp <;> omega
      omega
    · rw [List.filterMap_cons, hf a ha]
      exact Nat.le_trans ih (Nat.le_add_left ..)

end Trade

open Trade

/-- **C103.** Lines of a component about different things may be exchanged; lines that mean nothing
may be anywhere.  `ps` are the lines in pieces, each with what it says; a rotation is a piece of
two lines. -/
theorem C103_component {libs : List Str} {layer l : Str} {before after : List Str} {pb pa : List (Part F)}
    {ps ps' : List (List Str × List (CompEntry F))} {t t' : Str}
    (hb : ContentLines before pb) (ha : ContentLines after pa) (hl : BeginsWith (str! "$Comp") l)
    (hp : ∀ p ∈ ps, CompLines p.1 p.2) (hr : Traded CompApart ps ps')
    (ht : lines t = headLines libs layer ++ (before ++ (l :: linesOf ps ++ [str! "$EndComp"] ++ after)))
    (ht' : lines t' = headLines libs layer ++ (before ++ (l :: linesOf ps' ++ [str! "$EndComp"] ++ after))) :
    ∃ s : Sch.Schematic F, Sch.parseStr t = .ok s ∧ Sch.parseStr t' = .ok s := by
  obtain ⟨c, hc⟩ := comp_exists (ps.flatMap Prod.snd)
  have h1 := comp_pieces ps hp
  have h2 := comp_pieces ps' fun p hp' => hp p ((perm hr).mem_iff.2 hp')
  exact ⟨_, read_parts ht (content_append hb (.cons (.component hl h1 hc) ha)),
    read_parts ht' (content_append hb (.cons (.component hl h2 (comp_describes hr c hc)) ha))⟩

/-- The same for the lines of a sheet. -/
theorem C103_sheet {libs : List Str} {layer l : Str} {before after : List Str} {pb pa : List (Part F)}
    {ps ps' : List (List Str × List SheetEntry)} {t t' : Str}
    (hb : ContentLines before pb) (ha : ContentLines after pa) (hl : BeginsWith (str! "$Sheet") l)
    (hp : ∀ p ∈ ps, SheetLines p.1 p.2) (hr : Traded SheetApart ps ps')
    (ht : lines t = headLines libs layer ++ (before ++ (l :: linesOf ps ++ [str! "$EndSheet"] ++ after)))
    (ht' : lines t' = headLines libs layer ++ (before ++ (l :: linesOf ps' ++ [str! "$EndSheet"] ++ after))) :
    ∃ s : Sch.Schematic F, Sch.parseStr t = .ok s ∧ Sch.parseStr t' = .ok s := by
  obtain ⟨c, hc⟩ := sheet_exists (ps.flatMap Prod.snd)
  have h1 := sheet_pieces ps hp
  have h2 := sheet_pieces ps' fun p hp' => hp p ((perm hr).mem_iff.2 hp')
  exact ⟨_, read_parts ht (content_append hb (.cons (.sheet hl h1 hc) ha)),
    read_parts ht' (content_append hb (.cons (.sheet hl h2 (sheet_describes hr c hc)) ha))⟩

/-- Title blocks, elements and sheets may be exchanged with one another. -/
theorem C103_items {libs : List Str} {layer : Str} {ps ps' : List (List Str × Part F)} {t t' : Str}
    (hp : ∀ p ∈ ps, PartLines p.1 p.2) (hr : Traded PartApart ps ps')
    (ht : lines t = headLines libs layer ++ linesOf ps) (ht' : lines t' = headLines libs layer ++ linesOf ps') :
    ∃ s : Sch.Schematic F, Sch.parseStr t = .ok s ∧ Sch.parseStr t' = .ok s := by
  have key : ∀ {β : Type} (g : Part F → Option β),
      (∀ x y : List Str × Part F, PartApart x y → g x.2 = none ∨ g y.2 = none) →
      (ps.map Prod.snd).filterMap g = (ps'.map Prod.snd).filterMap g := by
    intro β g hg
    have := flatMap_eq (fun x : List Str × Part F => (g x.2).toList)
      (fun x y hxy => (hg x y hxy).imp (by intro e; simp [e]) (by intro e; simp [e])) hr
    simpa [List.filterMap_eq_flatMap_toList, List.flatMap_map] using this
  refine ⟨_, read_parts ht (content_pieces ps hp), ?_⟩
  rw [read_parts ht' (content_pieces ps' fun p hp' => hp p ((perm hr).mem_iff.2 hp')), ofParts, ofParts,
    key Part.descr? (by rintro x y (_ | _ | _ | _ | _ | _ | _ | _) <;> simp [Part.descr?]),
    key Part.element? (by rintro x y (_ | _ | _ | _ | _ | _ | _ | _) <;> simp [Part.element?]),
    key Part.sheet? (by rintro x y (_ | _ | _ | _ | _ | _ | _ | _) <;> simp [Part.sheet?])]

/-- With the items in any other order, elements and sheets are still read, each as before, in the
new order; the title block is the last one in the file. -/
theorem C103_any_order {libs : List Str} {layer : Str} {ps ps' : List (List Str × Part F)} {t t' : Str}
    (hp : ∀ p ∈ ps, PartLines p.1 p.2) (hr : ps.Perm ps')
    (ht : lines t = headLines libs layer ++ linesOf ps) (ht' : lines t' = headLines libs layer ++ linesOf ps') :
    ∃ s s' : Sch.Schematic F, Sch.parseStr t = .ok s ∧ Sch.parseStr t' = .ok s' ∧
      s.elements.Perm s'.elements ∧ s.sheets.Perm s'.sheets ∧
      s'.elements = (ps'.map Prod.snd).filterMap Part.element? ∧ s'.sheets = (ps'.map Prod.snd).filterMap Part.sheet? ∧
      ((ps.filterMap fun p => p.2.descr?).length ≤ 1 →
        s' = { s with elements := s'.elements, sheets := s'.sheets }) := by
  refine ⟨_, _, read_parts ht (content_pieces ps hp),
    read_parts ht' (content_pieces ps' fun p hp' => hp p (hr.mem_iff.2 hp')), (hr.map _).filterMap _, (hr.map _).filterMap _,
    rfl, rfl, ?_⟩
  intro h1
  have e : (ps.map Prod.snd).filterMap Part.descr? = (ps'.map Prod.snd).filterMap Part.descr? := by
    have hperm := ((hr.map Prod.snd).filterMap Part.descr?)
    have hlen : ((ps.map Prod.snd).filterMap Part.descr?).length ≤ 1 := by
      rw [List.filterMap_map]; exact h1
    generalize (ps.map Prod.snd).filterMap Part.descr? = a at *
    generalize (ps'.map Prod.snd).filterMap Part.descr? = b at *
    match a, hlen with
    | [], _ => exact (List.nil_perm.1 hperm).symm
    | [x], _ => exact (List.singleton_perm.1 hperm)
  simp only [ofParts, e]

/-- With the symbols of a library in another order, the same symbols are read in that order. -/
theorem C103_symbols {ps ps' : List (List Str × Lib.Symbol F)} {tail tail' : List Str} {t t' : Str}
    (hp : ∀ p ∈ ps, SymbolLines p.1 p.2) (hm : ∀ p ∈ ps, p.1.head? ≠ some (str! "#End Library")) (hr : ps.Perm ps')
    (hl : LibraryTail tail) (hl' : LibraryTail tail')
    (ht : lines t = libraryHead ++ (linesOf ps ++ tail)) (ht' : lines t' = libraryHead ++ (linesOf ps' ++ tail')) :
    ∃ l l' : Lib.SymbolLib F, Lib.parseStr t = .ok l ∧ Lib.parseStr t' = .ok l' ∧ l.symbols.Perm l'.symbols ∧
      l'.symbols = ps'.map Prod.snd :=
  ⟨⟨ps.map Prod.snd⟩, ⟨ps'.map Prod.snd⟩,
    (C75_grammar ..).2 ⟨_, ht, symbols_pieces ps hp hm hl⟩,
    (C75_grammar ..).2 ⟨_, ht', symbols_pieces ps' (fun p h => hp p (hr.mem_iff.2 h)) (fun p h => hm p (hr.mem_iff.2 h)) hl'⟩,
    hr.map _, rfl⟩

/-- With the fields of a symbol, or its drawings, in another order, the symbol is the same up to
the order of its fields and drawings.  Its first line and what follows it do not matter. -/
theorem C103_symbol {heading def_ : Str} {fields fields' filters aliases draws draws' : List Str} {s : Lib.Symbol F}
    (more : List Str) (hdef : DefLine def_ s)
    (hf : List.Forall₂ (fun l f => (∃ r, l = 'F' :: r) ∧ FieldLine l f) fields s.fields)
    (hfl : FilterLines filters) (hal : AliasLines aliases s.aliases)
    (hd : List.Forall₂ (fun l d => l ≠ str! "ENDDRAW" ∧ DrawLine l d) draws s.draw)
    (hpf : fields.Perm fields') (hpd : draws.Perm draws') :
    ∃ fs ds, s.fields.Perm fs ∧ s.draw.Perm ds ∧
      Lib.parseSymbol (heading :: str! "#" :: def_ :: (fields ++ filters ++ aliases ++ str! "DRAW" :: draws ++
        [str! "ENDDRAW", str! "ENDDEF", str! "#"]) ++ more) = .ok (s, more) ∧
      Lib.parseSymbol (heading :: str! "#" :: def_ :: (fields' ++ filters ++ aliases ++ str! "DRAW" :: draws' ++
        [str! "ENDDRAW", str! "ENDDEF", str! "#"]) ++ more) = .ok ({ s with fields := fs, draw := ds }, more) := by
  obtain ⟨fs, h1, h2⟩ := pairs hf hpf
  obtain ⟨ds, h3, h4⟩ := pairs hd hpd
  exact ⟨fs, ds, h1, h3, (Lib.symbol_iff ..).2 ⟨_, rfl, _, _, _, _, _, _, rfl, hdef, hf, hfl, hal, hd⟩,
    (Lib.symbol_iff ..).2 ⟨_, rfl, _, _, _, _, _, _, rfl, hdef, h2, hfl, hal, h4⟩⟩

/-- The libraries of a table are read in the order in which they are written. -/
theorem C103_table {l l' : List Sexp} {t : Tbl.FpLibTable}
    (h : Tbl.FpLibTable.de (.list (.str (str! "fp_lib_table") :: l)) = .ok t) (hl : l.Perm l') :
    ∃ ls, t.libs.Perm ls ∧ Tbl.FpLibTable.de (.list (.str (str! "fp_lib_table") :: l')) = .ok ⟨ls⟩ := by
  rw [Tbl.table_iff] at h
  obtain ⟨_, e, h⟩ := h
  simp only [Sexp.list.injEq, List.cons.injEq, true_and] at e
  subst e
  obtain ⟨ls, h1, h2⟩ := Shuf.many_perm hl _ h
  exact ⟨ls, h2, (Tbl.table_iff ..).2 ⟨_, rfl, h1⟩⟩

/-- The sections of a board may be in any order, if none of the heading is there twice: only the
order of the elements changes. -/
theorem C103_board {l l' : List Sexp} {v : Lay.Layout F}
    (h : Lay.Layout.de (.list (.str (str! "kicad_pcb") :: l)) = .ok v) (hl : l.Perm l')
    (h1 : ∀ n ∈ headingNames, (namesOf l).count n ≤ 1) :
    ∃ es, v.elements.Perm es ∧
      Lay.Layout.de (.list (.str (str! "kicad_pcb") :: l')) = .ok { v with elements := es } := by
  rw [Lay.board_iff] at h
  obtain ⟨_, is, e, h0, g1, g2, g3, g4, g5, g6, g7⟩ := h
  simp only [Sexp.list.injEq, List.cons.injEq, true_and] at e
  subst e
  obtain ⟨is', m, hp⟩ := Shuf.many_perm hl _ h0
  have q := fun (β : Type) (f : BoardPart F → Option β) (n : Str) (hn : n ∈ headingNames) hf =>
    Shuf.short_perm (hp.filterMap f)
      (Nat.le_trans (parts_count h0 f n (by rintro rfl; revert hn; decide) hf) (h1 n hn))
  refine ⟨is'.filterMap BoardPart.element?, g7 ▸ hp.filterMap _, (Lay.board_iff ..).2
    ⟨_, is', rfl, m, ?_, ?_, ?_, ?_, ?_, ?_, rfl⟩⟩
  · rw [← q _ BoardPart.version? (str! "version") (by decide) (by rintro (_ | _) h <;> first | rfl | exact absurd rfl h)]; exact g1
  · rw [← q _ BoardPart.host? (str! "host") (by decide) (by rintro (_ | _) h <;> first | rfl | exact absurd rfl h)]; exact g2
  · rw [← q _ BoardPart.general? (str! "general") (by decide) (by rintro (_ | _) h <;> first | rfl | exact absurd rfl h)]; exact g3
  · rw [← q _ BoardPart.page? (str! "page") (by decide) (by rintro (_ | _) h <;> first | rfl | exact absurd rfl h)]; exact g4
  · rw [← q _ BoardPart.layers? (str! "layers") (by decide) (by rintro (_ | _) h <;> first | rfl | exact absurd rfl h)]; exact g5
  · rw [← q _ BoardPart.setup? (str! "setup") (by decide) (by rintro (_ | _) h <;> first | rfl | exact absurd rfl h)]; exact g6

/-! ## Examples -/

/-- A component with its lines in the usual order ... -/
def Spec.usual : Str :=
  str! "EESchema Schematic File Version 2\nLIBS:power\nEELAYER 25 0\nEELAYER END\n$Comp\nL R R1\nU 1 1 5A\nP 100 200\nF 0 \"R1\" H 1 2 50 0000 C CNN\nF 1 \"R\" H 3 4 50 0000 C CNN\n\t1 100 200\n\t1 0 0 -1\n$EndComp\n$Sheet\nS 1 2 3 4\nU 5B\nF0 \"a\" 60\nF1 \"a.sch\" 60\n$EndSheet\n$EndSCHEMATC\n"

/-- ... and in an unusual one, with the sheet in front and its lines the other way round. -/
def Spec.unusual : Str :=
  str! "EESchema Schematic File Version 2\nLIBS:power\nEELAYER 25 0\nEELAYER END\n$EndSCHEMATC\n$Sheet\nF1 \"a.sch\" 60\nF0 \"a\" 60\nU 5B\nS 1 2 3 4\n$EndSheet\n$Comp\n\t1 100 200\n\t1 0 0 -1\nF 0 \"R1\" H 1 2 50 0000 C CNN\nP 100 200\nF 1 \"R\" H 3 4 50 0000 C CNN\nU 1 1 5A\nL R R1\n$EndComp\n"

example : (Sch.parseStr usual : Res (Sch.Schematic Nm)) = Sch.parseStr unusual ∧
    ∃ s : Sch.Schematic Nm, Sch.parseStr usual = .ok s ∧ s.sheets.length = 1 ∧ s.elements.length = 1 :=
  ⟨by decide +kernel, by
    have h : ∀ r : Res (Sch.Schematic Nm), (match r with
        | .ok s => decide (s.sheets.length = 1 ∧ s.elements.length = 1) | _ => false) = true →
        ∃ s, r = .ok s ∧ s.sheets.length = 1 ∧ s.elements.length = 1 := by
      intro r h
      cases r with
      | ok s => exact ⟨s, rfl, by simpa using h⟩
      | _ => cases h
    exact h _ (by decide +kernel)⟩

/-- Pieces of a component that trade places: the position, a line of no meaning, the rotation. -/
example : (∀ p ∈ [([str! "P 100 200"], [CompEntry.position (F := Nm) 100 200]), ([str! "something"], []),
      ([str! "\t1 100 200", str! "\t1 0 0 -1"], [.rotation ⟨1, 0, 0, -1⟩])], CompLines p.1 p.2) ∧
    Traded CompApart [([str! "P 100 200"], [CompEntry.position (F := Nm) 100 200]), ([str! "something"], []),
        ([str! "\t1 100 200", str! "\t1 0 0 -1"], [.rotation ⟨1, 0, 0, -1⟩])]
      [([str! "something"], []), ([str! "\t1 100 200", str! "\t1 0 0 -1"], [.rotation ⟨1, 0, 0, -1⟩]),
        ([str! "P 100 200"], [.position 100 200])] := by
  refine ⟨?_, ?_⟩
  · intro p hp
    simp only [List.mem_cons, List.not_mem_nil, or_false] at hp
    rcases hp with rfl | rfl | rfl
    · refine .position ⟨[str! "100", str! "200"], (splitWs_iff _ _).1 (by decide)⟩
        ⟨str! "P", str! "100", str! "200", [], ?_, ?_, ?_⟩ .nil
      · exact (Sch.splitN_iff ..).1 (by decide +kernel)
      · exact (Sch.i64R_iff _ _).1 (by decide +kernel)
      · exact (Sch.i64R_iff _ _).1 (by decide +kernel)
    · refine .other ?_ (by decide) .nil
      rintro w hw ⟨ws, h⟩
      have := (splitWs_iff _ _).2 h
      revert hw
      rw [show splitWs (str! "something") = [str! "something"] by decide] at this
      cases this
      decide
    · refine .rotation (.inl ⟨[str! "100", str! "200"], (splitWs_iff _ _).1 (by decide)⟩)
        ⟨str! "1", str! "0", str! "0", str! "-1", (splitWs_iff _ _).1 (by decide), ?_, ?_, ?_, ?_⟩ .nil <;>
        exact (Sch.i64R_iff _ _).1 (by decide +kernel)
  · refine .trans (.swap [] _ _ _ ?_) (.swap [_] [] _ _ ?_)
    · intro e _ e' h; cases h
    · intro e he e' he'
      simp only [List.mem_cons, List.not_mem_nil, or_false] at he he'
      subst he he'
      decide

/-- What may not be exchanged: of two lines about the same the last one counts. -/
example : ∃ s s' : Sch.Schematic Nm,
    Sch.parseStr (str! "EESchema Schematic File Version 2\nEELAYER 25 0\nEELAYER END\n$Comp\nP 1 2\nP 3 4\n$EndComp\n") = .ok s ∧
    Sch.parseStr (str! "EESchema Schematic File Version 2\nEELAYER 25 0\nEELAYER END\n$Comp\nP 3 4\nP 1 2\n$EndComp\n") = .ok s' ∧
    s ≠ s' := by
  have h : ∀ r r' : Res (Sch.Schematic Nm), (match r, r' with | .ok s, .ok s' => decide (s ≠ s') | _, _ => false) = true →
      ∃ s s', r = .ok s ∧ r' = .ok s' ∧ s ≠ s' := by
    intro r r' h
    cases r <;> cases r' <;> first | exact ⟨_, _, rfl, rfl, by simpa using h⟩ | cases h
  exact h _ _ (by decide +kernel)

end Verif
