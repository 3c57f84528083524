import Verif.Lemmas.SexpCut
import Verif.Lemmas.LinesCut
import Verif.Props.C04
import Verif.Props.C48
import Verif.Props.C73
import Verif.Props.C55
/-!
# C85: what a half-written file reads as
-/

namespace Verif
open Flt Files Spec Res

variable {F : Type} [Flt F]

/-- The kinds of file whose text is one expression in parentheses. -/
def Spec.OneExpression : FileKind → Prop
  | .module_ | .layout | .fpLibTable => True
  | _ => False

theorem Files.cut_live (name name' p r : Str) (k k' : FileKind) (hk : OneExpression k) (hr : ¬ Blank r)
    (h : Accepts F name (p ++ r) k) : ∃ e, RejectsWith F name' p e k' := by
  by_cases hl : ∃ e, RejectsWith F name' p e k'
  · exact hl
  exfalso
  have hm := live_mark name' p k' hl
  have hk2 := live_mark name (p ++ r) k (accepts_live name (p ++ r) k h)
  obtain ⟨n, hn⟩ : ∃ n, mark k = .tree n := by cases k <;> first | exact ⟨_, rfl⟩ | exact hk.elim
  rw [hn] at hk2
  obtain ⟨l, hl2⟩ := hk2
  have hh : ∀ c, p.head? = some c → c = '(' ∨ isSexpSpace c = true := by
    intro c hc
    obtain ⟨w, s, hw, hs⟩ := starts_paren _ _ hl2
    refine not_blank_head w s hw c ?_
    rw [← hs]
    cases p with
    | nil => cases hc
    | cons a p => exact hc
  cases hmk : mark k' with
  | tree m =>
    rw [hmk] at hm
    obtain ⟨l', hl'⟩ := hm
    exact hr (Sexp.parse_cut p r _ _ hl' hl2).1
  | line x =>
    rw [hmk] at hm
    obtain ⟨a, rfl, ha⟩ := hm
    have := hh 'E' (head_of_lines p 'E' a ha)
    revert this; decide
  | update =>
    rw [hmk] at hm
    have := hh 'u' hm
    revert this; decide

/-- A footprint, layout or library table text that is cut anywhere: if only white space is
missing the rest is read as the same value, otherwise the rest is rejected, not only by its
own reader but by those of all six kinds of file. -/
theorem C85_expression (p r : Str) :
    (Blank r → (Fp.parse p : Res (Fp.Module F)) = Fp.parse (p ++ r) ∧ (Lay.parse p : Res (Lay.Layout F)) = Lay.parse (p ++ r) ∧
      Tbl.parse p = Tbl.parse (p ++ r)) ∧
    (¬ Blank r → ∀ k name, OneExpression k → Accepts F name (p ++ r) k → ∀ k', ∃ e, RejectsWith F name p e k') := by
  constructor
  · intro hr
    unfold Fp.parse Lay.parse Tbl.parse
    rw [Sexp.parse_blank p r hr]
    exact ⟨rfl, rfl, rfl⟩
  · intro hr k name hk h k'
    exact Files.cut_live name name p r k k' hk hr h

example : Accepts Nm [] (str! "(fp_lib_table" ++ str! " )") .fpLibTable ∧ ¬ Blank (str! " )") :=
  ⟨⟨⟨[]⟩, by rfl⟩, fun h => absurd (h ')' (by decide)) (by decide)⟩

theorem Files.cut_read (d : Disk) (name p r : Str) (k : FileKind) (hk : OneExpression k) (hr : ¬ Blank r)
    (h : Accepts F name (p ++ r) k) (hd : d.read name = some p) :
    (readKicadFile d name .any : Res (KicadFile F)) = .ok (.unknown name) ∧
    (∃ e, (readModule d name : Res (Fp.Module F)) = .err e) ∧ ∃ e, (readLayout d name : Res (Lay.Layout F)) = .err e := by
  have rej := fun k' => Files.cut_live (F := F) name name p r k k' hk hr h
  refine ⟨(C47_recognised d name .any _).2 ⟨p, hd, ⟨rfl, rej⟩, fun w hw => by cases hw⟩, ?_, ?_⟩
  · obtain ⟨e, he⟩ := rej .module_
    exact ⟨e, (C48_typed_errors d name e).1.2 (Or.inr ⟨p, hd, Or.inl ⟨he, fun k' _ => rej k'⟩⟩)⟩
  · obtain ⟨e, he⟩ := rej .layout
    exact ⟨e, (C48_typed_errors d name e).2.2.1.2 (Or.inr ⟨p, hd, Or.inl ⟨he, fun k' _ => rej k'⟩⟩)⟩

theorem Files.unreadable (d : Disk) (name : Str) (hd : d.read name = none) :
    (readKicadFile d name .any : Res (KicadFile F)) = .err .io ∧
    (readModule d name : Res (Fp.Module F)) = .err .io ∧ (readLayout d name : Res (Lay.Layout F)) = .err .io :=
  ⟨(C48_error d name .any .io).2 (Or.inl ⟨hd, rfl⟩), (C48_typed_errors d name .io).1.2 (Or.inl ⟨hd, rfl⟩),
    (C48_typed_errors d name .io).2.2.1.2 (Or.inl ⟨hd, rfl⟩)⟩

theorem Lib.symbols_none {ss : List (Lib.Symbol F)} (h : SymbolList [] ss) : ss = [] := by
  generalize hq : ([] : List Str) = q at h
  cases h with
  | eof => rfl
  | mark => rfl
  | symbol hs' =>
    obtain ⟨_, _, _, _, _, _, rfl, _⟩ := hs'
    simp at hq

theorem Lib.symbols_cut {p : List Str} {ss : List (Lib.Symbol F)} (h : SymbolList p ss) :
    ∀ (a : List Str) (x y : Str) (more : List Str) (ts : List (Lib.Symbol F)), p = a ++ [x] →
      SymbolList (a ++ y :: more) ts → ss <+: ts := by
  induction h with
  | eof => intros; exact List.nil_prefix
  | mark => intros; exact List.nil_prefix
  | @symbol c b s ss hs hh hr ih =>
    intro a x y more ts hp ht
    obtain ⟨c', rfl⟩ : ∃ c', c = c' ++ [str! "#"] := by
      obtain ⟨heading, l, ls, fil, as, dl, rfl, _⟩ := hs
      exact ⟨heading :: str! "#" :: l :: (ls ++ fil ++ as ++ str! "DRAW" :: dl ++ [str! "ENDDRAW", str! "ENDDEF"]), by simp⟩
    have hne : ∃ u v, c' = u :: v := by
      obtain ⟨heading, l, ls, fil, as, dl, h, _⟩ := hs
      cases c' with
      | nil => simp at h
      | cons u v => exact ⟨u, v, rfl⟩
    obtain ⟨u, v, rfl⟩ := hne
    have hu : u ≠ str! "#End Library" := by
      intro h; rw [h] at hh; simp at hh
    rcases List.eq_nil_or_concat b with rfl | ⟨b', z, hb⟩
    · have : a = u :: v := by
        rw [List.append_nil] at hp
        exact (List.append_inj' hp rfl).1.symm
      subst this
      have h1 := Lib.symbol_run (u :: v) (y :: more) s hs
      generalize hp : u :: v ++ y :: more = p at ht h1
      cases ht with
      | eof => simp at hp
      | mark => simp only [List.cons_append, List.cons.injEq] at hp; exact absurd hp.1 hu
      | @symbol a' b' s' ts hs' hh' hr' =>
        have h2 := (Lib.symbol_iff (a' ++ b') b' s').2 ⟨a', rfl, hs'⟩
        rw [h2] at h1
        obtain ⟨q, -, hq⟩ := Res.bind_eq_ok.1 h1.symm
        rw [Lib.symbols_none hr]
        simp only [Res.ok.injEq, Prod.mk.injEq] at hq
        rw [hq.1]
        exact ⟨ts, rfl⟩
    · rw [List.concat_eq_append] at hb
      subst hb
      have ha : a = (u :: v ++ [str! "#"]) ++ b' := by
        rw [← List.append_assoc] at hp
        exact (List.append_inj' hp rfl).1.symm
      subst ha
      have h1 := (Lib.symbol_iff (u :: v ++ [str! "#"] ++ (b' ++ y :: more)) (b' ++ y :: more) s).2 ⟨_, rfl, hs⟩
      rw [List.append_assoc] at ht
      generalize hp' : u :: v ++ [str! "#"] ++ (b' ++ y :: more) = p at ht h1
      cases ht with
      | eof => simp at hp'
      | mark => simp only [List.cons_append, List.cons.injEq] at hp'; exact absurd hp'.1 hu
      | @symbol a' b2 s' ts hs' hh' hr' =>
        have h2 := (Lib.symbol_iff (a' ++ b2) b2 s').2 ⟨a', rfl, hs'⟩
        rw [h1] at h2
        simp only [Res.ok.injEq, Prod.mk.injEq] at h2
        obtain ⟨rfl, rfl⟩ := h2
        exact (List.prefix_cons_inj _).2 (ih b' z y more ts rfl hr')

/-- A symbol library text that is cut anywhere, even inside a line: if what is left is read at
all, it has the first symbols of the whole library, none of them changed. -/
theorem C85_library (p r : Str) (l m : Lib.SymbolLib F) (h : Lib.parseStr (p ++ r) = .ok l) (hm : Lib.parseStr p = .ok m) :
    m.symbols <+: l.symbols := by
  have h' := (C75_grammar (p ++ r) l).1 h
  rcases lines_cut p r with e | ⟨a, x, y, more, hx, -, hy, -⟩
  · rw [e] at h'
    exact C16_truncation_reads p _ l m h' hm
  · obtain ⟨body, h1, hs⟩ := h'
    obtain ⟨b, h2, hb⟩ := (C75_grammar p m).1 hm
    rw [hx] at h2
    rw [hy] at h1
    match a with
    | [] => simp at h2
    | [_] => simp at h2
    | [_, _] =>
      simp only [List.cons_append, List.nil_append, List.cons.injEq] at h2
      rw [← h2.2.2.2] at hb
      rw [Lib.symbols_none hb]
      exact List.nil_prefix
    | _ :: _ :: _ :: a =>
      simp only [List.cons_append, List.cons.injEq] at h2 h1
      rw [← h1.2.2.2] at hs
      exact Lib.symbols_cut hb a x y more _ h2.2.2.2.symm hs

theorem Sch.content_none {ps : List (Part F)} (h : ContentLines [] ps) : ps = [] := by
  generalize hq : ([] : List Str) = q at h
  cases h with
  | nil => rfl
  | cons hp _ =>
    obtain ⟨s, r, _, _, rfl, _⟩ := Sch.part_read hp []
    simp at hq

theorem Sch.content_cut {ls : List Str} {ps : List (Part F)} (h : ContentLines ls ps) :
    ∀ (a : List Str) (x y : Str) (more : List Str) (qs : List (Part F)), ls = a ++ [x] →
      ContentLines (a ++ y :: more) qs → ps.dropLast <+: qs := by
  induction h with
  | nil => intros; exact List.nil_prefix
  | @cons c b p ps hp hr ih =>
    intro a x y more qs hl ht
    rcases List.eq_nil_or_concat b with rfl | ⟨b', z, hb⟩
    · rw [Sch.content_none hr]
      exact List.nil_prefix
    · rw [List.concat_eq_append] at hb
      subst hb
      have ha : a = c ++ b' := by
        rw [← List.append_assoc] at hl
        exact (List.append_inj' hl rfl).1.symm
      subst ha
      have hne : ps ≠ [] := by
        rintro rfl
        generalize hq : b' ++ [z] = q at hr
        cases hr
        simp at hq
      obtain ⟨s, r, i, p', hc, h1, h2, h3⟩ := Sch.part_read hp (b' ++ y :: more)
      rw [List.append_assoc] at ht
      generalize hw : c ++ (b' ++ y :: more) = w at ht h1
      cases ht with
      | nil => rw [hc] at hw; simp at hw
      | @cons c2 b2 p2 qs hp2 hr2 =>
        obtain ⟨_, _, i2, p2', _, h4, h5, h6⟩ := Sch.part_read hp2 b2
        rw [h1] at h4
        simp only [Res.ok.injEq, Prod.mk.injEq] at h4
        obtain ⟨rfl, rfl⟩ := h4
        rw [h2] at h5
        subst h5
        rw [List.dropLast_cons_of_ne_nil hne, ← h3, ← h6]
        exact (List.prefix_cons_inj _).2 (ih b' z y more qs rfl hr2)

theorem Sch.libs_same (ns ns' : List Str) (l l' : Str) (r r' : List Str)
    (h : (ns.map fun n => str! "LIBS:" ++ n) ++ (str! "EELAYER " ++ l) :: r =
      (ns'.map fun n => str! "LIBS:" ++ n) ++ (str! "EELAYER " ++ l') :: r') : ns = ns' ∧ l = l' ∧ r = r' := by
  induction ns generalizing ns' with
  | nil =>
    cases ns' with
    | nil => simpa using h
    | cons n ns' => simp at h
  | cons n ns ih =>
    cases ns' with
    | nil => simp at h
    | cons n' ns' =>
      simp only [List.map_cons, List.cons_append, List.cons.injEq, List.append_cancel_left_eq] at h
      obtain ⟨h1, h2, h3⟩ := ih ns' h.2
      refine ⟨by rw [h1]; simpa using h.1, h2, h3⟩

/-- A schematic text that is cut anywhere, even inside a line: if what is left is read at all,
the libraries and the layers are the same, and the elements and sheets are the first ones of
the whole file except perhaps for the last one. -/
theorem C85_schematic (p r : Str) (s m : Sch.Schematic F) (h : Sch.parseStr (p ++ r) = .ok s) (hm : Sch.parseStr p = .ok m) :
    m.libraries = s.libraries ∧ m.eelayer = s.eelayer ∧
    (m.elements <+: s.elements ∧ m.sheets.dropLast <+: s.sheets ∨
     m.elements.dropLast <+: s.elements ∧ m.sheets <+: s.sheets) := by
  have h' := (C76_grammar (p ++ r) s).1 h
  rcases lines_cut p r with e | ⟨a, x, y, more, hx, -, hy, -⟩
  · rw [e] at h'
    obtain ⟨h1, h2, h3, h4⟩ := C04_truncation_reads p _ s m h' hm
    exact ⟨h1, h2, Or.inr ⟨(List.dropLast_prefix _).trans h3, h4⟩⟩
  · obtain ⟨layer, body, qs, hl, e1, -, hc, -, e2, e3⟩ := h'
    obtain ⟨layer', body', ps, hl', e1', -, hc', -, e2', e3'⟩ := (C76_grammar p m).1 hm
    rw [hx] at hl'
    rw [hy] at hl
    rcases List.eq_nil_or_concat body' with rfl | ⟨b, z, hb⟩
    · have ha : a = str! "EESchema Schematic File Version 2" :: (m.libraries.map fun n => str! "LIBS:" ++ n) ++
          [str! "EELAYER " ++ layer'] := by
        refine (List.append_inj' (s₁ := a) (t₁ := [x]) (t₂ := [str! "EELAYER END"]) ?_ rfl).1
        rw [hl']
        simp
      rw [ha] at hl
      simp only [List.cons_append, List.append_assoc, List.nil_append, List.cons.injEq, true_and] at hl
      obtain ⟨h1, h2, -⟩ := Sch.libs_same _ _ _ _ _ _ hl
      rw [Sch.content_none hc'] at e2' e3'
      refine ⟨h1, by rw [e1, e1', h2], Or.inl ⟨?_, ?_⟩⟩
      · rw [e2']; exact List.nil_prefix
      · rw [e3']; exact List.nil_prefix
    · rw [List.concat_eq_append] at hb
      subst hb
      have ha : a = str! "EESchema Schematic File Version 2" :: (m.libraries.map fun n => str! "LIBS:" ++ n) ++
          (str! "EELAYER " ++ layer') :: str! "EELAYER END" :: b := by
        refine (List.append_inj' (s₁ := a) (t₁ := [x]) (t₂ := [z]) ?_ rfl).1
        rw [hl']
        simp
      rw [ha] at hl
      simp only [List.cons_append, List.append_assoc, List.cons.injEq, true_and] at hl
      obtain ⟨h1, h2, h3⟩ := Sch.libs_same _ _ _ _ _ _ hl
      simp only [List.cons.injEq, true_and] at h3
      rw [← h3] at hc
      have hcut := Sch.content_cut hc' b z y more qs rfl hc
      refine ⟨h1, by rw [e1, e1', h2], ?_⟩
      rcases List.eq_nil_or_concat ps with rfl | ⟨ps', pt, hps⟩
      · refine Or.inl ⟨?_, ?_⟩
        · rw [e2']; exact List.nil_prefix
        · rw [e3']; exact List.nil_prefix
      · rw [List.concat_eq_append] at hps
        subst hps
        rw [List.dropLast_concat] at hcut
        rw [e2, e3, e2', e3']
        have hE := hcut.filterMap Part.element?
        have hS := hcut.filterMap Part.sheet?
        cases pt with
        | element e =>
          refine Or.inr ⟨?_, ?_⟩
          · simpa [List.filterMap_append, List.filterMap_cons, Part.element?] using hE
          · simpa [List.filterMap_append, List.filterMap_cons, Part.sheet?] using hS
        | sheet e =>
          refine Or.inl ⟨?_, ?_⟩
          · simpa [List.filterMap_append, List.filterMap_cons, Part.element?] using hE
          · simpa [List.filterMap_append, List.filterMap_cons, Part.sheet?] using hS
        | descr e =>
          refine Or.inr ⟨(List.dropLast_prefix _).trans ?_, ?_⟩
          · simpa [List.filterMap_append, List.filterMap_cons, Part.element?] using hE
          · simpa [List.filterMap_append, List.filterMap_cons, Part.sheet?] using hS
        | nothing =>
          refine Or.inr ⟨(List.dropLast_prefix _).trans ?_, ?_⟩
          · simpa [List.filterMap_append, List.filterMap_cons, Part.element?] using hE
          · simpa [List.filterMap_append, List.filterMap_cons, Part.sheet?] using hS

/-- A library with two symbols, cut in the last line of the first. -/
example : ∃ (p r : Str) (l m : Lib.SymbolLib Nm), Lib.parseStr (p ++ r) = .ok l ∧ Lib.parseStr p = .ok m ∧
    ¬ WholeLines p ∧ m.symbols.length = 1 ∧ l.symbols.length = 2 := by
  obtain ⟨a, ha⟩ : ∃ a, a = str! "EESchema-LIBRARY Version 2.3\n#encoding utf-8\n#\n\
    # A\n#\nDEF A U 0 0 N Y 1 F N\nDRAW\nENDDRAW\nENDDEF\n#" := ⟨_, rfl⟩
  obtain ⟨b, hb⟩ : ∃ b, b = str! "\n# R\n#\nDEF R R 0 0 N Y 1 F N\nDRAW\nENDDRAW\nENDDEF\n#\n#End Library\n" := ⟨_, rfl⟩
  obtain ⟨u, hu⟩ : ∃ u : Lib.Symbol Nm, u = { Lib.Symbol.new (str! "A") (str! "U") with drawPinname := true } := ⟨_, rfl⟩
  obtain ⟨v, hv⟩ : ∃ v : Lib.Symbol Nm, v = { Lib.Symbol.new (str! "R") (str! "R") with drawPinname := true } := ⟨_, rfl⟩
  refine ⟨a, b, ⟨[u, v]⟩, ⟨[u]⟩, ?_, ?_, ?_, rfl, rfl⟩
  · rw [ha, hb, hu, hv]; decide +kernel
  · rw [ha, hu]; decide +kernel
  · rintro (h | ⟨w, h⟩)
    · rw [ha] at h; simp at h
    · have := congrArg List.getLast? h
      rw [ha, List.getLast?_append] at this
      revert this
      simp

/-- Cutting can lose symbols silently: every library file that is read can be cut so that the
rest is read as only the first `i` symbols, for every `i`. -/
theorem C85_library_loses (t : Str) (l : Lib.SymbolLib F) (h : Lib.parseStr t = .ok l) (i : Nat) :
    ∃ p r, t = p ++ r ∧ Lib.parseStr p = .ok (⟨l.symbols.take i⟩ : Lib.SymbolLib F) := by
  obtain ⟨body, h1, hs⟩ := (C75_grammar t l).1 h
  have key : ∀ {ls : List Str} {ss : List (Lib.Symbol F)}, SymbolList ls ss → ∀ i, ∃ a b, ls = a ++ b ∧ SymbolList a (ss.take i) := by
    intro ls ss hs
    induction hs with
    | eof => intro i; exact ⟨[], [], rfl, by simpa using .eof⟩
    | @mark rest => intro i; exact ⟨_, [], (List.append_nil _).symm, by simpa using .mark⟩
    | @symbol a b s ss hs hh hr ih =>
      intro i
      cases i with
      | zero => exact ⟨[], _, rfl, .eof⟩
      | succ i =>
        obtain ⟨c, d, rfl, h⟩ := ih i
        exact ⟨a ++ c, d, by simp, .symbol hs hh h⟩
  obtain ⟨a, b, rfl, ha⟩ := key hs i
  obtain ⟨p, r, hp, hl⟩ := lines_take t (str! "EESchema-LIBRARY Version 2.3" :: str! "#encoding utf-8" :: str! "#" :: a) b
    (by rw [h1]; rfl)
  exact ⟨p, r, hp, (C75_grammar p _).2 ⟨a, hl, ha⟩⟩

/-- The same for schematics. -/
theorem C85_schematic_loses (t : Str) (s : Sch.Schematic F) (h : Sch.parseStr t = .ok s) (i : Nat) :
    ∃ p r m, t = p ++ r ∧ Sch.parseStr p = .ok m ∧ m.elements = s.elements.take i ∧ m.sheets <+: s.sheets := by
  obtain ⟨layer, body, ps, h1, -, -, hc, -, he, hsh⟩ := (C76_grammar t s).1 h
  have key : ∀ {ls : List Str} {ps : List (Part F)}, ContentLines ls ps → ∀ i, ∃ a b qs, ls = a ++ b ∧ ContentLines a qs ∧
      qs <+: ps ∧ qs.filterMap Part.element? = (ps.filterMap Part.element?).take i := by
    intro ls ps hs
    induction hs with
    | nil => intro i; exact ⟨[], [], [], rfl, .nil, List.prefix_refl _, by simp⟩
    | @cons a b p ps hp hr ih =>
      intro i
      cases hpe : Part.element? p with
      | none =>
        obtain ⟨c, d, qs, rfl, h1, h2, h3⟩ := ih i
        exact ⟨a ++ c, d, p :: qs, by simp, .cons hp h1, (List.prefix_cons_inj _).2 h2, by simp [List.filterMap_cons, hpe, h3]⟩
      | some e =>
        cases i with
        | zero => exact ⟨[], _, [], rfl, .nil, List.nil_prefix, by simp⟩
        | succ i =>
          obtain ⟨c, d, qs, rfl, h1, h2, h3⟩ := ih i
          exact ⟨a ++ c, d, p :: qs, by simp, .cons hp h1, (List.prefix_cons_inj _).2 h2, by simp [List.filterMap_cons, hpe, h3]⟩
  obtain ⟨a, b, qs, rfl, hq, hpre, hel⟩ := key hc i
  obtain ⟨p, r, hp, hl⟩ := lines_take t (str! "EESchema Schematic File Version 2" :: (s.libraries.map fun n => str! "LIBS:" ++ n) ++
      (str! "EELAYER " ++ layer) :: str! "EELAYER END" :: a) b (by rw [h1]; simp)
  refine ⟨p, r, ⟨none, s.libraries, (qs.filterMap Part.descr?).getLastD .dflt, qs.filterMap Part.element?,
    qs.filterMap Part.sheet?, str! "EELAYER " ++ layer⟩, hp, (C76_grammar p _).2 ⟨layer, a, qs, hl, rfl, rfl, hq, rfl, rfl, rfl⟩,
    ?_, ?_⟩
  · rw [he]; exact hel
  · rw [hsh]; exact hpre.filterMap _

/-- A schematic that is cut in a number: the last element is read wrong. -/
example : ∃ (p r : Str) (s m : Sch.Schematic Nm), Sch.parseStr (p ++ r) = .ok s ∧ Sch.parseStr p = .ok m ∧
    s.elements = [.connection ⟨1, 2⟩, .noConnect ⟨3, 45⟩] ∧ m.elements = [.connection ⟨1, 2⟩, .noConnect ⟨3, 4⟩] :=
  ⟨str! "EESchema Schematic File Version 2\nEELAYER 25 0\nEELAYER END\nConnection ~ 1 2\nNoConn ~ 3 4", str! "5\n",
    ⟨none, [], .dflt, [.connection ⟨1, 2⟩, .noConnect ⟨3, 45⟩], [], str! "EELAYER 25 0"⟩,
    ⟨none, [], .dflt, [.connection ⟨1, 2⟩, .noConnect ⟨3, 4⟩], [], str! "EELAYER 25 0"⟩,
    by decide +kernel, by decide +kernel, rfl, rfl⟩

/-- Cutting can change an element silently: a mark that nothing is connected, written at the end
of any schematic that is read, loses the last digit of its position if the file is cut before it,
and is read at the wrong place. -/
theorem C85_schematic_misread [TextLaws F] (t : Str) (s : Sch.Schematic F) (ht : WholeLines t) (h : Sch.parseStr t = .ok s)
    (x : Int) (y d : Nat) (hx : inI64 x) (hy : inI64 (10 * y + d : Nat)) (h0 : 0 < y) (hd : d < 10) :
    ∃ p r, t ++ (Sch.Element.noConnect ⟨x, (10 * y + d : Nat)⟩ : Sch.Element F).show = p ++ r ∧
      Sch.parseStr (p ++ r) = .ok { s with elements := s.elements ++ [.noConnect ⟨x, (10 * y + d : Nat)⟩] } ∧
      Sch.parseStr p = .ok { s with elements := s.elements ++ [.noConnect ⟨x, y⟩] } := by
  have h1 := C73_append_element t s ht h (.noConnect ⟨x, (10 * y + d : Nat)⟩) ⟨hx, hy⟩
  have hy' : inI64 (y : Int) := by unfold inI64 at hy ⊢; omega
  have h2 := C73_append_element t s ht h (.noConnect ⟨x, y⟩) ⟨hx, hy'⟩
  obtain ⟨l, hl⟩ : ∃ l, l = str! "NoConn ~ " ++ showInt x ++ str! " " ++ showNat y := ⟨_, rfl⟩
  have e1 : (Sch.Element.noConnect ⟨x, (10 * y + d : Nat)⟩ : Sch.Element F).show = l ++ [digitChar d, '\n'] := by
    show str! "NoConn ~ " ++ showInt x ++ str! " " ++ showNat (10 * y + d) ++ str! "\n" = _
    rw [showNat_digit y d h0 hd, hl]
    simp
  have e2 : (Sch.Element.noConnect ⟨x, y⟩ : Sch.Element F).show = l ++ ['\n'] := by
    show str! "NoConn ~ " ++ showInt x ++ str! " " ++ showNat y ++ str! "\n" = _
    rw [hl]
  refine ⟨t ++ l, [digitChar d, '\n'], by rw [e1, List.append_assoc], by rw [List.append_assoc, ← e1, h1], ?_⟩
  have hone : OneLine l := by
    have hf := (Sch.fitsElement_iff _).1 (show FitsElement (.noConnect ⟨x, y⟩ : Sch.Element F) from ⟨hx, hy'⟩)
    have := (Sch.Element.noConnect ⟨x, y⟩ : Sch.Element F).lns_oneLine hf.1 hf.2.2 l
    refine this ?_
    rw [hl]
    simp [Sch.Element.lns, Sch.noConnLine, showInt]
  rw [← h2, e2, Sch.parseStr, Sch.parseStr, Sch.parse, Sch.parse, lines_open t l (by rw [hl]; simp) hone, List.append_assoc]

example : ∃ s : Sch.Schematic Nm, Sch.parseStr (str! "EESchema Schematic File Version 2\nEELAYER 25 0\nEELAYER END\n") = .ok s ∧
    WholeLines (str! "EESchema Schematic File Version 2\nEELAYER 25 0\nEELAYER END\n") ∧ inI64 (10 * 20 + 5 : Nat) :=
  ⟨⟨none, [], .dflt, [], [], str! "EELAYER 25 0"⟩, by decide +kernel,
    Or.inr ⟨str! "EESchema Schematic File Version 2\nEELAYER 25 0\nEELAYER END", rfl⟩, by decide⟩

variable [TextLaws F] [ZeroLaws F]

/-- A footprint whose writing broke off is never read as a different footprint: reading the
file afterwards gives the footprint (if only white space is missing) or an error. -/
theorem C85_module_write (q : Str → Bool) (hq : QuotesWhenNeeded q) (n : Nat) (inside : Bool) (d : Disk) (name : Str)
    (m : Fp.Module F) (hm : GoodModule m) :
    let d' := (writeModule q (.cut n inside) d m name).2
    (inside = false ∧ Blank ((Fp.toText q 0 m).drop n) → readModule d' name = .ok m) ∧
    (¬ (inside = false ∧ Blank ((Fp.toText q 0 m).drop n)) → ∃ e, (readModule d' name : Res (Fp.Module F)) = .err e) := by
  intro d'
  have hrt : Fp.parse (Fp.toText q 0 m) = .ok m := by
    have := C19_footprint_roundtrip q hq 0 m hm [] Sexp.Text.blank_nil
    rwa [List.append_nil] at this
  have hsplit := List.take_append_drop n (Fp.toText q 0 m)
  cases inside with
  | true =>
    refine ⟨fun h => absurd h.1 (by simp), fun _ => ?_⟩
    exact ⟨.io, (Files.unreadable (F := F) d' name (by simp [d', writeModule, writeFile, Disk.set])).2.1⟩
  | false =>
    have hd : d'.read name = some ((Fp.toText q 0 m).take n) := by simp [d', writeModule, writeFile, Disk.set]
    constructor
    · intro hb
      refine ((C47_typed_readers d' name).1 m).2 ⟨_, hd, ?_⟩
      rw [(C85_expression (F := F) _ ((Fp.toText q 0 m).drop n)).1 hb.2 |>.1, hsplit, hrt]
    · intro hb
      refine (Files.cut_read (F := F) d' name _ ((Fp.toText q 0 m).drop n) .module_ trivial (fun h => hb ⟨rfl, h⟩) ?_ hd).2.1
      rw [hsplit]
      exact ⟨m, hrt⟩

/-- The same for layouts. -/
theorem C85_layout_write (q : Str → Bool) (hq : QuotesWhenNeeded q) (n : Nat) (inside : Bool) (d : Disk) (name : Str)
    (l : Lay.Layout F) (hl : SavableLayout l) (hc : CleanLayout l) :
    let d' := (writeLayout q (.cut n inside) d l name).2
    (inside = false ∧ Blank ((Lay.toText q 0 l).drop n) → readLayout d' name = .ok l) ∧
    (¬ (inside = false ∧ Blank ((Lay.toText q 0 l).drop n)) → ∃ e, (readLayout d' name : Res (Lay.Layout F)) = .err e) := by
  intro d'
  have hrt : Lay.parse (Lay.toText q 0 l) = .ok l := by
    have := C35_layout_roundtrip q hq 0 l hl hc [] Sexp.Text.blank_nil
    rwa [List.append_nil] at this
  have hsplit := List.take_append_drop n (Lay.toText q 0 l)
  cases inside with
  | true =>
    refine ⟨fun h => absurd h.1 (by simp), fun _ => ?_⟩
    exact ⟨.io, (Files.unreadable (F := F) d' name (by simp [d', writeLayout, writeFile, Disk.set])).2.2⟩
  | false =>
    have hd : d'.read name = some ((Lay.toText q 0 l).take n) := by simp [d', writeLayout, writeFile, Disk.set]
    constructor
    · intro hb
      refine ((C47_typed_readers d' name).2.2.1 l).2 ⟨_, hd, ?_⟩
      rw [(C85_expression (F := F) _ ((Lay.toText q 0 l).drop n)).1 hb.2 |>.2.1, hsplit, hrt]
    · intro hb
      refine (Files.cut_read (F := F) d' name _ ((Lay.toText q 0 l).drop n) .layout trivial (fun h => hb ⟨rfl, h⟩) ?_ hd).2.2
      rw [hsplit]
      exact ⟨l, hrt⟩

/-- The sample footprint, cut after ten characters. -/
example : GoodModule Spec.sampleModule ∧ ¬ Blank ((Fp.toText Fm.stdQuote 0 Spec.sampleModule).drop 10) := by
  refine ⟨Spec.sampleModule_good, fun h => ?_⟩
  have hm : ')' ∈ (Fp.toText Fm.stdQuote 0 Spec.sampleModule).drop 10 := by decide +kernel
  exact absurd (h _ hm) (by decide)

end Verif
