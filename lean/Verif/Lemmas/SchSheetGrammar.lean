import Verif.Lemmas.SchGrammar
import Verif.Lemmas.SchLocal
import Verif.Props.C73
/-!
# Lemmas: the sheets of a schematic
-/

set_option linter.unusedSimpArgs false

namespace Verif
open Spec
namespace Sch

def sheetStep (c : Sheet) : SheetEntry → Sheet
  | .box x y dx dy => { c with x := x, y := y, dimx := dx, dimy := dy }
  | .unique u => { c with unique := u }
  | .name n z => { c with name := n, nameSize := z }
  | .file n z => { c with filename := n, filenameSize := z }
  | .label l => { c with labels := c.labels ++ [l] }

theorem sheet_fold (es : List SheetEntry) (c : Sheet) : es.foldl sheetStep c =
    { x := ((es.filterMap SheetEntry.box?).getLastD (c.x, c.y, c.dimx, c.dimy)).1
      y := ((es.filterMap SheetEntry.box?).getLastD (c.x, c.y, c.dimx, c.dimy)).2.1
      dimx := ((es.filterMap SheetEntry.box?).getLastD (c.x, c.y, c.dimx, c.dimy)).2.2.1
      dimy := ((es.filterMap SheetEntry.box?).getLastD (c.x, c.y, c.dimx, c.dimy)).2.2.2
      unique := (es.filterMap SheetEntry.unique?).getLastD c.unique
      name := ((es.filterMap SheetEntry.name?).getLastD (c.name, c.nameSize)).1
      nameSize := ((es.filterMap SheetEntry.name?).getLastD (c.name, c.nameSize)).2
      filename := ((es.filterMap SheetEntry.file?).getLastD (c.filename, c.filenameSize)).1
      filenameSize := ((es.filterMap SheetEntry.file?).getLastD (c.filename, c.filenameSize)).2
      labels := c.labels ++ (es.filterMap SheetEntry.label?) } := by
  induction es generalizing c with
  | nil => simp
  | cons e es ih =>
    rw [List.foldl_cons, ih]
    cases e <;> simp only [sheetStep, getLastD_cons', List.append_assoc, List.cons_append, List.nil_append,
      List.filterMap_cons, SheetEntry.box?, SheetEntry.unique?, SheetEntry.name?, SheetEntry.file?, SheetEntry.label?]

theorem describesSheet_iff (es : List SheetEntry) (c : Sheet) : es.foldl sheetStep .dflt = c ↔ DescribesSheet es c := by
  rw [sheet_fold]
  constructor
  · rintro rfl
    exact ⟨rfl, rfl, rfl, rfl, by simp [Sheet.dflt]⟩
  · rintro ⟨h1, h2, h3, h4, h5⟩
    obtain ⟨⟩ := c
    simp only at *
    simp only [Sheet.dflt, ← h1, ← h2, ← h3, ← h4, ← h5]
    simp

theorem sheetS_iff (s : Str) (d e : Sheet) : parseSheetS s d = .ok e ↔
    ∃ x y dx dy, (∃ a b c d e rest, FirstWords 5 s (a :: b :: c :: d :: e :: rest) ∧
        IntWord b x ∧ IntWord c y ∧ IntWord d dx ∧ IntWord e dy) ∧ e = sheetStep d (.box x y dx dy) := by
  unfold parseSheetS
  simp only [Res.bind_eq_ok, splitN_iff, i64R_iff]
  constructor
  · rintro ⟨ws, hw, a, ha, x, hx, b, hb, y, hy, c, hc, dx, hdx, d, hd, dy, hdy, h⟩
    match ws, hw with
    | z :: a :: b :: c :: d :: rest, hw =>
      cases ha; cases hb; cases hc; cases hd; cases h
      exact ⟨x, y, dx, dy, ⟨_, _, _, _, _, _, hw, hx, hy, hdx, hdy⟩, rfl⟩
    | [_, _, _, _], hw => exact absurd hw.2 (by simp)
    | [_, _, _], hw => exact absurd hw.2 (by simp)
    | [_, _], hw => exact absurd hw.2 (by simp)
    | [_], hw => exact absurd hw.2 (by simp)
    | [], hw => exact absurd hw.2 (by simp)
  · rintro ⟨x, y, dx, dy, ⟨_, a, b, c, d, rest, hw, hx, hy, hdx, hdy⟩, rfl⟩
    exact ⟨_, hw, a, rfl, x, hx, b, rfl, y, hy, c, rfl, dx, hdx, d, rfl, dy, hdy, rfl⟩

theorem sheetU_iff (s : Str) (d e : Sheet) : parseSheetU s d = .ok e ↔
    ∃ u, (∃ a rest, FirstWords 2 s (a :: u :: rest)) ∧ e = sheetStep d (.unique u) := by
  unfold parseSheetU
  simp only [Res.bind_eq_ok, splitN_iff]
  constructor
  · rintro ⟨ws, hw, a, ha, h⟩
    match ws, hw with
    | z :: a :: rest, hw =>
      cases ha; cases h
      exact ⟨a, ⟨_, _, hw⟩, rfl⟩
    | [_], hw => exact absurd hw.2 (by simp)
    | [], hw => exact absurd hw.2 (by simp)
  · rintro ⟨u, ⟨a, rest, hw⟩, rfl⟩
    exact ⟨_, hw, u, rfl, rfl⟩

theorem labelForm_iff (w : Str) (t : LabelForm) : parseLabelForm w = .ok t ↔ (w, t) ∈ labelForms :=
  Lib.tableRead_iff labelForms (by decide) w t
theorem labelSide_iff (w : Str) (t : LabelSide) : parseLabelSide w = .ok t ↔ (w, t) ∈ labelSides :=
  Lib.tableRead_iff labelSides (by decide) w t

theorem label_iff (l : Str) (s : SheetLabel) : parseSheetLabel l = .ok s ↔ LabelLine l s := by
  unfold parseSheetLabel
  simp only [Res.bind_eq_ok, splitN_iff, i64R_iff, labelForm_iff, labelSide_iff]
  constructor
  · rintro ⟨ws, hw, n, hn, a, ha, f, hf, b, hb, sd, hs, c, hc, x, hx, d, hd, y, hy, e, he, z, hz, h⟩
    match ws, hw with
    | q :: n :: a :: b :: c :: d :: e :: rest, hw =>
      cases hn; cases ha; cases hb; cases hc; cases hd; cases he; cases h
      exact ⟨_, _, _, _, _, _, _, hw, hf, hs, hx, hy, hz⟩
    | [_, _, _, _, _, _], hw => exact absurd hw.2 (by simp)
    | [_, _, _, _, _], hw => exact absurd hw.2 (by simp)
    | [_, _, _, _], hw => exact absurd hw.2 (by simp)
    | [_, _, _], hw => exact absurd hw.2 (by simp)
    | [_, _], hw => exact absurd hw.2 (by simp)
    | [_], hw => exact absurd hw.2 (by simp)
    | [], hw => exact absurd hw.2 (by simp)
  · rintro ⟨q, a, b, c, d, e, rest, hw, hf, hs, hx, hy, hz⟩
    exact ⟨_, hw, _, rfl, a, rfl, _, hf, b, rfl, _, hs, c, rfl, _, hx, d, rfl, _, hy, e, rfl, _, hz, rfl⟩

theorem name_iff (l : Str) (f : Str → Int → Sheet) (e : Sheet) :
    (splitN 3 l >>= fun v => idx v 1 >>= fun n => idx v 2 >>= fun z => i64R z >>= fun z => .ok (f n z)) = .ok e ↔
    ∃ n z, NameLine l n z ∧ e = f n z := by
  rw [three_words 3 l (fun n z => i64R z >>= fun z => .ok (f n z)) e (by omega)]
  simp only [Res.bind_eq_ok, i64R_iff]
  constructor
  · rintro ⟨a, n, z, rest, hw, i, hi, h⟩
    cases h
    exact ⟨n, i, ⟨a, z, rest, hw, hi⟩, rfl⟩
  · rintro ⟨n, i, ⟨a, z, rest, hw, hi⟩, rfl⟩
    exact ⟨a, n, z, rest, hw, i, hi, rfl⟩

/-- The lines that begin with `F` and a number. -/
def FEntry (l : Str) (i : Int) (e : SheetEntry) : Prop :=
  (i = 0 ∧ ∃ n z, NameLine l n z ∧ e = .name n z) ∨ (i = 1 ∧ ∃ n z, NameLine l n z ∧ e = .file n z) ∨
  (i ≠ 0 ∧ i ≠ 1 ∧ ∃ s, LabelLine l s ∧ e = .label s)

theorem sheetF_iff (l : Str) (d e : Sheet) (n : Str) : parseSheetF l d ('F' :: n) = .ok e ↔
    ∃ i x, IntWord n i ∧ FEntry l i x ∧ e = sheetStep d x := by
  unfold parseSheetF
  simp only [Res.bind_eq_ok, i64R_iff, List.drop_succ_cons, List.drop_zero]
  constructor
  · rintro ⟨i, hi, h⟩
    split at h
    · rename_i h0
      obtain ⟨n, z, hn, rfl⟩ := (name_iff l (fun name sz => { d with name := name, nameSize := sz }) e).1 h
      exact ⟨i, _, hi, .inl ⟨h0, n, z, hn, rfl⟩, rfl⟩
    · rename_i h0
      split at h
      · rename_i h1
        obtain ⟨n, z, hn, rfl⟩ := (name_iff l (fun name sz => { d with filename := name, filenameSize := sz }) e).1 h
        exact ⟨i, _, hi, .inr (.inl ⟨h1, n, z, hn, rfl⟩), rfl⟩
      · rename_i h1
        obtain ⟨s, hs, h⟩ := Res.bind_eq_ok.1 h
        cases h
        exact ⟨i, _, hi, .inr (.inr ⟨h0, h1, s, (label_iff ..).1 hs, rfl⟩), rfl⟩
  · rintro ⟨i, x, hi, hf, rfl⟩
    refine ⟨i, hi, ?_⟩
    rcases hf with ⟨h0, n, z, hn, rfl⟩ | ⟨h1, n, z, hn, rfl⟩ | ⟨h0, h1, s, hs, rfl⟩
    · rw [if_pos h0]
      exact (name_iff l (fun name sz => { d with name := name, nameSize := sz }) _).2 ⟨n, z, hn, rfl⟩
    · rw [if_neg (by omega), if_pos h1]
      exact (name_iff l (fun name sz => { d with filename := name, filenameSize := sz }) _).2 ⟨n, z, hn, rfl⟩
    · rw [if_neg h0, if_neg h1, (label_iff ..).2 hs]
      rfl

theorem sheet_read : ∀ (p q : List Str) (d c : Sheet),
    (∃ p', parseSheetLoop d p = .ok (c, p') ∧ next p' = q) →
    ∃ ls es, p = ls ++ str! "$EndSheet" :: q ∧ SheetLines ls es ∧ c = es.foldl sheetStep d := by
  intro p q
  induction p with
  | nil =>
    rintro d c ⟨p', h, _⟩
    rw [parseSheetLoop] at h; cases h
  | cons s p ih =>
    rintro d c ⟨p', h, hq⟩
    rw [parseSheetLoop] at h
    split at h
    · rename_i e
      cases h
      subst e hq
      exact ⟨[], [], rfl, .nil, rfl⟩
    rename_i hend
    cases hw : firstWord s with
    | none =>
      rw [hw] at h
      obtain ⟨ls, es, rfl, h1, h2⟩ := ih _ c ⟨p', h, hq⟩
      refine ⟨s :: ls, es, rfl, .other ?_ ?_ ?_ hend h1, h2⟩ <;> simp only [← firstWord_iff, hw] <;> simp
    | some w =>
      rw [hw] at h
      dsimp only at h
      split at h
      · rename_i hb
        subst hb
        obtain ⟨d', hd, h⟩ := Res.bind_eq_ok.1 h
        obtain ⟨x, y, dx, dy, hk, rfl⟩ := (sheetS_iff ..).1 hd
        obtain ⟨ls, es, rfl, h1, h2⟩ := ih _ c ⟨p', h, hq⟩
        exact ⟨s :: ls, _ :: es, rfl, .box ((firstWord_iff ..).1 hw) hk h1, h2⟩
      rename_i hS
      split at h
      · rename_i hb
        subst hb
        obtain ⟨d', hd, h⟩ := Res.bind_eq_ok.1 h
        obtain ⟨u, hk, rfl⟩ := (sheetU_iff ..).1 hd
        obtain ⟨ls, es, rfl, h1, h2⟩ := ih _ c ⟨p', h, hq⟩
        exact ⟨s :: ls, _ :: es, rfl, .unique ((firstWord_iff ..).1 hw) hk h1, h2⟩
      rename_i hU
      split at h
      · rename_i hb
        obtain ⟨n, rfl⟩ := List.isPrefixOf_iff_prefix.1 hb
        obtain ⟨d', hd, h⟩ := Res.bind_eq_ok.1 h
        obtain ⟨i, x, hi, hx, rfl⟩ := (sheetF_iff ..).1 hd
        obtain ⟨ls, es, rfl, h1, h2⟩ := ih _ c ⟨p', h, hq⟩
        have hn : Numbered s i := ⟨n, (firstWord_iff ..).1 hw, hi⟩
        rcases hx with ⟨rfl, n, z, hx, rfl⟩ | ⟨rfl, n, z, hx, rfl⟩ | ⟨h0, h1', l, hx, rfl⟩
        · exact ⟨s :: ls, _ :: es, rfl, .name hn hx h1, h2⟩
        · exact ⟨s :: ls, _ :: es, rfl, .file hn hx h1, h2⟩
        · exact ⟨s :: ls, _ :: es, rfl, .label hn h0 h1' hx h1, h2⟩
      rename_i hF
      obtain ⟨ls, es, rfl, h1, h2⟩ := ih _ c ⟨p', h, hq⟩
      refine ⟨s :: ls, es, rfl, .other ?_ ?_ ?_ hend h1, h2⟩
      · rw [← firstWord_iff, hw]; intro e; exact hS (Option.some.inj e)
      · rw [← firstWord_iff, hw]; intro e; exact hU (Option.some.inj e)
      · intro n
        rw [← firstWord_iff, hw]; intro e
        cases e
        exact hF (List.isPrefixOf_iff_prefix.2 ⟨n, rfl⟩)

theorem sheet_F {l n : Str} (hb : BeginsWith ('F' :: n) l) (d : Sheet) (rest : List Str) :
    parseSheetLoop d (l :: rest) = parseSheetF l d ('F' :: n) >>= fun d => parseSheetLoop d rest := by
  have hne : l ≠ str! "$EndSheet" := ne_of_begins hb (by decide) (by simp)
  rw [parseSheetLoop, if_neg hne, (firstWord_iff ..).2 hb]
  dsimp only
  rw [if_neg (by simp), if_neg (by simp), if_pos (show startsWith ('F' :: n) (str! "F") = true from List.isPrefixOf_iff_prefix.2 ⟨n, rfl⟩)]

theorem sheet_run {ls : List Str} {es : List SheetEntry} (h : SheetLines ls es) (q : List Str) :
    ∀ d : Sheet, parseSheetLoop d (ls ++ q) = parseSheetLoop (es.foldl sheetStep d) q := by
  have he : firstWord (str! "$EndSheet") = some (str! "$EndSheet") := by decide
  induction h with
  | nil => intro d; rfl
  | box hb hw h ih =>
    intro d
    rw [List.cons_append, parseSheetLoop, if_neg (ne_of_begins hb he (by decide)), (firstWord_iff ..).2 hb]
    dsimp only
    rw [if_pos rfl, (sheetS_iff ..).2 ⟨_, _, _, _, hw, rfl⟩, Res.bind_ok, ih, List.foldl_cons]
  | unique hb hw h ih =>
    intro d
    rw [List.cons_append, parseSheetLoop, if_neg (ne_of_begins hb he (by decide)), (firstWord_iff ..).2 hb]
    dsimp only
    rw [if_neg (by decide), if_pos rfl, (sheetU_iff ..).2 ⟨_, hw, rfl⟩, Res.bind_ok, ih, List.foldl_cons]
  | name hb hw h ih =>
    intro d
    obtain ⟨n, hb, hi⟩ := hb
    rw [List.cons_append, sheet_F hb, (sheetF_iff ..).2 ⟨_, _, hi, .inl ⟨rfl, _, _, hw, rfl⟩, rfl⟩, Res.bind_ok, ih,
      List.foldl_cons]
  | file hb hw h ih =>
    intro d
    obtain ⟨n, hb, hi⟩ := hb
    rw [List.cons_append, sheet_F hb, (sheetF_iff ..).2 ⟨_, _, hi, .inr (.inl ⟨rfl, _, _, hw, rfl⟩), rfl⟩, Res.bind_ok, ih,
      List.foldl_cons]
  | label hb h0 h1 hw h ih =>
    intro d
    obtain ⟨n, hb, hi⟩ := hb
    rw [List.cons_append, sheet_F hb, (sheetF_iff ..).2 ⟨_, _, hi, .inr (.inr ⟨h0, h1, _, hw, rfl⟩), rfl⟩, Res.bind_ok, ih,
      List.foldl_cons]
  | @other l ls es hs hu hf hne h ih =>
    intro d
    rw [List.cons_append, parseSheetLoop, if_neg hne]
    cases hw : firstWord l with
    | none => exact ih d
    | some w =>
      simp only [← firstWord_iff, hw, Option.some.injEq] at hs hu hf
      dsimp only
      rw [if_neg hs, if_neg hu, if_neg]
      · exact ih d
      · intro hF
        obtain ⟨n, e⟩ := List.isPrefixOf_iff_prefix.1 hF
        exact hf n e.symm

theorem sheet_accept {ls : List Str} {es : List SheetEntry} (h : SheetLines ls es) (q : List Str) (d : Sheet) :
    parseSheetLoop d (ls ++ str! "$EndSheet" :: q) = .ok (es.foldl sheetStep d, str! "$EndSheet" :: q) := by
  rw [sheet_run h, parseSheetLoop, if_pos rfl]

theorem sheet_iff (s : Str) (p q : List Str) (c : Sheet) :
    (∃ p', parseSheet (s :: p) = .ok (c, p') ∧ next p' = q) ↔
    ∃ ls es, p = ls ++ str! "$EndSheet" :: q ∧ SheetLines ls es ∧ DescribesSheet es c := by
  constructor
  · rintro h
    obtain ⟨ls, es, h1, h2, h3⟩ := sheet_read p q .dflt c h
    exact ⟨ls, es, h1, h2, (describesSheet_iff ..).1 h3.symm⟩
  · rintro ⟨ls, es, rfl, h2, h3⟩
    rw [← describesSheet_iff] at h3
    subst h3
    exact ⟨_, sheet_accept h2 q _, rfl⟩

/-! ## Parts of a file -/

/-- The part of a file an item stands for. -/
def Item.part {F : Type} : Item F → Part F
  | .descr d => .descr d
  | .element e => .element e
  | .sheet s => .sheet s
  | .nothing => .nothing

theorem read_part {F : Type} [Flt F] (s : Str) (p q : List Str) (i : Item F)
    (h : ∃ p', readItem (s :: p) = .ok (i, p') ∧ next p' = q) :
    ∃ a, s :: p = a ++ q ∧ PartLines a i.part := by
  obtain ⟨p', h, hq⟩ := h
  unfold readItem at h
  rw [show here (s :: p) = .ok s from rfl, Res.bind_ok] at h
  cases hw : firstWord s with
  | none => rw [hw] at h; cases h
  | some w =>
    rw [hw] at h
    dsimp only at h
    have hb := (firstWord_iff ..).1 hw
    split at h
    · rename_i e
      subst e
      obtain ⟨⟨d, r⟩, hd, h⟩ := Res.bind_eq_ok.1 h
      cases h
      obtain ⟨a, ha, hl⟩ := (description_iff s p d q).1 ⟨_, hd, hq⟩
      cases a with
      | nil => obtain ⟨_, _, _, _, _, _, _, _, _, _, _, h, _⟩ := hl; cases h
      | cons l a =>
        cases ha
        exact ⟨s :: a, rfl, .descr hb hl⟩
    rename_i h1
    split at h
    · rename_i e
      subst e
      obtain ⟨⟨d, r⟩, hd, h⟩ := Res.bind_eq_ok.1 h
      cases h
      obtain ⟨ls, es, rfl, h2, h3⟩ := (component_iff s p q d).1 ⟨_, hd, hq⟩
      exact ⟨s :: ls ++ [str! "$EndComp"], by simp, .component hb h2 h3⟩
    rename_i h2
    split at h
    · rename_i e
      subst e
      obtain ⟨⟨d, r⟩, hd, h⟩ := Res.bind_eq_ok.1 h
      cases h
      obtain ⟨ls, es, rfl, h2, h3⟩ := (sheet_iff s p q d).1 ⟨_, hd, hq⟩
      exact ⟨s :: ls ++ [str! "$EndSheet"], by simp, .sheet hb h2 h3⟩
    rename_i h3
    split at h
    · rename_i e
      subst e
      cases h
      subst hq
      exact ⟨[s], rfl, .mark hb⟩
    rename_i h4
    split at h
    · rename_i e
      subst e
      obtain ⟨⟨d, r⟩, hd, h⟩ := Res.bind_eq_ok.1 h
      cases h
      obtain ⟨a, ha, hl⟩ := (wire_iff s p hw d q).1 ⟨_, hd, hq⟩
      exact ⟨a, ha, .wire hl⟩
    rename_i h5
    split at h
    · rename_i e
      subst e
      obtain ⟨d, hd, h⟩ := Res.bind_eq_ok.1 h
      cases h
      subst hq
      exact ⟨[s], rfl, .connection ((pos_iff _ _ hw _).1 hd)⟩
    rename_i h6
    split at h
    · rename_i e
      subst e
      obtain ⟨d, hd, h⟩ := Res.bind_eq_ok.1 h
      cases h
      subst hq
      exact ⟨[s], rfl, .noConnect ((pos_iff _ _ hw _).1 hd)⟩
    rename_i h7
    split at h
    · rename_i e
      subst e
      obtain ⟨⟨d, r⟩, hd, h⟩ := Res.bind_eq_ok.1 h
      cases h
      obtain ⟨a, ha, hl⟩ := (text_iff s p hw d q).1 ⟨_, hd, hq⟩
      exact ⟨a, ha, .text hl⟩
    rename_i h8
    cases h
    subst hq
    refine ⟨[s], rfl, .other hb ?_⟩
    simp only [partWords, List.mem_cons, List.not_mem_nil, or_false, not_or]
    exact ⟨h1, h2, h3, h4, h5, h6, h7, h8⟩

theorem part_read {F : Type} [Flt F] {a : List Str} {pt : Part F} (h : PartLines a pt) (q : List Str) :
    ∃ s r i p', a = s :: r ∧ readItem (a ++ q) = .ok (i, p') ∧ next p' = q ∧ Item.part i = pt := by
  have start : ∀ (s w : Str) (p : List Str), BeginsWith w s → ∀ i : Item F, ∀ p',
      (if w = str! "$Descr" then parseDescription (s :: p) >>= fun r => .ok (.descr r.1, r.2)
    else if w = str! "$Comp" then parseComponent (s :: p) >>= fun r => .ok (.element (.component r.1), r.2)
    else if w = str! "$Sheet" then parseSheet (s :: p) >>= fun r => .ok (.sheet r.1, r.2)
    else if w = str! "$EndSCHEMATC" then .ok (.nothing, s :: p)
    else if w = str! "Wire" then parseWire (s :: p) >>= fun r => .ok (.element (.wire r.1), r.2)
    else if w = str! "Connection" then parsePos s >>= fun d => .ok (.element (.connection d), s :: p)
    else if w = str! "NoConn" then parsePos s >>= fun d => .ok (.element (.noConnect d), s :: p)
    else if w = str! "Text" then parseText (s :: p) >>= fun r => .ok (.element (.text r.1), r.2)
    else .ok (.element (.other s), s :: p)) = Res.ok (i, p') → readItem (s :: p) = .ok (i, p') := by
    intro s w p hb i p' h
    unfold readItem
    rw [show here (s :: p) = .ok s from rfl, Res.bind_ok, (firstWord_iff ..).2 hb]
    exact h
  cases h with
  | @descr l ls d hb h =>
    obtain ⟨p', h1, h2⟩ := (description_iff l (ls ++ q) d q).2 ⟨l :: ls, rfl, h⟩
    refine ⟨l, ls, .descr d, p', rfl, start _ _ (ls ++ q) hb _ _ ?_, h2, rfl⟩
    rw [if_pos rfl, h1]
    rfl
  | @component l ls es c hb h hd =>
    obtain ⟨p', h1, h2⟩ := (component_iff l (ls ++ str! "$EndComp" :: q) q c).2 ⟨ls, es, rfl, h, hd⟩
    refine ⟨l, ls ++ [str! "$EndComp"], .element (.component c), p', rfl, ?_, h2, rfl⟩
    rw [show l :: ls ++ [str! "$EndComp"] ++ q = l :: (ls ++ str! "$EndComp" :: q) by simp]
    refine start _ _ _ hb _ _ ?_
    rw [if_neg (by decide), if_pos rfl, h1]
    rfl
  | @sheet l ls es c hb h hd =>
    obtain ⟨p', h1, h2⟩ := (sheet_iff l (ls ++ str! "$EndSheet" :: q) q c).2 ⟨ls, es, rfl, h, hd⟩
    refine ⟨l, ls ++ [str! "$EndSheet"], .sheet c, p', rfl, ?_, h2, rfl⟩
    rw [show l :: ls ++ [str! "$EndSheet"] ++ q = l :: (ls ++ str! "$EndSheet" :: q) by simp]
    refine start _ _ _ hb _ _ ?_
    rw [if_neg (by decide), if_neg (by decide), if_pos rfl, h1]
    rfl
  | @mark l hb =>
    refine ⟨l, [], .nothing, l :: q, rfl, start _ _ q hb _ _ ?_, rfl, rfl⟩
    rw [if_neg (by decide), if_neg (by decide), if_neg (by decide), if_pos rfl]
  | @wire ls w h =>
    obtain ⟨l, m, kind, third, a, b, c, d, rfl, hl, hr⟩ := h
    have hb : BeginsWith (str! "Wire") l := ⟨_, hl⟩
    obtain ⟨p', h1, h2⟩ := (wire_iff l (m :: q) ((firstWord_iff ..).2 hb) w q).2
      ⟨[l, m], rfl, l, m, kind, third, a, b, c, d, rfl, hl, hr⟩
    refine ⟨l, [m], .element (.wire w), p', rfl, start _ _ (m :: q) hb _ _ ?_, h2, rfl⟩
    rw [if_neg (by decide), if_neg (by decide), if_neg (by decide), if_neg (by decide), if_pos rfl, h1]
    rfl
  | @connection l p h =>
    obtain ⟨second, x, y, hl, hr⟩ := h
    have hb : BeginsWith (str! "Connection") l := ⟨_, hl⟩
    refine ⟨l, [], .element (.connection p), l :: q, rfl, start _ _ q hb _ _ ?_, rfl, rfl⟩
    rw [if_neg (by decide), if_neg (by decide), if_neg (by decide), if_neg (by decide), if_neg (by decide), if_pos rfl,
      (pos_iff _ _ ((firstWord_iff ..).2 hb) _).2 ⟨second, x, y, hl, hr⟩]
    rfl
  | @noConnect l p h =>
    obtain ⟨second, x, y, hl, hr⟩ := h
    have hb : BeginsWith (str! "NoConn") l := ⟨_, hl⟩
    refine ⟨l, [], .element (.noConnect p), l :: q, rfl, start _ _ q hb _ _ ?_, rfl, rfl⟩
    rw [if_neg (by decide), if_neg (by decide), if_neg (by decide), if_neg (by decide), if_neg (by decide),
      if_neg (by decide), if_pos rfl, (pos_iff _ _ ((firstWord_iff ..).2 hb) _).2 ⟨second, x, y, hl, hr⟩]
    rfl
  | @text ls t h =>
    obtain ⟨l, kind, x, y, orientation, size, shape, italic, thickness, rest, rfl, hl, hr⟩ := h
    have hb : BeginsWith (str! "Text") l := ⟨_, hl⟩
    obtain ⟨p', h1, h2⟩ := (text_iff l (t.text :: q) ((firstWord_iff ..).2 hb) t q).2
      ⟨[l, t.text], rfl, l, kind, x, y, orientation, size, shape, italic, thickness, rest, rfl, hl, hr⟩
    refine ⟨l, [t.text], .element (.text t), p', rfl, start _ _ (t.text :: q) hb _ _ ?_, h2, rfl⟩
    rw [if_neg (by decide), if_neg (by decide), if_neg (by decide), if_neg (by decide), if_neg (by decide),
      if_neg (by decide), if_neg (by decide), if_pos rfl, h1]
    rfl
  | @other l w hb hw =>
    refine ⟨l, [], .element (.other l), l :: q, rfl, start _ _ q hb _ _ ?_, rfl, rfl⟩
    simp only [partWords, List.mem_cons, List.not_mem_nil, or_false, not_or] at hw
    obtain ⟨h1, h2, h3, h4, h5, h6, h7, h8⟩ := hw
    rw [if_neg h1, if_neg h2, if_neg h3, if_neg h4, if_neg h5, if_neg h6, if_neg h7, if_neg h8]

theorem content_read {F : Type} [Flt F] : ∀ (n : Nat) (p : List Str) (is : List (Item F)), p.length ≤ n →
    content p = .ok is → ContentLines p (is.map Item.part) := by
  intro n
  induction n with
  | zero =>
    intro p is hn h
    cases p with
    | nil => cases h; exact .nil
    | cons => simp at hn
  | succ n ih =>
    intro p is hn h
    cases p with
    | nil => cases h; exact .nil
    | cons s p =>
      rw [content_cons] at h
      obtain ⟨⟨i, p'⟩, hi, h⟩ := Res.bind_eq_ok.1 h
      obtain ⟨js, hj, h⟩ := Res.bind_eq_ok.1 h
      cases h
      obtain ⟨a, ha, hl⟩ := read_part s p (next p') i ⟨p', hi, rfl⟩
      have hf := readItem_forward hi
      rw [ha, List.map_cons]
      refine .cons hl (ih _ _ ?_ hj)
      simp [next] at hf hn ⊢
      omega

theorem content_accept {F : Type} [Flt F] {p : List Str} {ps : List (Part F)} (h : ContentLines p ps) :
    ∃ is : List (Item F), content p = .ok is ∧ is.map Item.part = ps := by
  induction h with
  | nil => exact ⟨[], rfl, rfl⟩
  | @cons a b pt ps h ht ih =>
    obtain ⟨is, h1, rfl⟩ := ih
    obtain ⟨s, r, i, p', rfl, h2, rfl, rfl⟩ := part_read h b
    refine ⟨i :: is, ?_, rfl⟩
    rw [List.cons_append, content_cons, ← List.cons_append, h2, Res.bind_ok]
    dsimp only
    rw [h1]
    rfl

theorem content_iff {F : Type} [Flt F] (p : List Str) (ps : List (Part F)) :
    (∃ is : List (Item F), content p = .ok is ∧ is.map Item.part = ps) ↔ ContentLines p ps := by
  constructor
  · rintro ⟨is, h, rfl⟩
    exact content_read _ p is (Nat.le_refl _) h
  · exact content_accept

/-! ## The header -/

theorem libs_read {F : Type} (p : List Str) : ∀ (sch : Schematic F),
    ∃ names rest, p = (names.map fun n => str! "LIBS:" ++ n) ++ rest ∧
      (∀ s r, rest = s :: r → startsWith s (str! "LIBS:") = false) ∧
      parseLibs sch p = ({ sch with libraries := sch.libraries ++ names }, rest) := by
  induction p with
  | nil => intro sch; exact ⟨[], [], rfl, by simp, by simp [parseLibs]⟩
  | cons s p ih =>
    intro sch
    rw [parseLibs]
    by_cases h : startsWith s (str! "LIBS:") = true
    · obtain ⟨n, rfl⟩ := List.isPrefixOf_iff_prefix.1 h
      rw [if_pos h]
      obtain ⟨names, rest, rfl, h1, h2⟩ := ih { sch with libraries := sch.libraries ++ [n] }
      refine ⟨n :: names, rest, rfl, h1, ?_⟩
      have : (str! "LIBS:" ++ n).drop 5 = n := rfl
      rw [this, h2]
      simp
    · refine ⟨[], s :: p, rfl, ?_, ?_⟩
      · intro s' r e
        cases e
        simpa using h
      · rw [if_neg h]; simp

theorem libs_accept {F : Type} (names : List Str) (rest : List Str)
    (h : ∀ s r, rest = s :: r → startsWith s (str! "LIBS:") = false) (sch : Schematic F) :
    parseLibs sch ((names.map fun n => str! "LIBS:" ++ n) ++ rest) =
      ({ sch with libraries := sch.libraries ++ names }, rest) := by
  induction names generalizing sch with
  | nil =>
    cases rest with
    | nil => simp [parseLibs]
    | cons s r =>
      have := h s r rfl
      simp [parseLibs, this]
  | cons n names ih =>
    rw [List.map_cons, List.cons_append, parseLibs, if_pos (show startsWith (str! "LIBS:" ++ n) (str! "LIBS:") = true from
      List.isPrefixOf_iff_prefix.2 ⟨n, rfl⟩), ih]
    simp

theorem itemElements_part {F : Type} (is : List (Item F)) :
    itemElements is = (is.map Item.part).filterMap Part.element? := by
  unfold itemElements
  rw [List.filterMap_map]
  congr 1
  funext i
  cases i <;> rfl

theorem itemSheets_part {F : Type} (is : List (Item F)) :
    itemSheets is = (is.map Item.part).filterMap Part.sheet? := by
  unfold itemSheets
  rw [List.filterMap_map]
  congr 1
  funext i
  cases i <;> rfl

theorem itemDescr_part {F : Type} (is : List (Item F)) (d : Description) :
    itemDescr is d = ((is.map Item.part).filterMap Part.descr?).getLastD d := by
  unfold itemDescr
  induction is generalizing d with
  | nil => rfl
  | cons i is ih =>
    rw [List.foldl_cons, ih]
    cases i <;> simp only [List.map_cons, Item.part, List.filterMap_cons, Part.descr?, getLastD_cons']

end Sch
end Verif
