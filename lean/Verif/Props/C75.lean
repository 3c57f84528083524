import Verif.Spec.SymbolGrammar
import Verif.Lemmas.Numerals
import Verif.Props.C74
import Verif.Basic.Nm
/-!
# C75: the language of symbol library files
-/

set_option linter.unusedSimpArgs false

namespace Verif
open Lib Spec
open Verif.Sch (here next assumeLine charAt i64R f64R boolFrom assumeString idx Orientation Justify i64R_iff f64R_iff
  boolFrom_iff)

/-! ## Words and letters -/

/-- Looking up a word in a table. -/
def Lib.tableRead {α β : Type} [DecidableEq α] : List (α × β) → α → Res β
  | [], _ => .err .other
  | (k, v) :: t, w => if w = k then .ok v else tableRead t w

theorem Lib.tableRead_iff {α β : Type} [DecidableEq α] (t : List (α × β)) (h : (t.map Prod.fst).Nodup) (w : α) (o : β) :
    tableRead t w = .ok o ↔ (w, o) ∈ t := by
  induction t with
  | nil => simp [tableRead]
  | cons x t ih =>
    obtain ⟨k, v⟩ := x
    rw [List.map_cons, List.nodup_cons] at h
    rw [tableRead]
    split
    · rename_i e
      subst e
      constructor
      · intro e; cases e; exact List.mem_cons_self ..
      · intro hm
        rcases List.mem_cons.1 hm with e | hm
        · cases e; rfl
        · exact absurd (List.mem_map_of_mem (f := Prod.fst) hm) h.1
    · rename_i e
      rw [ih h.2]
      simp [e]

theorem Lib.side_iff (w : Str) (o : PinOrientation) : PinOrientation.make w = .ok o ↔ (w, o) ∈ pinSides :=
  Lib.tableRead_iff pinSides (by decide) w o

theorem Lib.type_iff (w : Str) (o : PinType) : PinType.make w = .ok o ↔ (w, o) ∈ pinTypes :=
  Lib.tableRead_iff pinTypes (by decide) w o

theorem Lib.fill_iff (w : Str) (o : Fill) : Fill.make w = .ok o ↔ (w, o) ∈ fills :=
  Lib.tableRead_iff fills (by decide) w o

theorem Sch.direction_iff (c : Char) (o : Orientation) : Orientation.new c = .ok o ↔ (c, o) ∈ directions :=
  Lib.tableRead_iff directions (by decide) c o

theorem Sch.alignment_iff (c : Char) (o : Justify) : Justify.new c = .ok o ↔ (c, o) ∈ alignments :=
  Lib.tableRead_iff alignments (by decide) c o

theorem Lib.letters_iff (w : Str) (o : PinShape) (h : ¬ startsWith w (str! "N") = true) (h0 : w ≠ []) :
    PinShape.make w = .ok o ↔ (w, o) ∈ pinShapes := by
  rw [← Lib.tableRead_iff pinShapes (by decide)]
  unfold PinShape.make
  rw [if_neg (by simpa using h0)]
  simp only [h, if_false]
  rfl

theorem Lib.hidden_iff (w : Str) (o : PinShape) : PinShape.make ('N' :: w) = .ok o ↔ (w, o) ∈ pinShapes := by
  have hs : startsWith ('N' :: w) (str! "N") = true := by simp [startsWith]
  rw [← Lib.tableRead_iff pinShapes (by decide)]
  unfold PinShape.make
  rw [if_neg (by simp)]
  simp only [hs, if_true, List.drop_succ_cons, List.drop_zero]
  rfl

theorem Lib.shape_iff (w : Str) (b : Bool) (o : PinShape) :
    (PinShape.make w = .ok o ∧ visibleFromStr w = b) ↔ ShapeWord w b o := by
  cases w with
  | nil =>
    simp only [ShapeWord, PinShape.make, visibleFromStr, List.isEmpty_nil, if_true, Res.ok.injEq, true_and]
    constructor
    · rintro ⟨rfl, rfl⟩; exact .inl ⟨rfl, rfl⟩
    · rintro (⟨rfl, rfl⟩ | ⟨l, _, ⟨h, _⟩ | ⟨rfl, h, _⟩⟩)
      · exact ⟨rfl, rfl⟩
      · cases h
      · exact absurd rfl h
  | cons c w =>
    by_cases hc : c = 'N'
    · subst hc
      have hs : startsWith ('N' :: w) (str! "N") = true := by simp [startsWith]
      rw [Lib.hidden_iff]
      simp only [visibleFromStr, hs, ShapeWord]
      constructor
      · rintro ⟨h, rfl⟩; exact .inr ⟨w, h, .inl ⟨rfl, rfl⟩⟩
      · rintro (⟨h, _⟩ | ⟨l, h, ⟨e, rfl⟩ | ⟨rfl, _, _⟩⟩)
        · cases h
        · cases e; exact ⟨h, rfl⟩
        · have : ∀ x ∈ pinShapes, x.1.head? ≠ some 'N' := by decide
          exact absurd rfl (this _ h)
    · have hs : ¬ startsWith (c :: w) (str! "N") = true := by simpa [startsWith] using fun h : 'N' = c => hc h.symm
      rw [Lib.letters_iff _ _ hs (by simp)]
      simp only [visibleFromStr, hs, ShapeWord]
      constructor
      · rintro ⟨h, rfl⟩; exact .inr ⟨_, h, .inr ⟨rfl, by simp, rfl⟩⟩
      · rintro (⟨h, _⟩ | ⟨l, h, ⟨e, rfl⟩ | ⟨rfl, _, rfl⟩⟩)
        · cases h
        · exact absurd (List.cons.inj e).1 hc
        · exact ⟨h, rfl⟩

variable {F : Type} [Flt F]

theorem Lib.cons_of_length {α : Type} {v : List α} {n : Nat} (h : v.length = n + 1) :
    ∃ a t, v = a :: t ∧ t.length = n := by
  cases v with
  | nil => cases h
  | cons a t => exact ⟨a, t, rfl, Nat.succ.inj h⟩

theorem Lib.pin_iff (line : Str) (p : Pin) : parsePin line = .ok p ↔ PinLine line p := by
  constructor
  · intro h
    unfold parsePin at h
    obtain ⟨v, hv, h⟩ := Res.bind_eq_ok.1 h
    rw [C74_split] at hv
    split at h
    · cases h
    · rename_i hl
      have hl : v.length = 12 ∨ v.length = 13 := by omega
      rcases hl with hl | hl
      · obtain ⟨first, t0, e, k0⟩ := Lib.cons_of_length hl
        subst e
        obtain ⟨name, t1, e, k1⟩ := Lib.cons_of_length k0
        subst e
        obtain ⟨number, t2, e, k2⟩ := Lib.cons_of_length k1
        subst e
        obtain ⟨x, t3, e, k3⟩ := Lib.cons_of_length k2
        subst e
        obtain ⟨y, t4, e, k4⟩ := Lib.cons_of_length k3
        subst e
        obtain ⟨len, t5, e, k5⟩ := Lib.cons_of_length k4
        subst e
        obtain ⟨side, t6, e, k6⟩ := Lib.cons_of_length k5
        subst e
        obtain ⟨s1, t7, e, k7⟩ := Lib.cons_of_length k6
        subst e
        obtain ⟨s2, t8, e, k8⟩ := Lib.cons_of_length k7
        subst e
        obtain ⟨unit, t9, e, k9⟩ := Lib.cons_of_length k8
        subst e
        obtain ⟨convert, t10, e, k10⟩ := Lib.cons_of_length k9
        subst e
        obtain ⟨type_, t11, e, k11⟩ := Lib.cons_of_length k10
        subst e
        obtain rfl := List.length_eq_zero_iff.1 k11
        simp [idx, Res.bind_eq_ok, i64R_iff, Lib.side_iff, Lib.type_iff] at h
        obtain ⟨a1, h1, a2, h2, a3, h3, a4, h4, a5, h5, a6, h6, a7, h7, a8, h8, a9, h9, rfl⟩ := h
        exact ⟨first, name, number, x, y, len, side, s1, s2, unit, convert, type_, [], hv, rfl, rfl, h1, h2, h3, h4,
          h5, h6, h7, h8, h9, .inl ⟨rfl, rfl, rfl⟩⟩
      · obtain ⟨first, t0, e, k0⟩ := Lib.cons_of_length hl
        subst e
        obtain ⟨name, t1, e, k1⟩ := Lib.cons_of_length k0
        subst e
        obtain ⟨number, t2, e, k2⟩ := Lib.cons_of_length k1
        subst e
        obtain ⟨x, t3, e, k3⟩ := Lib.cons_of_length k2
        subst e
        obtain ⟨y, t4, e, k4⟩ := Lib.cons_of_length k3
        subst e
        obtain ⟨len, t5, e, k5⟩ := Lib.cons_of_length k4
        subst e
        obtain ⟨side, t6, e, k6⟩ := Lib.cons_of_length k5
        subst e
        obtain ⟨s1, t7, e, k7⟩ := Lib.cons_of_length k6
        subst e
        obtain ⟨s2, t8, e, k8⟩ := Lib.cons_of_length k7
        subst e
        obtain ⟨unit, t9, e, k9⟩ := Lib.cons_of_length k8
        subst e
        obtain ⟨convert, t10, e, k10⟩ := Lib.cons_of_length k9
        subst e
        obtain ⟨type_, t11, e, k11⟩ := Lib.cons_of_length k10
        subst e
        obtain ⟨shape, t12, e, k12⟩ := Lib.cons_of_length k11
        subst e
        obtain rfl := List.length_eq_zero_iff.1 k12
        simp [idx, Res.bind_eq_ok, i64R_iff, Lib.side_iff, Lib.type_iff] at h
        obtain ⟨a1, h1, a2, h2, a3, h3, a4, h4, a5, h5, a6, h6, a7, h7, a8, h8, a9, h9, a10, h10, rfl⟩ := h
        exact ⟨first, name, number, x, y, len, side, s1, s2, unit, convert, type_, [shape], hv, rfl, rfl, h1, h2, h3,
          h4, h5, h6, h7, h8, h9, .inr ⟨_, rfl, (Lib.shape_iff ..).1 ⟨h10, rfl⟩⟩⟩
  · rintro ⟨first, name, number, x, y, len, side, s1, s2, unit, convert, type_, shape, hv, h0, h0', h1, h2, h3, h4, h5,
      h6, h7, h8, h9, h10⟩
    have hv := (C74_split ..).2 hv
    simp only [← i64R_iff, ← Lib.side_iff, ← Lib.type_iff] at h1 h2 h3 h4 h5 h6 h7 h8 h9
    rcases h10 with ⟨rfl, ha, hb⟩ | ⟨w, rfl, hs⟩
    · obtain ⟨⟩ := p
      subst h0 h0' ha hb
      unfold parsePin
      rw [hv, Res.bind_ok]
      simp only [List.cons_append, List.nil_append, List.append_nil, List.length_cons, List.length_nil, idx,
        List.getElem?_cons_succ, List.getElem?_cons_zero, Res.bind_ok]
      simp only [h1, h2, h3, h4, h5, h6, h7, h8, h9, Res.bind_ok]
      rfl
    · obtain ⟨ha, hb⟩ := (Lib.shape_iff ..).2 hs
      obtain ⟨⟩ := p
      subst h0 h0' hb
      unfold parsePin
      rw [hv, Res.bind_ok]
      simp only [List.cons_append, List.nil_append, List.append_nil, List.length_cons, List.length_nil, idx,
        List.getElem?_cons_succ, List.getElem?_cons_zero, Res.bind_ok]
      simp only [h1, h2, h3, h4, h5, h6, h7, h8, h9, ha, Res.bind_ok]
      rfl

theorem Lib.rect_iff (line : Str) (r : Rectangle) : parseRect line = .ok r ↔ RectLine line r := by
  constructor
  · intro h
    unfold parseRect at h
    obtain ⟨v, hv, h⟩ := Res.bind_eq_ok.1 h
    rw [C74_split] at hv
    split at h
    · cases h
    · rename_i hl
      match v, Decidable.not_not.1 hl with
      | [a, b, c, d, e, f, g, i, j], _ =>
        simp [idx, Res.bind_eq_ok, i64R_iff, Lib.fill_iff] at h
        obtain ⟨a1, h1, a2, h2, a3, h3, a4, h4, a5, h5, a6, h6, a7, h7, a8, h8, rfl⟩ := h
        exact ⟨_, _, _, _, _, _, _, _, _, hv, h1, h2, h3, h4, h5, h6, h7, h8⟩
  · rintro ⟨a, b, c, d, e, f, g, i, j, hv, h1, h2, h3, h4, h5, h6, h7, h8⟩
    have hv := (C74_split ..).2 hv
    simp only [← i64R_iff, ← Lib.fill_iff] at h1 h2 h3 h4 h5 h6 h7 h8
    simp [parseRect, hv, idx, h1, h2, h3, h4, h5, h6, h7, h8]

theorem Sch.charAt_zero (s : Str) (c : Char) : charAt s 0 = .ok c ↔ ∃ r, s = c :: r := by
  cases s <;> simp [charAt]

theorem Sch.charAt_three (s : Str) (a b c : Char) :
    (charAt s 0 = .ok a ∧ charAt s 1 = .ok b ∧ charAt s 2 = .ok c) ↔ ∃ r, s = a :: b :: c :: r := by
  match s with
  | [] => simp [charAt]
  | [_] => simp [charAt]
  | [_, _] => simp [charAt]
  | _ :: _ :: _ :: _ => simp [charAt]

/-- The name of a field. -/
def Lib.fieldName (v : List Str) (i : Int) : Res Str :=
  if v.length = 10 then idx v 9 else tableRead fixedNames i

theorem Lib.parseField_eq (line : Str) : parseField (F := F) line = (do
    let v ← splitQ line
    if v.length ≠ 9 ∧ v.length ≠ 10 then .err .other
    else do
      let v0 ← idx v 0
      let i ← i64R (v0.drop 1)
      let name ← Lib.fieldName v i
      let value ← idx v 1
      let x ← f64R (← idx v 2)
      let y ← f64R (← idx v 3)
      let dimension ← i64R (← idx v 4)
      let orientation ← Orientation.new (← charAt (← idx v 5) 0)
      let visible ← boolFrom (← idx v 6) (str! "V") (str! "I")
      let hjustify ← Justify.new (← charAt (← idx v 7) 0)
      let vjustify ← Justify.new (← charAt (← idx v 8) 0)
      let italic ← boolFrom (← charAt (← idx v 8) 1) 'I' 'N'
      let bold ← boolFrom (← charAt (← idx v 8) 2) 'B' 'N'
      .ok { i, value, x, y, dimension, orientation, visible, hjustify, vjustify, italic, bold, name }) := by
  unfold parseField
  congr 1
  funext v
  split
  · rfl
  · congr 1
    funext v0
    congr 1
    funext i
    unfold Lib.fieldName
    split
    · rfl
    · simp only [fixedNames, Lib.tableRead]
      (repeat' split) <;> rfl

theorem Lib.field_iff (line : Str) (f : Field F) : parseField line = .ok f ↔ FieldLine line f := by
  have hb : ∀ (w : Str) b, boolFrom w (str! "V") (str! "I") = .ok b ↔ Choice (str! "V") (str! "I") w b :=
    fun w b => boolFrom_iff _ _ _ _ (by decide)
  have hb1 : ∀ (w : Char) b, boolFrom w 'I' 'N' = .ok b ↔ Choice 'I' 'N' w b :=
    fun w b => boolFrom_iff _ _ _ _ (by decide)
  have hb2 : ∀ (w : Char) b, boolFrom w 'B' 'N' = .ok b ↔ Choice 'B' 'N' w b :=
    fun w b => boolFrom_iff _ _ _ _ (by decide)
  constructor
  · intro h
    rw [Lib.parseField_eq] at h
    obtain ⟨v, hv, h⟩ := Res.bind_eq_ok.1 h
    rw [C74_split] at hv
    split at h
    · cases h
    · rename_i hl
      have hl : v.length = 9 ∨ v.length = 10 := by omega
      rcases hl with hl | hl
      · match v, hl with
        | [a, b, c, d, e, f, g, i, j], _ =>
          simp [-Bool.exists_bool, -List.drop_one, Lib.fieldName, idx, Res.bind_eq_ok, i64R_iff, f64R_iff, hb, hb1, hb2, Sch.direction_iff, Sch.alignment_iff] at h
          obtain ⟨a1, h1, n, h2, x, h3, y, h4, z, h5, c1, h6, o, h7, vi, h8, c2, h9, hj, h10, c3, h11, vj, h12,
            c4, h13, it, h14, c5, h15, bo, h16, rfl⟩ := h
          obtain ⟨r1, rfl⟩ := (Sch.charAt_zero ..).1 h6
          obtain ⟨r2, rfl⟩ := (Sch.charAt_zero ..).1 h9
          obtain ⟨r3, rfl⟩ := (Sch.charAt_three ..).1 ⟨h11, h13, h15⟩
          exact ⟨_, _, _, _, _, _, _, _, _, _, _, [], r1, r2, r3, hv, h1, rfl, h3, h4, h5, h7, h8, h10, h12, h14, h16,
            .inl ⟨rfl, (Lib.tableRead_iff fixedNames (by decide) _ _).1 h2⟩⟩
      · match v, hl with
        | [a, b, c, d, e, f, g, i, j, k], _ =>
          simp [-Bool.exists_bool, -List.drop_one, Lib.fieldName, idx, Res.bind_eq_ok, i64R_iff, f64R_iff, hb, hb1, hb2, Sch.direction_iff, Sch.alignment_iff] at h
          obtain ⟨a1, h1, x, h3, y, h4, z, h5, c1, h6, o, h7, vi, h8, c2, h9, hj, h10, c3, h11, vj, h12,
            c4, h13, it, h14, c5, h15, bo, h16, rfl⟩ := h
          obtain ⟨r1, rfl⟩ := (Sch.charAt_zero ..).1 h6
          obtain ⟨r2, rfl⟩ := (Sch.charAt_zero ..).1 h9
          obtain ⟨r3, rfl⟩ := (Sch.charAt_three ..).1 ⟨h11, h13, h15⟩
          exact ⟨_, _, _, _, _, _, _, _, _, _, _, [k], r1, r2, r3, hv, h1, rfl, h3, h4, h5, h7, h8, h10, h12, h14, h16,
            .inr rfl⟩
  · rintro ⟨a, b, c, d, e, dir, g, hor, ver, it, bo, name, r1, r2, r3, hv, h1, h0, h3, h4, h5, h7, h8, h10, h12, h14, h16, h2⟩
    have hv := (C74_split ..).2 hv
    simp only [← i64R_iff, ← f64R_iff, ← hb, ← hb1, ← hb2, ← Sch.direction_iff, ← Sch.alignment_iff]
      at h1 h3 h4 h5 h7 h8 h10 h12 h14 h16
    obtain ⟨⟩ := f
    subst h0
    rcases h2 with ⟨rfl, h2⟩ | rfl
    · have h2 := (Lib.tableRead_iff fixedNames (by decide) _ _).2 h2
      simp [-List.drop_one, Lib.parseField_eq, Lib.fieldName, hv, idx, charAt, h1, h2, h3, h4, h5, h7, h8, h10, h12, h14, h16]
    · simp [-List.drop_one, Lib.parseField_eq, Lib.fieldName, hv, idx, charAt, h1, h3, h4, h5, h7, h8, h10, h12, h14, h16]

theorem Lib.def_iff (line : Str) (s : Symbol F) :
    (∃ t, parseDef line = .ok t ∧ s = { t with fields := s.fields, aliases := s.aliases, draw := s.draw }) ↔
      DefLine line s := by
  have hb : ∀ (w : Str) b, boolFrom w (str! "Y") (str! "N") = .ok b ↔ Choice (str! "Y") (str! "N") w b :=
    fun w b => boolFrom_iff _ _ _ _ (by decide)
  have hb1 : ∀ (w : Str) b, boolFrom w (str! "L") (str! "F") = .ok b ↔ Choice (str! "L") (str! "F") w b :=
    fun w b => boolFrom_iff _ _ _ _ (by decide)
  have hb2 : ∀ (w : Str) b, boolFrom w (str! "P") (str! "N") = .ok b ↔ Choice (str! "P") (str! "N") w b :=
    fun w b => boolFrom_iff _ _ _ _ (by decide)
  constructor
  · rintro ⟨t, h, e⟩
    unfold parseDef at h
    obtain ⟨v, hv, h⟩ := Res.bind_eq_ok.1 h
    rw [C74_split] at hv
    split at h
    · cases h
    · rename_i hl
      match v, Decidable.not_not.1 hl with
      | [a, b, c, d, e, f, g, i, j, k], _ =>
        simp [-Bool.exists_bool, idx, assumeString, Res.bind_eq_ok, i64R_iff, f64R_iff, hb, hb1, hb2] at h
        obtain ⟨h0, a1, h1, a2, h2, a3, h3, a4, h4, a5, h5, a6, h6, rfl⟩ := h
        subst h0
        rw [e]
        exact ⟨_, _, _, _, _, _, _, hv, h1, h2, h3, h4, h5, h6⟩
  · rintro ⟨a, b, c, d, e, f, g, hv, h1, h2, h3, h4, h5, h6⟩
    have hv := (C74_split ..).2 hv
    simp only [← i64R_iff, ← f64R_iff, ← hb, ← hb1, ← hb2] at h1 h2 h3 h4 h5 h6
    refine ⟨{ s with fields := [], aliases := [], draw := [] }, ?_, rfl⟩
    simp [parseDef, hv, idx, assumeString, Symbol.new, h1, h2, h3, h4, h5, h6]

theorem Lib.draw_iff (l : Str) (d : Draw) : parseDrawLine l = .ok d ↔ DrawLine l d := by
  unfold parseDrawLine
  constructor
  · intro h
    split at h
    · rename_i hx
      obtain ⟨r, rfl⟩ := List.isPrefixOf_iff_prefix.1 hx
      obtain ⟨p, hp, h⟩ := Res.bind_eq_ok.1 h
      cases h
      exact .pin ((Lib.pin_iff ..).1 hp)
    · rename_i hx
      split at h
      · rename_i hs
        obtain ⟨r, rfl⟩ := List.isPrefixOf_iff_prefix.1 hs
        obtain ⟨p, hp, h⟩ := Res.bind_eq_ok.1 h
        cases h
        exact .rect ((Lib.rect_iff ..).1 hp)
      · rename_i hs
        cases h
        exact .other (fun h => hx (List.isPrefixOf_iff_prefix.2 h)) (fun h => hs (List.isPrefixOf_iff_prefix.2 h))
  · rintro (⟨h⟩ | ⟨h⟩ | ⟨hx, hs⟩)
    · rename_i r p
      rw [if_pos (show startsWith _ _ = true from List.isPrefixOf_iff_prefix.2 ⟨r, rfl⟩), (Lib.pin_iff ..).2 h]
      rfl
    · rename_i r p
      rw [if_neg (by simp [startsWith]), if_pos (show startsWith _ _ = true from List.isPrefixOf_iff_prefix.2 ⟨r, rfl⟩),
        (Lib.rect_iff ..).2 h]
      rfl
    · rw [if_neg (show ¬ startsWith _ _ = true from fun h => hx (List.isPrefixOf_iff_prefix.1 h)),
        if_neg (show ¬ startsWith _ _ = true from fun h => hs (List.isPrefixOf_iff_prefix.1 h))]

theorem Lib.fields_iff (acc fs : List (Field F)) (p p' : List Str) : parseFields acc p = .ok (fs, p') ↔
    ∃ ls gs, p = ls ++ p' ∧ fs = acc ++ gs ∧ List.Forall₂ (fun l f => (∃ r, l = 'F' :: r) ∧ FieldLine l f) ls gs ∧
      ∃ c r q, p' = (c :: r) :: q ∧ c ≠ 'F' := by
  induction p generalizing acc with
  | nil =>
    simp only [parseFields]
    constructor
    · intro h; cases h
    · rintro ⟨ls, gs, h, _, _, c, r, q, rfl, _⟩
      simp at h
  | cons s p ih =>
    rw [parseFields]
    constructor
    · intro h
      obtain ⟨c, hc, h⟩ := Res.bind_eq_ok.1 h
      obtain ⟨r, rfl⟩ := (Sch.charAt_zero ..).1 hc
      split at h
      · rename_i e
        subst e
        obtain ⟨f, hf, h⟩ := Res.bind_eq_ok.1 h
        obtain ⟨ls, gs, rfl, rfl, h2, h3⟩ := (ih _).1 h
        exact ⟨_ :: ls, f :: gs, rfl, by simp, .cons ⟨⟨r, rfl⟩, (Lib.field_iff ..).1 hf⟩ h2, h3⟩
      · rename_i hc
        cases h
        exact ⟨[], [], rfl, by simp, .nil, c, r, p, rfl, hc⟩
    · rintro ⟨ls, gs, h, rfl, h2, h3⟩
      cases h2 with
      | nil =>
        obtain ⟨c, r, q, rfl, hc⟩ := h3
        cases h
        simp [charAt, hc]
      | @cons l f ls gs h1 h2 =>
        cases h
        obtain ⟨⟨r, rfl⟩, hf⟩ := h1
        have := (ih (acc ++ [f])).2 ⟨ls, gs, rfl, by simp, h2, h3⟩
        change parseFields _ (ls ++ p') = _ at this
        simp [charAt, (Lib.field_iff ..).2 hf, this]

theorem Lib.draws_iff (acc ds : List Draw) (p p' : List Str) : parseDraws acc p = .ok (ds, p') ↔
    ∃ ls gs, ds = acc ++ gs ∧ List.Forall₂ (fun l d => l ≠ str! "ENDDRAW" ∧ DrawLine l d) ls gs ∧
      (p = ls ++ str! "ENDDRAW" :: p' ∨ p = ls ∧ p' = []) := by
  induction p generalizing acc with
  | nil =>
    simp only [parseDraws]
    constructor
    · intro h; cases h; exact ⟨[], [], by simp, .nil, .inr ⟨rfl, rfl⟩⟩
    · rintro ⟨ls, gs, rfl, h2, h | ⟨rfl, rfl⟩⟩
      · simp at h
      · cases h2; simp
  | cons s p ih =>
    rw [parseDraws]
    constructor
    · intro h
      split at h
      · rename_i e
        cases h
        subst e
        exact ⟨[], [], by simp, .nil, .inl rfl⟩
      · rename_i hc
        obtain ⟨f, hf, h⟩ := Res.bind_eq_ok.1 h
        obtain ⟨ls, gs, rfl, h2, h3⟩ := (ih _).1 h
        refine ⟨_ :: ls, f :: gs, by simp, .cons ⟨hc, (Lib.draw_iff ..).1 hf⟩ h2, ?_⟩
        rcases h3 with rfl | ⟨rfl, rfl⟩
        · exact .inl rfl
        · exact .inr ⟨rfl, rfl⟩
    · rintro ⟨ls, gs, rfl, h2, h3⟩
      cases h2 with
      | nil =>
        rcases h3 with h3 | ⟨h3, _⟩
        · cases h3; rw [if_pos rfl]; simp
        · cases h3
      | @cons l f ls gs h1 h2 =>
        have hs : s = l := by
          rcases h3 with h3 | ⟨h3, _⟩ <;> exact (List.cons.inj h3).1
        subst hs
        have := (ih (acc ++ [f])).2 ⟨ls, gs, by simp, h2, by
          rcases h3 with h3 | ⟨h3, e⟩
          · exact .inl (List.cons.inj h3).2
          · exact .inr ⟨(List.cons.inj h3).2, e⟩⟩
        rw [if_neg h1.1, (Lib.draw_iff ..).2 h1.2]
        simpa using this

theorem Lib.skip_iff (p p' : List Str) (hp : p' ≠ []) : skipFplist p = p' ↔
    ∃ fs, p = fs ++ str! "$ENDFPLIST" :: p' ∧ str! "$ENDFPLIST" ∉ fs := by
  induction p with
  | nil => simpa [skipFplist] using fun h : [] = p' => hp h.symm
  | cons s p ih =>
    rw [skipFplist]
    split
    · rename_i e
      subst e
      constructor
      · rintro rfl; exact ⟨[], rfl, by simp⟩
      · rintro ⟨fs, h, hn⟩
        cases fs with
        | nil => cases h; rfl
        | cons f fs => cases h; simp at hn
    · rename_i hs
      rw [ih]
      constructor
      · rintro ⟨fs, rfl, hn⟩
        exact ⟨s :: fs, rfl, by simpa using ⟨fun h => hs h.symm, hn⟩⟩
      · rintro ⟨fs, h, hn⟩
        cases fs with
        | nil => cases h; exact absurd rfl hs
        | cons f fs => cases h; exact ⟨fs, rfl, fun h => hn (List.mem_cons_of_mem _ h)⟩

theorem Lib.aliases_iff (p p' as : List Str) (hp : ∃ q, p' = str! "DRAW" :: q) : parseAliases p = .ok (as, p') ↔
    ∃ ls, p = ls ++ p' ∧ AliasLines ls as := by
  obtain ⟨q, rfl⟩ := hp
  constructor
  · intro h
    unfold parseAliases at h
    obtain ⟨s, hs, h⟩ := Res.bind_eq_ok.1 h
    cases p with
    | nil => cases hs
    | cons t p =>
      cases hs
      split at h
      · rename_i ha
        obtain ⟨r, rfl⟩ := List.isPrefixOf_iff_prefix.1 ha
        obtain ⟨v, hv, h⟩ := Res.bind_eq_ok.1 h
        simp only [Res.ok.injEq, Prod.mk.injEq] at h
        obtain ⟨rfl, h'⟩ := h
        refine ⟨[_], ?_, .inr ⟨r, v, rfl, (C74_split ..).1 hv, List.drop_one⟩⟩
        rw [← h']; rfl
      · cases h
        exact ⟨[], rfl, .inl ⟨rfl, rfl⟩⟩
  · rintro ⟨ls, rfl, ⟨rfl, rfl⟩ | ⟨r, ws, rfl, hw, rfl⟩⟩
    · rfl
    · have hw := (C74_split ..).2 hw
      have hs : startsWith (str! "ALIAS" ++ r) (str! "ALIAS") = true := List.isPrefixOf_iff_prefix.2 ⟨r, rfl⟩
      simp only [parseAliases, List.cons_append, List.nil_append, here] at hw hs ⊢
      simp [hs, hw, next]

theorem Lib.assume_iff (e : Str) (p p' : List Str) : assumeLine e p = .ok p' ↔ p = e :: p' := by
  constructor
  · intro h
    cases p with
    | nil => cases h
    | cons s p =>
      rw [assumeLine] at h
      split at h
      · cases h
      · rename_i hs
        cases h
        rw [Decidable.not_not.1 hs]
  · rintro rfl
    simp [assumeLine]

/-- Reading a symbol up to its last line. -/
theorem Lib.symbol_run (b w : List Str) (s : Symbol F) (h : SymbolLines (b ++ [str! "#"]) s) :
    parseSymbol (b ++ w) = (assumeLine (str! "#") w >>= fun p => .ok (s, p)) := by
  obtain ⟨heading, l, ls, fil, as, dl, hb, hdef, hf, hfil, ha, hd⟩ := h
  have hb : b = heading :: str! "#" :: l :: (ls ++ fil ++ as ++ str! "DRAW" :: dl ++ [str! "ENDDRAW", str! "ENDDEF"]) := by
    refine List.append_cancel_right (bs := [str! "#"]) ?_
    rw [hb]; simp
  subst hb
  obtain ⟨t, ht, e⟩ := (Lib.def_iff ..).2 hdef
  have hd1 := (Lib.draws_iff [] s.draw (dl ++ str! "ENDDRAW" :: str! "ENDDEF" :: w)
    (str! "ENDDEF" :: w)).2 ⟨dl, s.draw, rfl, hd, .inl rfl⟩
  generalize hq : str! "DRAW" :: (dl ++ str! "ENDDRAW" :: str! "ENDDEF" :: w) = q
  have ha1 := (Lib.aliases_iff (as ++ q) q s.aliases ⟨_, hq.symm⟩).2 ⟨as, rfl, ha⟩
  have hhd : ∃ c r u, as ++ q = (c :: r) :: u ∧ c ≠ 'F' ∧ c ≠ '$' := by
    rcases ha with ⟨rfl, _⟩ | ⟨r, ws, rfl, _⟩
    · exact ⟨_, _, _, hq.symm, by decide, by decide⟩
    · exact ⟨_, _, _, rfl, by decide, by decide⟩
  obtain ⟨c, r, u, hu, hc, hc'⟩ := hhd
  have hfil1 : ∃ h, here (fil ++ (as ++ q)) = .ok h ∧
      (if h = str! "$FPLIST" then skipFplist (next (fil ++ (as ++ q))) else fil ++ (as ++ q)) = as ++ q ∧
      ∃ c r u, fil ++ (as ++ q) = (c :: r) :: u ∧ c ≠ 'F' := by
    rcases hfil with rfl | ⟨fs, rfl, hn⟩
    · rw [hu]
      refine ⟨_, rfl, ?_, _, _, _, rfl, hc⟩
      rw [if_neg (fun h => hc' (List.cons.inj h).1)]
      rfl
    · refine ⟨_, rfl, ?_, _, _, _, rfl, by decide⟩
      rw [if_pos rfl, Lib.skip_iff _ _ (by rw [hu]; simp)]
      exact ⟨fs, by simp [next], hn⟩
  obtain ⟨h, hh, hfil2, hfil3⟩ := hfil1
  have hf1 := (Lib.fields_iff [] s.fields (ls ++ (fil ++ (as ++ q))) (fil ++ (as ++ q))).2 ⟨ls, s.fields, rfl, rfl, hf, hfil3⟩
  have hw' : (heading :: str! "#" :: l :: (ls ++ fil ++ as ++ str! "DRAW" :: dl ++
      [str! "ENDDRAW", str! "ENDDEF"])) ++ w = heading :: str! "#" :: l :: (ls ++ (fil ++ (as ++ q))) := by
    rw [← hq]; simp
  rw [hw']
  unfold parseSymbol
  rw [show next (heading :: str! "#" :: l :: (ls ++ (fil ++ (as ++ q)))) = str! "#" :: l :: (ls ++ (fil ++ (as ++ q)))
    from rfl, (Lib.assume_iff ..).2 rfl, Res.bind_ok]
  rw [show here (l :: (ls ++ (fil ++ (as ++ q)))) = .ok l from rfl, Res.bind_ok, ht, Res.bind_ok]
  rw [show next (l :: (ls ++ (fil ++ (as ++ q)))) = ls ++ (fil ++ (as ++ q)) from rfl, hf1, Res.bind_ok]
  simp only [hh, Res.bind_ok, hfil2, ha1, (Lib.assume_iff ..).2 hq.symm, hd1, (Lib.assume_iff ..).2 rfl]
  rw [← e]

theorem Lib.symbol_iff (p p' : List Str) (s : Symbol F) : parseSymbol p = .ok (s, p') ↔
    ∃ ls, p = ls ++ p' ∧ SymbolLines ls s := by
  constructor
  · intro h
    unfold parseSymbol at h
    obtain ⟨p1, h1, h⟩ := Res.bind_eq_ok.1 h
    rw [Lib.assume_iff] at h1
    obtain ⟨l, hl, h⟩ := Res.bind_eq_ok.1 h
    obtain ⟨t, ht, h⟩ := Res.bind_eq_ok.1 h
    obtain ⟨⟨fields, p2⟩, hf, h⟩ := Res.bind_eq_ok.1 h
    obtain ⟨ls, gs, h2, e2, h3, c, r, q, rfl, hc⟩ := (Lib.fields_iff ..).1 hf
    dsimp only at h
    obtain ⟨hd, hh, h⟩ := Res.bind_eq_ok.1 h
    cases hh
    obtain ⟨⟨as, p3⟩, ha, h⟩ := Res.bind_eq_ok.1 h
    obtain ⟨p4, h4, h⟩ := Res.bind_eq_ok.1 h
    rw [Lib.assume_iff] at h4
    subst h4
    obtain ⟨as', ha1, ha2⟩ := (Lib.aliases_iff _ _ _ ⟨_, rfl⟩).1 ha
    obtain ⟨⟨ds, p5⟩, hd, h⟩ := Res.bind_eq_ok.1 h
    dsimp only at h
    obtain ⟨p6, h6, h⟩ := Res.bind_eq_ok.1 h
    rw [Lib.assume_iff] at h6
    obtain ⟨p7, h7, h⟩ := Res.bind_eq_ok.1 h
    rw [Lib.assume_iff] at h7
    subst h7
    subst h6
    obtain ⟨dl, dg, rfl, hd1, hd2 | ⟨_, hd2⟩⟩ := (Lib.draws_iff ..).1 hd
    · cases h
      have hfil : ∃ fil, (c :: r) :: q = fil ++ as' ++ str! "DRAW" :: p4 ∧ FilterLines fil := by
        split at ha1
        · rename_i e
          rw [Lib.skip_iff _ _ (by simp)] at ha1
          obtain ⟨fs, hq, hn⟩ := ha1
          refine ⟨str! "$FPLIST" :: fs ++ [str! "$ENDFPLIST"], ?_, .inr ⟨fs, rfl, hn⟩⟩
          rw [e]
          simp only [next, List.drop_succ_cons, List.drop_zero] at hq
          rw [hq]
          simp
        · exact ⟨[], by simpa using ha1, .inl rfl⟩
      obtain ⟨fil, hq, hfil⟩ := hfil
      subst hd2
      cases p1 with
      | nil => cases hl
      | cons x p1 =>
        cases hl
        simp only [next, List.drop_succ_cons, List.drop_zero] at h2 h1
        subst h2
        cases p with
        | nil => simp at h1
        | cons heading p =>
          simp only [List.drop_succ_cons, List.drop_zero] at h1
          subst h1
          simp only [List.nil_append] at e2
          subst e2
          refine ⟨heading :: str! "#" :: l :: (ls ++ fil ++ as' ++ str! "DRAW" :: dl ++
            [str! "ENDDRAW", str! "ENDDEF", str! "#"]), ?_, heading, l, ls, fil, as', dl, rfl, ?_, h3, hfil, ha2, ?_⟩
          · rw [hq]; simp
          · exact (Lib.def_iff ..).1 ⟨t, ht, rfl⟩
          · simpa using hd1
    · simp at hd2
  · rintro ⟨ls, rfl, h⟩
    obtain ⟨b, rfl⟩ : ∃ b, ls = b ++ [str! "#"] := by
      obtain ⟨heading, l, ls, fil, as, dl, rfl, _⟩ := h
      exact ⟨heading :: str! "#" :: l :: (ls ++ fil ++ as ++ str! "DRAW" :: dl ++ [str! "ENDDRAW", str! "ENDDEF"]), by simp⟩
    rw [List.append_assoc, Lib.symbol_run b _ s h, List.cons_append, (Lib.assume_iff ..).2 rfl]
    rfl

theorem Lib.symbols_iff (n : Nat) (acc r : List (Symbol F)) (p : List Str) (hn : p.length ≤ n) :
    parseSymbols n acc p = .ok r ↔ ∃ ss, r = acc ++ ss ∧ SymbolList p ss := by
  induction n generalizing acc p with
  | zero =>
    cases p with
    | cons => simp at hn
    | nil =>
      simp only [parseSymbols, Res.ok.injEq]
      constructor
      · rintro rfl; exact ⟨[], by simp, .eof⟩
      · rintro ⟨ss, rfl, h⟩
        generalize e : ([] : List Str) = p at h
        cases h with
        | eof => simp
        | mark => cases e
        | symbol hs _ _ =>
          obtain ⟨_, _, _, _, _, _, rfl, _⟩ := hs
          simp at e
  | succ n ih =>
    cases p with
    | nil =>
      simp only [parseSymbols, Res.ok.injEq]
      constructor
      · rintro rfl; exact ⟨[], by simp, .eof⟩
      · rintro ⟨ss, rfl, h⟩
        generalize e : ([] : List Str) = p at h
        cases h with
        | eof => simp
        | mark => cases e
        | symbol hs _ _ =>
          obtain ⟨_, _, _, _, _, _, rfl, _⟩ := hs
          simp at e
    | cons l p =>
      rw [parseSymbols]
      constructor
      · intro h
        split at h
        · rename_i e
          cases h
          subst e
          exact ⟨[], by simp, .mark⟩
        · rename_i hl
          obtain ⟨⟨s, q⟩, hs, h⟩ := Res.bind_eq_ok.1 h
          obtain ⟨a, ha, hs⟩ := (Lib.symbol_iff ..).1 hs
          have hne : a.head? = some l := by
            obtain ⟨_, _, _, _, _, _, rfl, _⟩ := hs
            cases ha; rfl
          have hlen : q.length ≤ n := by
            have := congrArg List.length ha
            have : 0 < a.length := by cases a <;> simp_all
            simp at *
            omega
          obtain ⟨ss, rfl, hss⟩ := (ih _ _ hlen).1 h
          refine ⟨s :: ss, by simp, ?_⟩
          rw [ha]
          exact .symbol hs (by rw [hne]; simpa using hl) hss
      · rintro ⟨ss, rfl, h⟩
        generalize e : l :: p = w at h
        cases h with
        | eof => cases e
        | mark => cases e; simp
        | @symbol a b s ss hs hh hr =>
          have ha : a.head? = some l := by
            obtain ⟨_, _, _, _, _, _, rfl, _⟩ := hs
            cases e; rfl
          have hlen : b.length ≤ n := by
            have := congrArg List.length e
            have : 0 < a.length := by cases a <;> simp_all
            simp at *
            omega
          rw [if_neg (by rw [ha] at hh; simpa using hh), (Lib.symbol_iff _ b s).2 ⟨a, rfl, hs⟩, Res.bind_ok]
          exact (ih _ _ hlen).2 ⟨ss, by simp, hr⟩

/-- **C75.** A text is read as a symbol library exactly if its lines follow the
grammar, and then the library is the one the lines stand for. -/
theorem C75_grammar (t : Str) (l : SymbolLib F) : parseStr t = .ok l ↔ LibraryLines (lines t) l := by
  unfold parseStr parseLines
  simp only [Res.bind_eq_ok, Lib.assume_iff]
  constructor
  · rintro ⟨p1, h1, p2, rfl, p3, rfl, ss, h, e⟩
    obtain ⟨_, rfl, h⟩ := (Lib.symbols_iff _ _ _ _ (Nat.le_refl _)).1 h
    cases e
    exact ⟨p3, h1, h⟩
  · rintro ⟨body, h1, h⟩
    exact ⟨_, h1, _, rfl, _, rfl, l.symbols, (Lib.symbols_iff _ _ _ _ (Nat.le_refl _)).2 ⟨_, rfl, h⟩, rfl⟩

/-- Every reading of a library file is unique: the lines stand for one library. -/
theorem C75_unique (t : Str) (l m : SymbolLib F) (hl : LibraryLines (lines t) l) (hm : LibraryLines (lines t) m) : l = m := by
  rw [← C75_grammar] at hl hm
  simpa [hl] using hm

/-- Integers in files are read as what they stand for, or not at all. -/
theorem C75_integers (w : Str) (i : Int) : i64FromStr w = some i ↔ IntWord w i := i64FromStr_iff w i

/-- A library of one resistor with all kinds of lines. -/
def Spec.resistorText : Str := str! "EESchema-LIBRARY Version 2.3\n#encoding utf-8\n#\n# R\n#\nDEF R R 0 0 N Y 1 F N\nF0 \"R\" 80 0 50 V V C CNN\nF4 \"a b\" 0 -7 50 H I L BIB \"Note\"\n$FPLIST\n R_*\n$ENDFPLIST\nALIAS RES RR\nDRAW\nS -40 -100 40 100 0 1 10 N\nX ~ 1 0 150 50 D 50 50 1 1 P\nX VCC 2 0 -150 50 U 50 50 1 1 W NC\nP 2 0 1 0 0 0 1 1 N\nENDDRAW\nENDDEF\n#\n#End Library\n"

/-- It is read as what it stands for ... -/
example : LibraryLines (F := Nm) (lines resistorText) ⟨[{
    name := str! "R", reference := str! "R", textOffset := ⟨0⟩, drawPinnumber := false, drawPinname := true, unitCount := 1,
    unitLocked := false, isPower := false,
    fields := [⟨0, str! "R", ⟨80000000⟩, ⟨0⟩, 50, .vertical, true, .center, .center, false, false, str! "Reference"⟩,
      ⟨4, str! "a b", ⟨0⟩, ⟨-7000000⟩, 50, .horizontal, false, .left, .bottom, true, true, str! "Note"⟩],
    aliases := [str! "RES", str! "RR"],
    draw := [.rectangle ⟨-40, -100, 40, 100, 0, 1, 10, .transparent⟩,
      .pin ⟨str! "~", str! "1", 0, 150, 50, .down, 50, 50, 1, 1, .passive, true, .line⟩,
      .pin ⟨str! "VCC", str! "2", 0, -150, 50, .up, 50, 50, 1, 1, .powerInput, false, .clock⟩,
      .other (str! "P 2 0 1 0 0 0 1 1 N")] }]⟩ :=
  (C75_grammar ..).1 (by decide +kernel)

/-- ... and a file without the end of the drawing is no library at all. -/
example : ¬ ∃ l : SymbolLib Nm, LibraryLines (lines (str! "EESchema-LIBRARY Version 2.3\n#encoding utf-8\n#\n# R\n#\nDEF R R 0 0 N Y 1 F N\nDRAW\nENDDEF\n#\n#End Library\n")) l := by
  rintro ⟨l, h⟩
  rw [← C75_grammar] at h
  have : parseStr (F := Nm) (str! "EESchema-LIBRARY Version 2.3\n#encoding utf-8\n#\n# R\n#\nDEF R R 0 0 N Y 1 F N\nDRAW\nENDDEF\n#\n#End Library\n") = .err .other := by
    decide +kernel
  rw [this] at h
  cases h

example : IntWord (str! "-0042") (-42) := (C75_integers ..).1 (by decide +kernel)

end Verif
