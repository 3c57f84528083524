import Verif.Spec.SymbolFile
import Verif.Lemmas.SchCodec
/-!
# Reading back what the symbol library writer writes
-/

namespace Verif.Lib
open Verif Flt Spec
open Verif.Sch (here next assumeLine charAt i64R f64R boolFrom assumeString idx Orientation Justify
  idx_zero idx_succ i64R_showInt f64R_toStr word_orientation word_justify startsWith_iff)

set_option linter.unusedSectionVars false

variable {F : Type} [Flt F] [TextLaws F]

/-! ### What the reader guarantees -/

/-- What the reader guarantees for a field, from lines without the character `ch`. -/
def ReadFieldBut (ch : Char) (f : Field F) : Prop :=
  inI64 f.i ∧ inI64 f.dimension ∧ QuotBut ch f.value ∧ QuotBut ch f.name

/-- What the reader guarantees for a pin. -/
def ReadPinBut (ch : Char) (p : Pin) : Prop :=
  QuotBut ch p.name ∧ QuotBut ch p.number ∧ inI64 p.x ∧ inI64 p.y ∧ inI64 p.len ∧ inI64 p.numSize ∧
  inI64 p.nameSize ∧ inI64 p.unit ∧ inI64 p.convert

/-- What the reader guarantees for a drawing. -/
def ReadDrawBut (ch : Char) : Draw → Prop
  | .pin p => ReadPinBut ch p
  | .rectangle r => FitsRect r
  | .other s => ch ∉ s ∧ startsWith s (str! "X ") = false ∧ startsWith s (str! "S ") = false ∧ s ≠ str! "ENDDRAW"

/-- What the reader guarantees for a symbol. -/
def ReadSymbolBut (ch : Char) (s : Symbol F) : Prop :=
  QuotBut ch s.name ∧ QuotBut ch s.reference ∧ inI64 s.unitCount ∧
  (∀ f ∈ s.fields, ReadFieldBut ch f) ∧ (∀ a ∈ s.aliases, QuotBut ch a) ∧ (∀ d ∈ s.draw, ReadDrawBut ch d)

abbrev ReadField (f : Field F) : Prop := ReadFieldBut '\n' f
abbrev ReadPin (p : Pin) : Prop := ReadPinBut '\n' p
abbrev ReadDraw (d : Draw) : Prop := ReadDrawBut '\n' d
abbrev ReadSymbol (s : Symbol F) : Prop := ReadSymbolBut '\n' s

theorem read_of_line {s : Symbol F} (h : LineSymbol s) : ReadSymbol s := by
  obtain ⟨h1, h2, h3, h4, h5, h6, h7⟩ := h
  refine ⟨h1.2.1, h2.2.1, h3, fun f hf => ?_, fun a ha => (h6 a ha).2.1, fun d hd => ?_⟩
  · obtain ⟨_, a1, a2, a3, a4, _⟩ := h5 f hf
    exact ⟨a1, a2, a3, a4⟩
  · have := h7 d hd
    cases d with
    | pin p => exact ⟨this.1.2.1, this.2.1.2.1, this.2.2⟩
    | rectangle r => exact this
    | other s => exact this

/-! ### Fields -/

def Field.fword (f : Field F) : Str := 'F' :: showInt f.i

/-- The words of a field line. -/
def Field.toks (f : Field F) : List Str :=
  [f.fword, f.value, toStr f.x, toStr f.y, showInt f.dimension, f.orientation.show,
   (if f.visible then str! "V" else str! "I"), f.hjustify.show,
   f.vjustify.show ++ (if f.italic then str! "I" else str! "N") ++ (if f.bold then str! "I" else str! "N")] ++
  (if f.i > 3 then [f.name] else [])

theorem word_style (j : Justify) (a b : Bool) :
    Word (j.show ++ (if a then str! "I" else str! "N") ++ (if b then str! "I" else str! "N")) := by
  cases j <;> cases a <;> cases b <;> decide
theorem word_visible (a : Bool) : Word (if a then str! "V" else str! "I") := by
  cases a <;> decide

theorem word_fword (f : Field F) : Word f.fword := by
  refine (lastWord_of_chars (cs := 'F' :: intChars) (by simp [Field.fword]) ?_ (by decide)).1
  intro c hc
  rcases List.mem_cons.1 hc with rfl | hc
  · simp
  · exact List.mem_cons_of_mem _ (showInt_chars _ c hc)

theorem Field.words (f : Field F) (hv : Quotable f.value) (hn : Quotable f.name) : Words f.toks f.show := by
  unfold Field.toks Field.show
  simp only [List.append_assoc, List.cons_append, List.nil_append]
  refine Words.bare (word_fword f) ?_
  refine Words.quoted hv.2 ?_
  refine Words.bare (word_toStr _) ?_
  refine Words.bare (word_toStr _) ?_
  refine Words.bare (word_showInt _) ?_
  refine Words.bare (word_orientation _) ?_
  refine Words.bare (word_visible _) ?_
  refine Words.bare (word_justify _) ?_
  have hs := word_style f.vjustify f.italic f.bold
  simp only [List.append_assoc] at hs
  by_cases hi : f.i > 3
  · simp only [hi, if_true]
    have := Words.bare hs (Words.quoted1 hn.2)
    simpa only [List.append_assoc, List.cons_append, List.nil_append] using this
  · simp only [hi, if_false, List.append_nil]
    exact Words.bare1 hs

/-- A field line is read back, unless it is bold. -/
theorem parseField_show (f : Field F) (h : FitsSymField f) :
    parseField f.show = if f.bold then .err .other else .ok f := by
  have hw := (f.words h.2.2.2.1 h.2.2.2.2.1).splitQ
  rw [parseField, hw]
  clear hw
  obtain ⟨h0, hi, hs, _, _, h1, h2, h3, h4⟩ := h
  obtain ⟨i, value, x, y, size, orientation, visible, hj, vj, italic, bold, name⟩ := f
  simp only at h0 hi hs h1 h2 h3 h4
  have hsty : ∃ a b c, vj.show ++ (if italic then str! "I" else str! "N") ++
      (if bold then str! "I" else str! "N") = [a, b, c] ∧ Justify.new a = .ok vj ∧
      boolFrom b 'I' 'N' = .ok italic ∧
      boolFrom c 'B' 'N' = if bold then .err .other else .ok bold := by
    cases vj <;> cases italic <;> cases bold <;> exact ⟨_, _, _, rfl, rfl, rfl, rfl⟩
  obtain ⟨a, b, c, he, hja, hjb, hjc⟩ := hsty
  have hor : (charAt orientation.show 0 >>= Orientation.new) = .ok orientation := by
    cases orientation <;> rfl
  have hvis : boolFrom (if visible then str! "V" else str! "I") (str! "V") (str! "I") =
      .ok visible := by cases visible <;> rfl
  have hhj : (charAt hj.show 0 >>= Justify.new) = .ok hj := by cases hj <;> rfl
  simp only [Field.toks, he, Field.fword]
  by_cases h3' : i > 3
  · simp only [h3', if_true, List.cons_append, List.nil_append, List.length_cons, List.length_nil,
      Nat.reduceAdd, ne_eq, Nat.reduceEqDiff, not_true, not_false_eq_true, and_false, if_false,
      idx_zero, idx_succ, Res.bind_ok, i64R_showInt hi, i64R_showInt hs, f64R_toStr, hvis, List.drop_succ_cons,
      List.drop_zero]
    rw [← Res.bind_assoc (charAt _ _), hor, Res.bind_ok, ← Res.bind_assoc (charAt _ _), hhj, Res.bind_ok]
    simp only [charAt, List.getElem?_cons_zero, List.getElem?_cons_succ, Res.bind_ok, hja, hjb, hjc]
    clear he hjc
    cases bold <;> simp
  · have hi4 : i = 0 ∨ i = 1 ∨ i = 2 ∨ i = 3 := by omega
    rcases hi4 with h | h | h | h
    · obtain rfl := h1 h
      clear h1 h2 h3 h4
      simp only [h3', if_false, List.cons_append, List.nil_append, List.length_cons, List.length_nil,
        Nat.reduceAdd, ne_eq, Nat.reduceEqDiff, not_true, not_false_eq_true, false_and, if_false,
        idx_zero, idx_succ, Res.bind_ok, i64R_showInt hi, i64R_showInt hs, f64R_toStr,
        hvis, if_pos h, List.drop_succ_cons, List.drop_zero]
      rw [← Res.bind_assoc (charAt _ _), hor, Res.bind_ok, ← Res.bind_assoc (charAt _ _), hhj, Res.bind_ok]
      simp only [charAt, List.getElem?_cons_zero, List.getElem?_cons_succ, Res.bind_ok, hja, hjb, hjc]
      clear he hjc
      cases bold <;> simp
    · obtain rfl := h2 h
      have e0 : ¬ i = 0 := by omega
      clear h1 h2 h3 h4
      simp only [h3', if_false, List.cons_append, List.nil_append, List.length_cons, List.length_nil,
        Nat.reduceAdd, ne_eq, Nat.reduceEqDiff, not_true, not_false_eq_true, false_and, if_false,
        idx_zero, idx_succ, Res.bind_ok, i64R_showInt hi, i64R_showInt hs, f64R_toStr,
        hvis, if_neg e0, if_pos h, List.drop_succ_cons, List.drop_zero]
      rw [← Res.bind_assoc (charAt _ _), hor, Res.bind_ok, ← Res.bind_assoc (charAt _ _), hhj, Res.bind_ok]
      simp only [charAt, List.getElem?_cons_zero, List.getElem?_cons_succ, Res.bind_ok, hja, hjb, hjc]
      clear he hjc
      cases bold <;> simp
    · obtain rfl := h3 h
      have e0 : ¬ i = 0 := by omega
      have e1 : ¬ i = 1 := by omega
      clear h1 h2 h3 h4
      simp only [h3', if_false, List.cons_append, List.nil_append, List.length_cons, List.length_nil,
        Nat.reduceAdd, ne_eq, Nat.reduceEqDiff, not_true, not_false_eq_true, false_and, if_false,
        idx_zero, idx_succ, Res.bind_ok, i64R_showInt hi, i64R_showInt hs, f64R_toStr,
        hvis, if_neg e0, if_neg e1, if_pos h, List.drop_succ_cons, List.drop_zero]
      rw [← Res.bind_assoc (charAt _ _), hor, Res.bind_ok, ← Res.bind_assoc (charAt _ _), hhj, Res.bind_ok]
      simp only [charAt, List.getElem?_cons_zero, List.getElem?_cons_succ, Res.bind_ok, hja, hjb, hjc]
      clear he hjc
      cases bold <;> simp
    · obtain rfl := h4 h
      have e0 : ¬ i = 0 := by omega
      have e1 : ¬ i = 1 := by omega
      have e2 : ¬ i = 2 := by omega
      clear h1 h2 h3 h4
      simp only [h3', if_false, List.cons_append, List.nil_append, List.length_cons, List.length_nil,
        Nat.reduceAdd, ne_eq, Nat.reduceEqDiff, not_true, not_false_eq_true, false_and, if_false,
        idx_zero, idx_succ, Res.bind_ok, i64R_showInt hi, i64R_showInt hs, f64R_toStr,
        hvis, if_neg e0, if_neg e1, if_neg e2, if_pos h, List.drop_succ_cons, List.drop_zero]
      rw [← Res.bind_assoc (charAt _ _), hor, Res.bind_ok, ← Res.bind_assoc (charAt _ _), hhj, Res.bind_ok]
      simp only [charAt, List.getElem?_cons_zero, List.getElem?_cons_succ, Res.bind_ok, hja, hjb, hjc]
      clear he hjc
      cases bold <;> simp

theorem Field.oneLine (f : Field F) (hv : Quotable f.value) (hn : Quotable f.name) : OneLine f.show := by
  refine ⟨(f.words hv hn).noLf ?_, ?_⟩
  · have h1 := (word_fword f).noLf
    have h2 := (word_showInt f.dimension).noLf
    have h3 := (word_toStr f.x).noLf
    have h4 := (word_toStr f.y).noLf
    unfold Field.toks
    intro w hw
    rw [List.mem_append] at hw
    rcases hw with hw | hw
    · simp only [List.mem_cons, List.not_mem_nil, or_false] at hw
      rcases hw with rfl | rfl | rfl | rfl | rfl | rfl | rfl | rfl | rfl
      · exact h1
      · exact hv.1
      · exact h3
      · exact h4
      · exact h2
      · exact (word_orientation _).noLf
      · exact (word_visible _).noLf
      · exact (word_justify _).noLf
      · exact (word_style _ _ _).noLf
    · split at hw
      · rw [List.mem_singleton] at hw; subst hw; exact hn.1
      · cases hw
  · unfold Field.show
    by_cases hi : f.i > 3
    · simp only [hi, if_true]
      rw [← List.append_assoc, endsLine_append _ (by decide)]
      decide
    · simp only [hi, if_false, List.append_nil]
      rw [endsLine_append _ (by cases f.bold <;> decide)]
      cases f.bold <;> decide

theorem parseFields_show (acc fs : List (Field F)) (h : ∀ f ∈ fs, FitsSymField f) (c : Char) (l : Str)
    (hc : c ≠ 'F') (rest : List Str) :
    parseFields acc (fs.map Field.show ++ (c :: l) :: rest) =
      if fs.any (·.bold) then .err .other else .ok (acc ++ fs, (c :: l) :: rest) := by
  induction fs generalizing acc with
  | nil => simp [parseFields, charAt, hc]
  | cons f fs ih =>
    rw [List.forall_mem_cons] at h
    have hch : charAt f.show 0 = .ok 'F' := by
      unfold charAt Field.show
      simp only [List.append_assoc, List.cons_append, List.nil_append, List.getElem?_cons_zero]
    rw [List.map_cons, List.cons_append, parseFields, hch, Res.bind_ok, if_pos rfl, parseField_show f h.1]
    cases hb : f.bold with
    | true => simp [hb]
    | false => simp [hb, ih _ h.2]

/-! ### Drawings -/

/-- One step of a sequence of reads. -/
local macro "bstep " e:term : tactic => `(tactic| refine Res.bind_eq_ok.2 ⟨_, $e, ?_⟩)

theorem word_pinOrientation (o : PinOrientation) : Word o.show := by cases o <;> decide
theorem word_pinType (o : PinType) : Word o.show := by cases o <;> decide
theorem word_fill (o : Fill) : Word o.show := by cases o <;> decide

/-- The last, optional word of a pin line. -/
def Pin.tail (p : Pin) : List Str :=
  if p.pinVisible then if p.pinShape ≠ .line then [p.pinShape.show] else []
  else [str! "N" ++ p.pinShape.show]

def Pin.toks (p : Pin) : List Str :=
  [str! "X", p.name, p.number, showInt p.x, showInt p.y, showInt p.len, p.orientation.show, showInt p.numSize,
   showInt p.nameSize, showInt p.unit, showInt p.convert, p.pinType.show] ++ p.tail

theorem Pin.words (p : Pin) (h : FitsPin p) : Words p.toks p.show := by
  unfold Pin.toks Pin.show
  simp only [List.append_assoc, List.cons_append, List.nil_append]
  refine Words.bare (w := str! "X") (by decide) ?_
  refine Words.bare h.1 ?_
  refine Words.bare h.2.1 ?_
  refine Words.bare (word_showInt _) ?_
  refine Words.bare (word_showInt _) ?_
  refine Words.bare (word_showInt _) ?_
  refine Words.bare (word_pinOrientation _) ?_
  refine Words.bare (word_showInt _) ?_
  refine Words.bare (word_showInt _) ?_
  refine Words.bare (word_showInt _) ?_
  refine Words.bare (word_showInt _) ?_
  unfold Pin.tail
  cases hv : p.pinVisible with
  | true =>
    by_cases hl : p.pinShape = .line
    · simp only [hl, ne_eq, not_true, if_true, if_false, List.append_nil]
      exact Words.bare1 (word_pinType _)
    · simp only [ne_eq, hl, not_false_eq_true, if_true]
      refine Words.bare (word_pinType _) (Words.bare1 ?_)
      revert hl
      cases p.pinShape <;> decide
  | false =>
    simp only [Bool.false_eq_true, if_false]
    refine Words.bare (word_pinType _) (Words.bare1 ?_)
    cases p.pinShape <;> decide

theorem parsePin_short {line n m t0 t3 t4 t5 t6 t7 t8 t9 t10 t11 : Str} {x y len ns nas u c : Int}
    {o : PinOrientation} {pt : PinType}
    (h : splitQ line = .ok [t0, n, m, t3, t4, t5, t6, t7, t8, t9, t10, t11])
    (h3 : i64R t3 = .ok x) (h4 : i64R t4 = .ok y) (h5 : i64R t5 = .ok len)
    (h6 : PinOrientation.make t6 = .ok o) (h7 : i64R t7 = .ok ns) (h8 : i64R t8 = .ok nas) (h9 : i64R t9 = .ok u)
    (h10 : i64R t10 = .ok c) (h11 : PinType.make t11 = .ok pt) :
    parsePin line = .ok ⟨n, m, x, y, len, o, ns, nas, u, c, pt, true, .line⟩ := by
  rw [parsePin]
  bstep h
  rw [if_neg (by simp)]
  bstep rfl
  bstep rfl
  bstep rfl
  bstep h3
  bstep rfl
  bstep h4
  bstep rfl
  bstep h5
  bstep rfl
  bstep h6
  bstep rfl
  bstep h7
  bstep rfl
  bstep h8
  bstep rfl
  bstep h9
  bstep rfl
  bstep h10
  bstep rfl
  bstep h11
  rw [if_neg (by simp)]

theorem parsePin_long {line n m t0 t3 t4 t5 t6 t7 t8 t9 t10 t11 t12 : Str} {x y len ns nas u c : Int}
    {o : PinOrientation} {pt : PinType} {sh : PinShape}
    (h : splitQ line = .ok [t0, n, m, t3, t4, t5, t6, t7, t8, t9, t10, t11, t12])
    (h3 : i64R t3 = .ok x) (h4 : i64R t4 = .ok y) (h5 : i64R t5 = .ok len)
    (h6 : PinOrientation.make t6 = .ok o) (h7 : i64R t7 = .ok ns) (h8 : i64R t8 = .ok nas) (h9 : i64R t9 = .ok u)
    (h10 : i64R t10 = .ok c) (h11 : PinType.make t11 = .ok pt)
    (h12 : PinShape.make t12 = .ok sh) :
    parsePin line = .ok ⟨n, m, x, y, len, o, ns, nas, u, c, pt, visibleFromStr t12, sh⟩ := by
  rw [parsePin]
  bstep h
  rw [if_neg (by simp)]
  bstep rfl
  bstep rfl
  bstep rfl
  bstep h3
  bstep rfl
  bstep h4
  bstep rfl
  bstep h5
  bstep rfl
  bstep h6
  bstep rfl
  bstep h7
  bstep rfl
  bstep h8
  bstep rfl
  bstep h9
  bstep rfl
  bstep h10
  bstep rfl
  bstep h11
  rw [if_pos (by simp)]
  bstep rfl
  bstep h12
  rfl

theorem parsePin_show (p : Pin) (h : FitsPin p) : parsePin p.show = .ok p := by
  have hw := (p.words h).splitQ
  obtain ⟨_, _, a1, a2, a3, a4, a5, a6, a7⟩ := h
  have h1 : PinOrientation.make p.orientation.show = .ok p.orientation := by cases p.orientation <;> rfl
  have h2 : PinType.make p.pinType.show = .ok p.pinType := by cases p.pinType <;> rfl
  unfold Pin.toks Pin.tail at hw
  cases hv : p.pinVisible with
  | true =>
    by_cases hl : p.pinShape = .line
    · rw [if_pos hv, if_neg (by simpa using hl)] at hw
      rw [parsePin_short hw (i64R_showInt a1) (i64R_showInt a2) (i64R_showInt a3) h1 (i64R_showInt a4)
        (i64R_showInt a5) (i64R_showInt a6) (i64R_showInt a7) h2, ← hv, ← hl]
    · have h3 : PinShape.make p.pinShape.show = .ok p.pinShape ∧ visibleFromStr p.pinShape.show = true := by
        revert hl; cases p.pinShape <;> decide
      rw [if_pos hv, if_pos hl] at hw
      rw [parsePin_long hw (i64R_showInt a1) (i64R_showInt a2) (i64R_showInt a3) h1 (i64R_showInt a4)
        (i64R_showInt a5) (i64R_showInt a6) (i64R_showInt a7) h2 h3.1, h3.2, ← hv]
  | false =>
    have h3 : PinShape.make (str! "N" ++ p.pinShape.show) = .ok p.pinShape ∧
        visibleFromStr (str! "N" ++ p.pinShape.show) = false := by
      cases p.pinShape <;> decide
    rw [if_neg (by rw [hv]; decide)] at hw
    rw [parsePin_long hw (i64R_showInt a1) (i64R_showInt a2) (i64R_showInt a3) h1 (i64R_showInt a4)
      (i64R_showInt a5) (i64R_showInt a6) (i64R_showInt a7) h2 h3.1, h3.2, ← hv]

theorem Rectangle.words (r : Rectangle) :
    Words [str! "S", showInt r.x1, showInt r.y1, showInt r.x2, showInt r.y2, showInt r.unit, showInt r.convert,
      showInt r.thickness, r.fill.show] r.show := by
  unfold Rectangle.show
  simp only [List.append_assoc, List.cons_append, List.nil_append]
  refine Words.bare (w := str! "S") (by decide) ?_
  iterate 7 refine Words.bare (word_showInt _) ?_
  exact Words.bare1 (word_fill _)

theorem parseRect_show (r : Rectangle) (h : FitsRect r) : parseRect r.show = .ok r := by
  have hw := r.words.splitQ
  obtain ⟨a1, a2, a3, a4, a5, a6, a7⟩ := h
  have h1 : Fill.make r.fill.show = .ok r.fill := by cases r.fill <;> rfl
  rw [parseRect]
  bstep hw
  rw [if_neg (by simp)]
  bstep rfl
  bstep (i64R_showInt a1)
  bstep rfl
  bstep (i64R_showInt a2)
  bstep rfl
  bstep (i64R_showInt a3)
  bstep rfl
  bstep (i64R_showInt a4)
  bstep rfl
  bstep (i64R_showInt a5)
  bstep rfl
  bstep (i64R_showInt a6)
  bstep rfl
  bstep (i64R_showInt a7)
  bstep rfl
  bstep h1
  rfl

theorem startsWith_self (w t : Str) : startsWith (w ++ t) w = true := (startsWith_iff _ _).2 ⟨t, rfl⟩

theorem parseDrawLine_show (d : Draw) (h : LineDraw d) : parseDrawLine d.show = .ok d := by
  cases d with
  | pin p =>
    have hx : startsWith p.show (str! "X ") = true := by
      unfold Pin.show
      simp only [List.append_assoc]
      exact startsWith_self (str! "X ") _
    simp [parseDrawLine, Draw.show, hx, parsePin_show p h]
  | rectangle r =>
    have hx : startsWith r.show (str! "S ") = true := by
      unfold Rectangle.show
      simp only [List.append_assoc]
      exact startsWith_self (str! "S ") _
    have hx2 : startsWith r.show (str! "X ") = false := by
      unfold Rectangle.show
      simp only [List.append_assoc, List.cons_append, List.nil_append]
      generalize showInt r.x1 ++ _ = t
      rfl
    simp [parseDrawLine, Draw.show, hx, hx2, parseRect_show r h]
  | other s => simp [parseDrawLine, Draw.show, h.2.1, h.2.2.1]

theorem Draw.show_ne (d : Draw) (h : LineDraw d) : d.show ≠ str! "ENDDRAW" := by
  cases d with
  | pin p =>
    intro h'
    have h2 := congrArg List.head? h'
    unfold Draw.show Pin.show at h2
    simp only [List.append_assoc, List.cons_append, List.nil_append, List.head?_cons] at h2
    exact absurd h2 (by decide)
  | rectangle r =>
    intro h'
    have h2 := congrArg List.head? h'
    unfold Draw.show Rectangle.show at h2
    simp only [List.append_assoc, List.cons_append, List.nil_append, List.head?_cons] at h2
    exact absurd h2 (by decide)
  | other s => exact h.2.2.2

theorem parseDraws_show (acc ds : List Draw) (h : ∀ d ∈ ds, LineDraw d) (rest : List Str) :
    parseDraws acc (ds.map Draw.show ++ str! "ENDDRAW" :: rest) = .ok (acc ++ ds, rest) := by
  induction ds generalizing acc with
  | nil => simp [parseDraws]
  | cons d ds ih =>
    rw [List.forall_mem_cons] at h
    rw [List.map_cons, List.cons_append, parseDraws, if_neg (d.show_ne h.1), parseDrawLine_show d h.1,
      Res.bind_ok, ih _ h.2]
    simp

theorem Rectangle.oneLine (r : Rectangle) : OneLine r.show := by
  have hi := fun (x : Int) => (word_showInt x).noLf
  refine r.words.oneLine ?_ ?_
  · simp only [List.forall_mem_cons]
    exact ⟨by decide, hi _, hi _, hi _, hi _, hi _, hi _, hi _, (word_fill _).noLf, by simp⟩
  · intro w hw
    simp only [List.getLast?_cons_cons, List.getLast?_singleton, Option.mem_def, Option.some.injEq] at hw
    subst hw
    cases r.fill <;> decide

theorem Pin.endsLine (p : Pin) : EndsLine p.show := by
  unfold Pin.show
  cases p.pinVisible with
  | true =>
    by_cases hl : p.pinShape = .line
    · simp only [hl, ne_eq, not_true, if_false, if_true, List.append_nil]
      rw [endsLine_append _ (by cases p.pinType <;> decide)]
      cases p.pinType <;> decide
    · simp only [hl, ne_eq, not_false_eq_true, if_true]
      rw [endsLine_append _ (by simp)]
      cases p.pinShape <;> decide
  | false =>
    simp only [Bool.false_eq_true, if_false]
    rw [endsLine_append _ (by simp)]
    cases p.pinShape <;> decide

/-! ### Symbols -/

def aliasText (as : List Str) : Str := (as.map fun a => ' ' :: a).flatten

theorem aliasText_words (as : List Str) (h : ∀ a ∈ as, Word a) : ∀ w, Word w → Words (w :: as) (w ++ aliasText as) := by
  induction as with
  | nil => intro w hw; simpa [aliasText] using Words.bare1 hw
  | cons a as ih =>
    rw [List.forall_mem_cons] at h
    intro w hw
    have := Words.bare hw (ih h.2 a h.1)
    simpa [aliasText] using this

/-- The optional line of aliases. -/
def aliasLns (as : List Str) : List Str := if as.isEmpty then [] else [str! "ALIAS" ++ aliasText as]

theorem showAliases_eq (as : List Str) : showAliases as = unlines (aliasLns as) := by
  unfold showAliases aliasLns aliasText
  split <;> simp [unlines]

def Symbol.value (s : Symbol F) : Str := match s.fields[1]? with | some f => f.value | none => []

def Symbol.defLine (s : Symbol F) : Str :=
  str! "DEF " ++ s.name ++ str! " " ++ s.reference ++ str! " 0 " ++ toStr s.textOffset ++ str! " " ++
    (if s.drawPinnumber then str! "Y" else str! "N") ++ str! " " ++
    (if s.drawPinname then str! "Y" else str! "N") ++ str! " " ++
    showInt s.unitCount ++ str! " " ++
    (if s.unitLocked then str! "L" else str! "F") ++ str! " " ++
    (if s.isPower then str! "P" else str! "N")

def Symbol.body (s : Symbol F) : List Str :=
  s.defLine :: (s.fields.map Field.show ++ (aliasLns s.aliases ++ (str! "DRAW" :: (s.draw.map Draw.show ++
    [str! "ENDDRAW", str! "ENDDEF", str! "#"]))))

/-- The lines of a symbol, with any text in the comment line. -/
def Symbol.lnsWith (s : Symbol F) (v : Str) : List Str := (str! "# " ++ v) :: str! "#" :: s.body

def Symbol.lns (s : Symbol F) : List Str := s.lnsWith s.value

theorem Symbol.show_eq (s : Symbol F) (h : 2 ≤ s.fields.length) : s.show = .ok (unlines s.lns) := by
  obtain ⟨f1, hf⟩ : ∃ f1, s.fields[1]? = some f1 := ⟨s.fields[1], by simp⟩
  have h1 := Sch.unlines_map (Field.show (F := F)) s.fields
  have h2 := Sch.unlines_map Draw.show s.draw
  unfold Symbol.show Symbol.lns Symbol.lnsWith Symbol.body Symbol.value Symbol.defLine
  simp only [hf, unlines, unlines_append, h1, h2, showAliases_eq]
  simp only [List.append_assoc, List.cons_append, List.nil_append]

theorem Symbol.defWords (s : Symbol F) (h : LineSymbol s) :
    Words [str! "DEF", s.name, s.reference, str! "0", toStr s.textOffset,
      (if s.drawPinnumber then str! "Y" else str! "N"), (if s.drawPinname then str! "Y" else str! "N"),
      showInt s.unitCount, (if s.unitLocked then str! "L" else str! "F"),
      (if s.isPower then str! "P" else str! "N")] s.defLine := by
  have hb : ∀ (b : Bool) (c d : Char), Word [c] → Word [d] → Word (if b then [c] else [d]) := by
    intro b c d h1 h2; cases b
    · exact h2
    · exact h1
  unfold Symbol.defLine
  simp only [List.append_assoc, List.cons_append, List.nil_append]
  refine Words.bare (w := str! "DEF") (by decide) ?_
  refine Words.bare h.1 ?_
  refine Words.bare h.2.1 ?_
  refine Words.bare (w := str! "0") (by decide) ?_
  refine Words.bare (word_toStr _) ?_
  refine Words.bare (hb _ _ _ (by decide) (by decide)) ?_
  refine Words.bare (hb _ _ _ (by decide) (by decide)) ?_
  refine Words.bare (word_showInt _) ?_
  refine Words.bare (hb _ _ _ (by decide) (by decide)) ?_
  exact Words.bare1 (hb _ _ _ (by decide) (by decide))

theorem parseDef_show (s : Symbol F) (h : LineSymbol s) :
    parseDef s.defLine = .ok { s with fields := [], aliases := [], draw := [] } := by
  rw [parseDef, (s.defWords h).splitQ]
  have h1 : ∀ b : Bool, boolFrom (if b then str! "Y" else str! "N") (str! "Y") (str! "N") = .ok b := by decide
  have h2 : ∀ b : Bool, boolFrom (if b then str! "L" else str! "F") (str! "L") (str! "F") = .ok b := by decide
  have h3 : ∀ b : Bool, boolFrom (if b then str! "P" else str! "N") (str! "P") (str! "N") = .ok b := by decide
  rw [Res.bind_ok, if_neg (by simp)]
  bstep rfl
  bstep rfl
  bstep rfl
  bstep rfl
  bstep rfl
  bstep f64R_toStr _
  bstep rfl
  bstep h1 _
  bstep rfl
  bstep h1 _
  bstep rfl
  bstep i64R_showInt h.2.2.1
  bstep rfl
  bstep h2 _
  bstep rfl
  bstep h3 _
  rfl

theorem parseAliases_show (as : List Str) (h : ∀ a ∈ as, Word a) (rest : List Str) :
    parseAliases (aliasLns as ++ str! "DRAW" :: rest) = .ok (as, str! "DRAW" :: rest) := by
  unfold aliasLns
  cases as with
  | nil => rfl
  | cons a as =>
    have hw := (aliasText_words (a :: as) h (str! "ALIAS") (by decide)).splitQ
    simp only [List.isEmpty_cons, Bool.false_eq_true, if_false, List.cons_append, List.nil_append] at hw ⊢
    have hs := startsWith_self (str! "ALIAS") (aliasText (a :: as))
    simp only [List.cons_append, List.nil_append] at hs
    simp only [parseAliases, here, Res.bind_ok, hs, if_true, hw, next, List.drop_succ_cons, List.drop_zero]

/-- The line after the fields of a symbol does not start with `F`. -/
theorem afterFields (as : List Str) (rest : List Str) : ∃ c l r, aliasLns as ++ str! "DRAW" :: rest = (c :: l) :: r ∧
    c ≠ 'F' ∧ (c :: l) ≠ str! "$FPLIST" := by
  unfold aliasLns
  cases as with
  | nil => exact ⟨'D', _, _, rfl, by decide, by decide⟩
  | cons a as =>
    refine ⟨'A', _, _, rfl, by decide, ?_⟩
    intro h
    simp at h

/-- Reading a printed symbol; the text of the comment line does not matter. -/
theorem parseSymbol_lns (s : Symbol F) (h : LineSymbol s) (v : Str) (rest : List Str) :
    parseSymbol (s.lnsWith v ++ rest) = if s.fields.any (·.bold) then .err .other else .ok (s, rest) := by
  obtain ⟨c, l, r, hal, hc, hfp⟩ := afterFields s.aliases (s.draw.map Draw.show ++
    [str! "ENDDRAW", str! "ENDDEF", str! "#"] ++ rest)
  have hal2 := parseAliases_show s.aliases h.2.2.2.2.2.1 (s.draw.map Draw.show ++
    [str! "ENDDRAW", str! "ENDDEF", str! "#"] ++ rest)
  rw [hal] at hal2
  have hsp : s.lnsWith v ++ rest = (str! "# " ++ v) :: str! "#" :: s.defLine :: (s.fields.map Field.show ++
      ((c :: l) :: r)) := by
    rw [← hal]
    simp [Symbol.lnsWith, Symbol.body]
  rw [hsp, parseSymbol]
  simp only [next, List.drop_succ_cons, List.drop_zero, assumeLine, ne_eq, not_true, if_false, Res.bind_ok, here,
    parseDef_show s h, parseFields_show _ _ h.2.2.2.2.1 c l hc r]
  cases hb : s.fields.any (·.bold) with
  | true => simp
  | false =>
    have hd := parseDraws_show [] s.draw h.2.2.2.2.2.2 (str! "ENDDEF" :: str! "#" :: rest)
    have hl : s.draw.map Draw.show ++ [str! "ENDDRAW", str! "ENDDEF", str! "#"] ++ rest =
        s.draw.map Draw.show ++ str! "ENDDRAW" :: str! "ENDDEF" :: str! "#" :: rest := by simp
    rw [hl] at hal2
    simp only [Bool.false_eq_true, if_false, Res.bind_ok, hfp, hal2, not_true, hd,
      List.nil_append]

theorem quotable_append {a b : Str} : Quotable (a ++ b) ↔ Quotable a ∧ Quotable b := by
  unfold Quotable
  simp only [List.mem_append, not_or]
  tauto

theorem Pin.quotable (p : Pin) (h : ReadPin p) : Quotable p.show := by
  have hi := fun (x : Int) => (word_showInt x).quotable
  have hsp : Quotable (str! " ") := by decide
  have h1 := (word_pinOrientation p.orientation).quotable
  have h2 := (word_pinType p.pinType).quotable
  have h3 : Quotable (if p.pinVisible then if p.pinShape ≠ .line then str! " " ++ p.pinShape.show else []
      else str! " N" ++ p.pinShape.show) := by
    cases p.pinVisible <;> cases p.pinShape <;> decide
  unfold Pin.show
  simp only [quotable_append]
  exact ⟨⟨⟨⟨⟨⟨⟨⟨⟨⟨⟨⟨⟨⟨⟨⟨⟨⟨⟨⟨⟨⟨by decide, h.1⟩, hsp⟩, h.2.1⟩, hsp⟩, hi _⟩, hsp⟩, hi _⟩, hsp⟩, hi _⟩, hsp⟩, h1⟩, hsp⟩, hi _⟩,
    hsp⟩, hi _⟩, hsp⟩, hi _⟩, hsp⟩, hi _⟩, hsp⟩, h2⟩, h3⟩

theorem Draw.noLf (d : Draw) (h : ReadDraw d) : '\n' ∉ d.show := by
  cases d with
  | pin p => exact (p.quotable h).1
  | rectangle r => exact r.oneLine.1
  | other s => exact h.1

theorem Draw.endsLine (d : Draw) : EndsLine d.show ↔ EndedDraw d := by
  cases d with
  | pin p => exact ⟨fun _ => trivial, fun _ => p.endsLine⟩
  | rectangle r => exact ⟨fun _ => trivial, fun _ => r.oneLine.2⟩
  | other s => exact Iff.rfl

theorem Symbol.defLine_quotable (s : Symbol F) (h : ReadSymbol s) : Quotable s.defLine := by
  have hsp : Quotable (str! " ") := by decide
  have hb : ∀ (b : Bool) (c d : Char), Quotable [c] → Quotable [d] → Quotable (if b then [c] else [d]) := by
    intro b c d h1 h2; cases b
    · exact h2
    · exact h1
  unfold Symbol.defLine
  simp only [quotable_append]
  have hd : Quotable (str! "DEF ") := by decide
  have h0 : Quotable (str! " 0 ") := by decide
  refine ⟨⟨⟨⟨⟨⟨⟨⟨⟨⟨⟨⟨⟨⟨⟨hd, h.1⟩, hsp⟩, h.2.1⟩, h0⟩, (word_toStr _).quotable⟩, hsp⟩, ?_⟩, hsp⟩, ?_⟩, hsp⟩,
    (word_showInt _).quotable⟩, hsp⟩, ?_⟩, hsp⟩, ?_⟩ <;> exact hb _ _ _ (by decide) (by decide)

theorem Symbol.defLine_endsLine (s : Symbol F) : EndsLine s.defLine := by
  unfold Symbol.defLine
  rw [endsLine_append _ (by cases s.isPower <;> decide)]
  cases s.isPower <;> decide

theorem aliasText_quotable (as : List Str) (h : ∀ a ∈ as, Quotable a) : Quotable (aliasText as) := by
  induction as with
  | nil => decide
  | cons a as ih =>
    rw [List.forall_mem_cons] at h
    have : aliasText (a :: as) = (str! " " ++ a) ++ aliasText as := by simp [aliasText]
    rw [this, quotable_append, quotable_append]
    exact ⟨⟨by decide, h.1⟩, ih h.2⟩

theorem aliasText_endsLine (as : List Str) (h : ∀ a ∈ as.getLast?, EndsLine a) (w : Str) (hw : EndsLine w) :
    EndsLine (w ++ aliasText as) := by
  rcases List.eq_nil_or_concat as with rfl | ⟨as, a, rfl⟩
  · simpa [aliasText] using hw
  · have e : w ++ aliasText (as.concat a) = (w ++ aliasText as) ++ ' ' :: a := by simp [aliasText]
    rw [e]
    exact endsLine_sep (by decide) (h a (by simp)) _

/-- The lines a printed symbol is read as. -/
def Symbol.readLns (s : Symbol F) : List Str :=
  (str! "# " ++ stripCr s.value) :: str! "#" :: s.defLine :: (s.fields.map Field.show ++
    ((aliasLns s.aliases).map stripCr ++ (str! "DRAW" :: ((s.draw.map Draw.show).map stripCr ++
      [str! "ENDDRAW", str! "ENDDEF", str! "#"]))))

theorem Symbol.lns_strip (s : Symbol F) (h : ReadSymbol s) : s.lns.map stripCr = s.readLns := by
  have h1 : stripCr (str! "# " ++ s.value) = str! "# " ++ stripCr s.value :=
    stripCr_sep (str! "#") (c := ' ') (by decide) s.value
  have h2 := stripCr_id _ s.defLine_endsLine
  have h3 : (s.fields.map Field.show).map stripCr = s.fields.map Field.show := by
    rw [Sch.map_stripCr_eq, List.forall_mem_map]
    exact fun f hf => (f.oneLine (h.2.2.2.1 f hf).2.2.1 (h.2.2.2.1 f hf).2.2.2).2
  have h4 : stripCr (str! "#") = str! "#" := by decide
  have h5 : stripCr (str! "DRAW") = str! "DRAW" := by decide
  have h6 : stripCr (str! "ENDDRAW") = str! "ENDDRAW" := by decide
  have h7 : stripCr (str! "ENDDEF") = str! "ENDDEF" := by decide
  rw [Symbol.lns, Symbol.lnsWith, Symbol.body, Symbol.readLns]
  rw [List.map_cons, h1, List.map_cons, h4, List.map_cons, h2, List.map_append, h3, List.map_append, List.map_cons, h5,
    List.map_append, List.map_cons, h6, List.map_cons, h7, List.map_cons, h4, List.map_nil]

theorem Symbol.readLns_ended (s : Symbol F) (he : EndedSymbol s) : s.readLns = s.lnsWith (stripCr s.value) := by
  have h1 : (aliasLns s.aliases).map stripCr = aliasLns s.aliases := by
    unfold aliasLns
    split
    · rfl
    · rw [List.map_singleton, stripCr_id _ (aliasText_endsLine _ he.1 _ (by decide))]
  have h2 : (s.draw.map Draw.show).map stripCr = s.draw.map Draw.show := by
    rw [Sch.map_stripCr_eq, List.forall_mem_map]
    exact fun d hd => d.endsLine.2 (he.2 d hd)
  rw [Symbol.readLns, Symbol.lnsWith, Symbol.body, h1, h2]

theorem Symbol.lns_noLf (s : Symbol F) (h : ReadSymbol s) : ∀ l ∈ s.lns, '\n' ∉ l := by
  have hv : '\n' ∉ s.value := by
    unfold Symbol.value
    cases hf : s.fields[1]? with
    | none => simp
    | some f => exact (h.2.2.2.1 f (List.mem_of_getElem? hf)).2.2.1.1
  have hal : ∀ l ∈ aliasLns s.aliases, '\n' ∉ l := by
    unfold aliasLns
    split
    · simp
    · intro l hl
      rw [List.mem_singleton] at hl
      subst hl
      exact (quotable_append.2 ⟨by decide, aliasText_quotable _ h.2.2.2.2.1⟩).1
  unfold Symbol.lns Symbol.lnsWith Symbol.body
  simp only [List.forall_mem_cons, List.forall_mem_append, List.forall_mem_map]
  refine ⟨?_, by decide, (s.defLine_quotable h).1,
    fun f hf => (f.oneLine (h.2.2.2.1 f hf).2.2.1 (h.2.2.2.1 f hf).2.2.2).1, hal, by decide,
    fun d hd => d.noLf (h.2.2.2.2.2 d hd), by decide, by decide, by decide, by simp⟩
  simpa using hv

/-! ### Libraries -/

def SymbolLib.lns (l : SymbolLib F) : List Str :=
  str! "EESchema-LIBRARY Version 2.3" :: str! "#encoding utf-8" :: str! "#" ::
    (l.symbols.flatMap Symbol.lns ++ [str! "#End Library"])

theorem showSymbols_eq (l : List (Symbol F)) (h : ∀ s ∈ l, 2 ≤ s.fields.length) :
    showSymbols l = .ok (unlines (l.flatMap Symbol.lns)) := by
  induction l with
  | nil => rfl
  | cons s l ih =>
    rw [List.forall_mem_cons] at h
    rw [showSymbols, s.show_eq h.1, Res.bind_ok, ih h.2, Res.bind_ok, List.flatMap_cons, unlines_append]

theorem SymbolLib.show_eq (l : SymbolLib F) (h : ∀ s ∈ l.symbols, 2 ≤ s.fields.length) :
    l.show = .ok (unlines l.lns) := by
  rw [SymbolLib.show, showSymbols_eq _ h, Res.bind_ok]
  simp [SymbolLib.lns, unlines, unlines_append]

theorem SymbolLib.lns_noLf (l : SymbolLib F) (h : ∀ s ∈ l.symbols, ReadSymbol s) : ∀ x ∈ l.lns, '\n' ∉ x := by
  unfold SymbolLib.lns
  simp only [List.forall_mem_cons, List.forall_mem_append]
  refine ⟨by decide, by decide, by decide, ?_, by decide, by simp⟩
  intro x hx
  obtain ⟨s, hs, hx⟩ := List.mem_flatMap.1 hx
  exact s.lns_noLf (h s hs) x hx

/-- The lines a printed library is read as. -/
theorem SymbolLib.lines_lns (l : SymbolLib F) (h : ∀ s ∈ l.symbols, ReadSymbol s) :
    lines (unlines l.lns) = str! "EESchema-LIBRARY Version 2.3" :: str! "#encoding utf-8" :: str! "#" ::
      (l.symbols.flatMap Symbol.readLns ++ [str! "#End Library"]) := by
  rw [lines_unlines_strip _ (l.lns_noLf h), SymbolLib.lns]
  have h1 : stripCr (str! "EESchema-LIBRARY Version 2.3") = str! "EESchema-LIBRARY Version 2.3" := by decide
  have h2 : stripCr (str! "#encoding utf-8") = str! "#encoding utf-8" := by decide
  have h3 : stripCr (str! "#") = str! "#" := by decide
  have h4 : stripCr (str! "#End Library") = str! "#End Library" := by decide
  have h5 : (l.symbols.flatMap Symbol.lns).map stripCr = l.symbols.flatMap Symbol.readLns := by
    rw [List.map_flatMap]
    exact Sch.flatMap_congr_mem fun s hs => s.lns_strip (h s hs)
  simp only [List.map_cons, List.map_append, List.map_nil, h1, h2, h3, h4, h5]

theorem parseSymbols_lns (v : Symbol F → Str) (acc l : List (Symbol F)) (h : ∀ s ∈ l, LineSymbol s) (n : Nat)
    (rest : List Str) :
    parseSymbols (n + l.length + 1) acc (l.flatMap (fun s => s.lnsWith (v s)) ++ str! "#End Library" :: rest) =
      if l.any (fun s => s.fields.any (·.bold)) then .err .other else .ok (acc ++ l) := by
  induction l generalizing acc with
  | nil => simp [parseSymbols]
  | cons s l ih =>
    rw [List.forall_mem_cons] at h
    have hne : (str! "# " ++ v s) ≠ str! "#End Library" := by
      intro h'; simp at h'
    have hsp : (s :: l).flatMap (fun s => s.lnsWith (v s)) ++ str! "#End Library" :: rest =
        s.lnsWith (v s) ++ (l.flatMap (fun s => s.lnsWith (v s)) ++ str! "#End Library" :: rest) := by
      rw [List.flatMap_cons, List.append_assoc]
    have hp := parseSymbol_lns s h.1 (v s) (l.flatMap (fun s => s.lnsWith (v s)) ++ str! "#End Library" :: rest)
    rw [hsp, List.length_cons, ← Nat.add_assoc]
    rw [Symbol.lnsWith, List.cons_append] at hp ⊢
    rw [parseSymbols, if_neg hne, hp]
    cases hb : s.fields.any (·.bold) with
    | true => simp [hb]
    | false =>
      simp only [Bool.false_eq_true, if_false, Res.bind_ok, ih _ h.2, List.any_cons, hb, Bool.false_or,
        List.append_assoc, List.cons_append, List.nil_append]

/-- Reading a printed library. -/
theorem parse_show (l : SymbolLib F) (h : FitsLib l) :
    parseStr (unlines l.lns) = if l.symbols.any (fun s => s.fields.any (·.bold)) then .err .other else .ok l := by
  have hlen : ∃ k, (l.symbols.flatMap (fun s => s.lnsWith (stripCr s.value)) ++ [str! "#End Library"]).length =
      k + l.symbols.length + 1 := by
    have : l.symbols.length ≤ (l.symbols.flatMap (fun s => s.lnsWith (stripCr s.value))).length := by
      generalize l.symbols = x
      induction x with
      | nil => simp
      | cons s x ih =>
        have : 0 < (s.lnsWith (stripCr s.value)).length := by simp [Symbol.lnsWith]
        rw [List.flatMap_cons, List.length_append, List.length_cons]
        omega
    exact ⟨(l.symbols.flatMap (fun s => s.lnsWith (stripCr s.value))).length - l.symbols.length, by
      rw [List.length_append, List.length_singleton]; omega⟩
  obtain ⟨k, hk⟩ := hlen
  have he : l.symbols.flatMap Symbol.readLns = l.symbols.flatMap (fun s => s.lnsWith (stripCr s.value)) :=
    Sch.flatMap_congr_mem fun s hs => s.readLns_ended (h s hs).2
  rw [parseStr, l.lines_lns fun s hs => read_of_line (h s hs).1, parseLines, he]
  simp only [assumeLine, ne_eq, not_true, if_false, Res.bind_ok]
  rw [hk, parseSymbols_lns (fun s => stripCr s.value) [] l.symbols (fun s hs => (h s hs).1) k []]
  cases l.symbols.any (fun s => s.fields.any (·.bold)) <;> rfl

end Verif.Lib
