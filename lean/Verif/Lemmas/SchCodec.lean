import Verif.Spec.SchematicFile
import Verif.Lemmas.Lines
/-!
# Reading back the printed items of a schematic
-/

set_option linter.unusedSectionVars false
set_option linter.unusedSimpArgs false

namespace Verif.Sch
open Verif Flt Spec

variable {F : Type} [Flt F] [TextLaws F]

/-! ### What reading guarantees -/

/-! The definitions say that a character `x` does not occur; reading guarantees it for the
characters that no line of the file contains. -/

/-- A field that was read. -/
def ReadFieldBut (x : Char) (f : Field F) : Prop :=
  inI64 f.i ∧ inI64 f.size ∧ QuotBut x f.value ∧ QuotBut x f.name

/-- A component that was read. -/
def ReadComponentBut (x : Char) (c : Component F) : Prop :=
  QuotBut x c.name ∧ QuotBut x c.reference ∧ x ∉ c.u ∧ (c.u = [] ∨ firstWord c.u = some (str! "U")) ∧
  inI64 c.x ∧ inI64 c.y ∧ (∀ a ∈ c.arPath, x ∉ a ∧ firstWord a = some (str! "AR")) ∧
  (∀ f ∈ c.fields, ReadFieldBut x f) ∧
  inI64 c.rotation.a ∧ inI64 c.rotation.b ∧ inI64 c.rotation.c ∧ inI64 c.rotation.d

/-- A sheet label that was read. -/
def ReadLabelBut (x : Char) (l : SheetLabel) : Prop := QuotBut x l.name ∧ inI64 l.x ∧ inI64 l.y ∧ inI64 l.size

/-- A sheet that was read. -/
def ReadSheetBut (x : Char) (s : Sheet) : Prop :=
  inI64 s.x ∧ inI64 s.y ∧ inI64 s.dimx ∧ inI64 s.dimy ∧ QuotBut x s.unique ∧ QuotBut x s.name ∧
  inI64 s.nameSize ∧ QuotBut x s.filename ∧ inI64 s.filenameSize ∧ (∀ l ∈ s.labels, ReadLabelBut x l)

/-- A description that was read. -/
def ReadDescriptionBut (x : Char) (d : Description) : Prop :=
  QuotBut x d.size ∧ inI64 d.dimx ∧ inI64 d.dimy ∧ QuotBut x d.title ∧ QuotBut x d.date ∧ QuotBut x d.rev ∧
  QuotBut x d.comp ∧ QuotBut x d.comment1 ∧ QuotBut x d.comment2 ∧ QuotBut x d.comment3 ∧
  QuotBut x d.comment4 ∧ inI64 d.sheet ∧ inI64 d.sheetCount

/-- A text that was read. -/
def ReadTextBut (x : Char) (t : Text) : Prop :=
  inI64 t.x ∧ inI64 t.y ∧ inI64 t.orientation ∧ inI64 t.size ∧ inI64 t.thickness ∧ x ∉ t.text ∧
  (match t.t, t.shape with
    | .note, none => True
    | .label, none => True
    | .global, some s => Solid s
    | .hierarchical, some s => Solid s
    | _, _ => False)

/-- A line of another kind that was read. -/
def ReadOtherBut (x : Char) (s : Str) : Prop := x ∉ s ∧ ∃ w ∈ firstWord s, w ∉ itemWords

/-- An element that was read. -/
def ReadElementBut (x : Char) : Element F → Prop
  | .component c => ReadComponentBut x c
  | .wire w => FitsWire w
  | .connection p => FitsPos p
  | .noConnect p => FitsPos p
  | .text t => ReadTextBut x t
  | .other s => ReadOtherBut x s

/-- A schematic under construction. -/
def ReadSchematicBut (x : Char) (s : Schematic F) : Prop :=
  (∀ l ∈ s.libraries, x ∉ l) ∧ ReadDescriptionBut x s.description ∧
  (∀ e ∈ s.elements, ReadElementBut x e) ∧ (∀ e ∈ s.sheets, ReadSheetBut x e)

/-- The line after the libraries, as read. -/
def ReadLayerBut (x : Char) (s : Str) : Prop := x ∉ s ∧ startsWith s (str! "EELAYER ") = true

abbrev ReadField (f : Field F) : Prop := ReadFieldBut '\n' f
abbrev ReadComponent (c : Component F) : Prop := ReadComponentBut '\n' c
abbrev ReadSheet (s : Sheet) : Prop := ReadSheetBut '\n' s
abbrev ReadDescription (d : Description) : Prop := ReadDescriptionBut '\n' d
abbrev ReadText (t : Text) : Prop := ReadTextBut '\n' t
abbrev ReadOther (s : Str) : Prop := ReadOtherBut '\n' s
abbrev ReadElement (e : Element F) : Prop := ReadElementBut '\n' e
abbrev ReadSchematic (s : Schematic F) : Prop := ReadSchematicBut '\n' s
abbrev ReadLayer (s : Str) : Prop := ReadLayerBut '\n' s

theorem quotBut_lf (s : Str) : QuotBut '\n' s ↔ Quotable s := Iff.rfl
theorem readLabel_lf (l : SheetLabel) : ReadLabelBut '\n' l ↔ FitsLabel l := Iff.rfl

theorem fitsField_iff (f : Field F) : FitsField f ↔ ReadField f ∧ NamedField f := by
  unfold FitsField ReadField ReadFieldBut NamedField; simp only [quotBut_lf]; tauto

theorem fitsComponent_iff (c : Component F) :
    FitsComponent c ↔ ReadComponent c ∧ WritableComponent c ∧ EndedComponent c := by
  unfold FitsComponent ReadComponent ReadComponentBut WritableComponent EndedComponent
  simp only [fitsField_iff, forall_and, imp_and, quotBut_lf]
  unfold LastWord Word OneLine
  simp only [forall_and, imp_and]
  tauto

theorem fitsText_iff (t : Text) : FitsText t ↔ ReadText t ∧ EndsLine t.text := by
  unfold FitsText ReadText ReadTextBut OneLine
  tauto

theorem fitsOther_iff (s : Str) : FitsOther s ↔ ReadOther s ∧ EndsLine s := by
  unfold FitsOther ReadOther ReadOtherBut OneLine
  tauto

theorem fitsElement_iff (e : Element F) : FitsElement e ↔ ReadElement e ∧ WritableElement e ∧ EndedElement e := by
  cases e <;> simp [FitsElement, ReadElement, ReadElementBut, WritableElement, EndedElement, fitsComponent_iff, fitsText_iff,
    fitsOther_iff]

theorem fitsSheet_iff (s : Sheet) :
    FitsSheet s ↔ ReadSheet s ∧ Word s.unique ∧ s.labels.length < 2147483646 ∧ EndsLine s.unique := by
  unfold FitsSheet ReadSheet ReadSheetBut LastWord Word; simp only [quotBut_lf, readLabel_lf]; tauto

theorem fitsDescription_iff (d : Description) : FitsDescription d ↔ ReadDescription d ∧ Word d.size := by
  unfold FitsDescription ReadDescription ReadDescriptionBut Word; simp only [quotBut_lf]; tauto

theorem fitsSchematic_iff (s : Schematic F) :
    FitsSchematic s ↔ ReadSchematic s ∧ ReadLayer s.eelayer ∧ Writable s ∧ CountableLabels s ∧ Ended s := by
  unfold FitsSchematic ReadSchematic ReadSchematicBut Writable CountableLabels Ended ReadLayer ReadLayerBut OneLine
  simp only [fitsElement_iff, fitsSheet_iff, fitsDescription_iff, forall_and, imp_and]
  tauto

theorem i64R_showInt {i : Int} (h : inI64 i) : i64R (showInt i) = .ok i := by
  simp [i64R, i64FromStr_showInt i h]

theorem f64R_toStr (x : F) : (f64R (toStr x) : Res F) = .ok x := by
  simp [f64R, TextLaws.ofStr_toStr]

@[simp] theorem idx_zero (a : Str) (l : List Str) : idx (a :: l) 0 = .ok a := rfl
@[simp] theorem idx_succ (a : Str) (l : List Str) (n : Nat) : idx (a :: l) (n + 1) = idx l n := by
  simp [idx]
@[simp] theorem idx_one (a b : Str) (l : List Str) : idx (a :: b :: l) 1 = .ok b := rfl

/-! ### Fields -/

/-- The words of a field line. -/
def Field.toks (f : Field F) : List Str :=
  [str! "F", showInt f.i, f.value, f.orientation.show, toStr f.x, toStr f.y, showInt f.size,
   (if f.visible then str! "0000" else str! "0001"), f.hjustify.show,
   f.vjustify.show ++ (if f.italic then str! "I" else str! "N") ++ (if f.bold then str! "B" else str! "N")] ++
  (if f.i > 3 then [f.name] else [])

theorem word_orientation (o : Orientation) : Word o.show := by cases o <;> decide
theorem word_justify (o : Justify) : Word o.show := by cases o <;> decide
theorem word_style (j : Justify) (a b : Bool) :
    Word (j.show ++ (if a then str! "I" else str! "N") ++ (if b then str! "B" else str! "N")) := by
  cases j <;> cases a <;> cases b <;> decide
theorem word_visible (a : Bool) : Word (if a then str! "0000" else str! "0001") := by
  cases a <;> decide

theorem Field.words (f : Field F) (h : ReadField f) : Words f.toks f.show := by
  obtain ⟨_, _, hv, hn⟩ := h
  unfold Field.toks Field.show
  simp only [List.append_assoc, List.cons_append, List.nil_append]
  refine Words.bare (w := str! "F") (by decide) ?_
  refine Words.bare (word_showInt _) ?_
  refine Words.quoted hv.2 ?_
  refine Words.bare (word_orientation _) ?_
  refine Words.pad 3 (word_toStr _) ?_
  refine Words.pad 3 (word_toStr _) ?_
  refine Words.pad 3 (word_showInt _) ?_
  refine Words.bare (word_visible _) ?_
  refine Words.bare (word_justify _) ?_
  have hs := word_style f.vjustify f.italic f.bold
  simp only [List.append_assoc] at hs
  by_cases hi : f.i > 3
  · simp only [hi, if_true]
    have := Words.bare hs (Words.quoted1 hn.2)
    simpa only [List.append_assoc, List.cons_append, List.nil_append] using this
  · simp only [hi, if_false, List.append_nil]
    exact Words.bare1 hs

theorem Field.new_toks (f : Field F) (h : FitsField f) : Field.new f.toks = .ok f := by
  obtain ⟨h0, hi, hs, _, _, h1, h2, h3, h4⟩ := h
  obtain ⟨i, value, orientation, x, y, size, visible, hj, vj, italic, bold, name⟩ := f
  simp only at h0 hi hs h1 h2 h3 h4
  have hsty : ∃ a b c, vj.show ++ (if italic then str! "I" else str! "N") ++
      (if bold then str! "B" else str! "N") = [a, b, c] ∧ Justify.new a = .ok vj ∧
      boolFrom b 'I' 'N' = .ok italic ∧ boolFrom c 'B' 'N' = .ok bold := by
    cases vj <;> cases italic <;> cases bold <;> exact ⟨_, _, _, rfl, rfl, rfl, rfl⟩
  obtain ⟨a, b, c, he, hja, hjb, hjc⟩ := hsty
  have hor : (charAt orientation.show 0 >>= Orientation.new) = .ok orientation := by
    cases orientation <;> rfl
  have hvis : boolFrom (if visible then str! "0000" else str! "0001") (str! "0000") (str! "0001") =
      .ok visible := by cases visible <;> rfl
  have hhj : (charAt hj.show 0 >>= Justify.new) = .ok hj := by cases hj <;> rfl
  simp only [Field.toks, he]
  by_cases h3' : i > 3
  · simp only [h3', if_true, Field.new, List.cons_append, List.nil_append, List.length_cons, List.length_nil,
      Nat.reduceAdd, ne_eq, Nat.reduceEqDiff, not_true, not_false_eq_true, and_false, if_false,
      idx_zero, idx_succ, Res.bind_ok, i64R_showInt hi, i64R_showInt hs, f64R_toStr, hvis]
    rw [← Res.bind_assoc (charAt _ _), hor, Res.bind_ok, ← Res.bind_assoc (charAt _ _), hhj, Res.bind_ok]
    simp [charAt, hja, hjb, hjc]
  · have hi4 : i = 0 ∨ i = 1 ∨ i = 2 ∨ i = 3 := by omega
    have hname : name = (if i = 0 then str! "Reference" else if i = 1 then str! "Value"
        else if i = 2 then str! "Footprint" else str! "UserDocLink") := by
      rcases hi4 with rfl | rfl | rfl | rfl <;> simp_all
    clear h1 h2 h3 h4
    rcases hi4 with rfl | rfl | rfl | rfl <;>
    · simp only [h3', if_false, Field.new, List.cons_append, List.nil_append, List.length_cons, List.length_nil,
        Nat.reduceAdd, ne_eq, Nat.reduceEqDiff, not_true, not_false_eq_true, false_and, if_false,
        idx_zero, idx_succ, Res.bind_ok, i64R_showInt hi, i64R_showInt hs, f64R_toStr,
        hvis, hname, Int.reduceEq, if_true]
      rw [← Res.bind_assoc (charAt _ _), hor, Res.bind_ok, ← Res.bind_assoc (charAt _ _), hhj, Res.bind_ok]
      simp [charAt, hja, hjb, hjc]

theorem parseComponentF_show (f : Field F) (h : FitsField f) (d : Component F) :
    parseComponentF f.show d = .ok { d with fields := d.fields ++ [f] } := by
  simp [parseComponentF, (f.words ((fitsField_iff f).1 h).1).splitQ, f.new_toks h]

/-- Simplify an appended text to a chain of characters and parts. -/
macro "flat" : tactic => `(tactic| simp only [List.append_assoc, List.cons_append, List.nil_append])

theorem endsLine_int (a : Str) (i : Int) : EndsLine (a ++ showInt i) :=
  (endsLine_append _ (showInt_ne_nil i)).2 (lastWord_showInt i).2

theorem endsLine_pad (a : Str) (n : Nat) (i : Int) : EndsLine (a ++ padRight n (showInt i)) :=
  (endsLine_append _ (padRight_ne (showInt_ne_nil i) n)).2 (oneLine_padRight (lastWord_showInt i).oneLine n).2

theorem endsLine_style (j : Justify) (a b : Bool) :
    EndsLine (j.show ++ (if a then str! "I" else str! "N") ++ (if b then str! "B" else str! "N")) := by
  cases j <;> cases a <;> cases b <;> decide

theorem Field.oneLine (f : Field F) (h : ReadField f) : OneLine f.show := by
  refine ⟨(f.words h).noLf ?_, ?_⟩
  · obtain ⟨_, _, hv, hn⟩ := h
    have h1 := (word_showInt f.i).noLf
    have h2 := (word_showInt f.size).noLf
    have h3 := (word_toStr f.x).noLf
    have h4 := (word_toStr f.y).noLf
    unfold Field.toks
    intro w hw
    rw [List.mem_append] at hw
    rcases hw with hw | hw
    · simp only [List.mem_cons, List.not_mem_nil, or_false] at hw
      rcases hw with rfl | rfl | rfl | rfl | rfl | rfl | rfl | rfl | rfl | rfl
      · decide
      · exact h1
      · exact hv.1
      · exact (word_orientation _).noLf
      · exact h3
      · exact h4
      · exact h2
      · exact (word_visible _).noLf
      · exact (word_justify _).noLf
      · exact (word_style _ _ _).noLf
    · split at hw
      · rw [List.mem_singleton] at hw; subst hw; exact hn.1
      · cases hw
  · unfold Field.show
    by_cases hi : f.i > 3
    · simp only [hi, if_true]
      simp only [← List.append_assoc]
      rw [endsLine_append _ (by simp)]
      decide
    · simp only [hi, if_false, List.append_nil]
      rw [List.append_assoc _ f.vjustify.show, List.append_assoc _ (f.vjustify.show ++ _),
        endsLine_append _ (word_style _ _ _).1]
      exact endsLine_style f.vjustify f.italic f.bold

theorem firstWord_char {c d : Char} (t : Str) (hc : isWs c = false) (hd : isWs d = true) :
    firstWord (c :: d :: t) = some [c] :=
  firstWord_word (w := [c]) ⟨by simp, by simpa using hc⟩ hd t

theorem Field.firstWord (f : Field F) : Verif.firstWord f.show = some (str! "F") := by
  unfold Field.show
  flat
  exact firstWord_char _ (by decide) (by decide)

/-! ### Components -/

theorem ne_of_firstWord {s w e : Str} (h : Verif.firstWord s = some w) (he : Verif.firstWord e = some e)
    (hne : w ≠ e) : s ≠ e := by
  rintro rfl
  rw [he] at h
  exact hne (Option.some.inj h.symm)

def Component.lLine (c : Component F) : Str := str! "L " ++ c.name ++ str! " " ++ c.reference
def Component.pLine (c : Component F) : Str := str! "P " ++ showInt c.x ++ str! " " ++ showInt c.y
def Component.oneLineOf (c : Component F) : Str :=
  str! "\t" ++ padRight 4 (str! "1") ++ str! " " ++ padRight 4 (showInt c.x) ++ str! " " ++
    padRight 4 (showInt c.y)
def Rotation.line (r : Rotation) : Str :=
  str! "\t" ++ padRight 4 (showInt r.a) ++ str! " " ++ padRight 4 (showInt r.b) ++
    str! " " ++ padRight 4 (showInt r.c) ++ str! " " ++ padRight 4 (showInt r.d)

/-- The lines of a component after `$Comp`. -/
def Component.tailLines (c : Component F) : List Str :=
  c.lLine :: c.u :: c.pLine :: (c.arPath ++ (c.fields.map Field.show ++
    [c.oneLineOf, c.rotation.line, str! "$EndComp"]))

def Component.lns (c : Component F) : List Str := str! "$Comp" :: c.tailLines

theorem unlines_map {α : Type} (f : α → Str) (l : List α) :
    unlines (l.map f) = (l.map fun a => f a ++ str! "\n").flatten := by
  induction l with
  | nil => rfl
  | cons a l ih => simp [unlines, ih]

theorem Component.show_eq (c : Component F) : c.show = unlines c.lns := by
  have h1 := unlines_map (id : Str → Str) c.arPath
  simp only [List.map_id, id] at h1
  unfold Component.show Component.lns Component.tailLines Component.lLine Component.pLine Component.oneLineOf
    Rotation.line
  simp only [unlines, unlines_append, unlines_map, h1]
  simp only [List.append_assoc, List.cons_append, List.nil_append]

theorem Component.lns_noLf (c : Component F) (h : ReadComponent c) : ∀ l ∈ c.lns, '\n' ∉ l := by
  obtain ⟨hn, hr, hu, _, _, _, ha, hf, _⟩ := h
  have hp := fun (x : Int) => noLf_padRight (word_showInt x).noLf 4
  have hi := fun (x : Int) => (word_showInt x).noLf
  have h4 : '\n' ∉ padRight 4 (str! "1") := by decide
  unfold Component.lns Component.tailLines
  simp only [List.forall_mem_cons, List.forall_mem_append, List.forall_mem_map]
  refine ⟨by decide, ?_, hu, ?_, fun l hl => (ha l hl).1, fun f hm => (f.oneLine (hf f hm)).1, ?_, ?_, by decide,
    by simp⟩
  · simp [Component.lLine, hn.1, hr.1]
  · simp [Component.pLine, hi]
  · simp [Component.oneLineOf, hp, h4]
  · simp [Rotation.line, hp]

theorem map_stripCr_eq (l : List Str) : l.map stripCr = l ↔ ∀ a ∈ l, EndsLine a := by
  induction l with
  | nil => simp
  | cons a l ih => simp [ih, stripCr_eq_self]

theorem Component.strip_eq (c : Component F) : c.strip = c ↔ EndedComponent c := by
  unfold EndedComponent
  rw [← stripCr_eq_self, ← stripCr_eq_self, ← map_stripCr_eq]
  constructor
  · intro h
    exact ⟨congrArg Component.reference h, congrArg Component.u h, congrArg Component.arPath h⟩
  · rintro ⟨h1, h2, h3⟩
    unfold Component.strip
    rw [h1, h2, h3]

theorem Component.lns_strip (c : Component F) (h : ReadComponent c) : c.lns.map stripCr = c.strip.lns := by
  have hf : (c.fields.map Field.show).map stripCr = c.fields.map Field.show := by
    rw [map_stripCr_eq]
    simp only [List.forall_mem_map]
    exact fun f hm => (f.oneLine (h.2.2.2.2.2.2.2.1 f hm)).2
  have h1 : stripCr c.lLine = c.strip.lLine := by
    unfold Component.lLine
    rw [List.append_assoc _ (str! " "), List.append_assoc _ (str! " ")]
    exact stripCr_sep _ (c := ' ') (by decide) _
  have h2 : stripCr c.pLine = c.pLine := stripCr_id _ (endsLine_int _ _)
  have h3 : stripCr c.oneLineOf = c.oneLineOf := stripCr_id _ (endsLine_pad _ _ _)
  have h4 : stripCr c.rotation.line = c.rotation.line := stripCr_id _ (endsLine_pad _ _ _)
  have h5 : stripCr (str! "$Comp") = str! "$Comp" := by decide
  have h6 : stripCr (str! "$EndComp") = str! "$EndComp" := by decide
  unfold Component.lns Component.tailLines
  simp only [List.map_cons, List.map_append, List.map_nil, hf, h1, h2, h3, h4, h5, h6]
  rfl

theorem compLoop_l (d c : Component F) (h : WritableComponent c) (rest : List Str) :
    parseComponentLoop d (c.lLine :: rest) =
      parseComponentLoop { d with name := c.name, reference := c.reference } rest := by
  have hw : Words [str! "L", c.name, c.reference] c.lLine := by
    unfold Component.lLine
    flat
    exact Words.bare (w := str! "L") (by decide) (Words.bare h.1 (Words.bare1 h.2.1))
  have hf : Verif.firstWord c.lLine = some (str! "L") := by
    unfold Component.lLine
    flat
    exact firstWord_char _ (by decide) (by decide)
  have hne := ne_of_firstWord (e := str! "$EndComp") hf (by decide) (by decide)
  have hs := hw.splitN
  simp only [List.length_cons, List.length_nil, Nat.reduceAdd] at hs
  rw [parseComponentLoop.eq_def]
  simp only
  rw [if_neg hne]
  simp [hf, parseComponentL, hs]

theorem compLoop_p (d c : Component F) (h : ReadComponent c) (rest : List Str) :
    parseComponentLoop d (c.pLine :: rest) =
      parseComponentLoop { d with x := c.x, y := c.y } rest := by
  have hw : Words [str! "P", showInt c.x, showInt c.y] c.pLine := by
    unfold Component.pLine
    flat
    exact Words.bare (w := str! "P") (by decide) (Words.bare (word_showInt _) (Words.bare1 (word_showInt _)))
  have hf : Verif.firstWord c.pLine = some (str! "P") := by
    unfold Component.pLine
    flat
    exact firstWord_char _ (by decide) (by decide)
  have hne := ne_of_firstWord (e := str! "$EndComp") hf (by decide) (by decide)
  have hs := hw.splitN
  simp only [List.length_cons, List.length_nil, Nat.reduceAdd] at hs
  obtain ⟨_, _, _, _, hx, hy, _⟩ := h
  rw [parseComponentLoop.eq_def]
  simp only
  rw [if_neg hne]
  simp [hf, parseComponentP, hs, i64R_showInt hx, i64R_showInt hy]

theorem compLoop_u (d c : Component F) (hd : d.u = []) (h : ReadComponent c) (rest : List Str) :
    parseComponentLoop d (c.u :: rest) = parseComponentLoop { d with u := c.u } rest := by
  obtain ⟨_, _, _, hu, _⟩ := h
  rcases hu with hu | hu
  · rw [hu, parseComponentLoop.eq_def]
    simp only
    rw [if_neg (by decide)]
    have hf : Verif.firstWord [] = none := rfl
    simp [hf]
    rw [← hd]
  · have hne := ne_of_firstWord (e := str! "$EndComp") hu (by decide) (by decide)
    rw [parseComponentLoop.eq_def]
    simp only
    rw [if_neg hne]
    simp [hu]

theorem compLoop_ar (d : Component F) (l rest : List Str)
    (h : ∀ a ∈ l, Verif.firstWord a = some (str! "AR")) :
    parseComponentLoop d (l ++ rest) = parseComponentLoop { d with arPath := d.arPath ++ l } rest := by
  induction l generalizing d with
  | nil => simp
  | cons a l ih =>
    rw [List.forall_mem_cons] at h
    have hne := ne_of_firstWord (e := str! "$EndComp") h.1 (by decide) (by decide)
    rw [List.cons_append, parseComponentLoop.eq_def]
    simp only
    rw [if_neg hne]
    simp [h.1, ih _ h.2]

theorem compLoop_f (d : Component F) (l : List (Field F)) (rest : List Str)
    (h : ∀ a ∈ l, FitsField a) :
    parseComponentLoop d (l.map Field.show ++ rest) =
      parseComponentLoop { d with fields := d.fields ++ l } rest := by
  induction l generalizing d with
  | nil => simp
  | cons a l ih =>
    rw [List.forall_mem_cons] at h
    have hne := ne_of_firstWord (e := str! "$EndComp") a.firstWord (by decide) (by decide)
    rw [List.map_cons, List.cons_append, parseComponentLoop.eq_def]
    simp only
    rw [if_neg hne]
    simp [a.firstWord, parseComponentF_show a h.1, ih _ h.2]

theorem parseRotation_line (r : Rotation) (h : inI64 r.a ∧ inI64 r.b ∧ inI64 r.c ∧ inI64 r.d) :
    parseRotation r.line = .ok r := by
  have hs : splitWs r.line = [showInt r.a, showInt r.b, showInt r.c, showInt r.d] := by
    unfold Rotation.line
    flat
    rw [splitWs_space (by decide), splitWs_pad (solid_showInt _), splitWs_pad (solid_showInt _),
      splitWs_pad (solid_showInt _), splitWs_pad_last (solid_showInt _)]
  simp [parseRotation, hs, i64R_showInt h.1, i64R_showInt h.2.1, i64R_showInt h.2.2.1, i64R_showInt h.2.2.2]

theorem compLoop_done (d : Component F) (rest : List Str) :
    parseComponentLoop d (str! "$EndComp" :: rest) = .ok (d, str! "$EndComp" :: rest) := by
  rw [parseComponentLoop.eq_def]
  simp only
  rw [if_pos trivial]

theorem compLoop_end (d c : Component F) (h : ReadComponent c) (rest : List Str) :
    parseComponentLoop d (c.oneLineOf :: c.rotation.line :: str! "$EndComp" :: rest) =
      .ok ({ d with rotation := c.rotation }, str! "$EndComp" :: rest) := by
  obtain ⟨_, _, _, _, _, _, _, _, hr⟩ := h
  have hf : Verif.firstWord c.oneLineOf = some (str! "1") := by
    unfold Component.oneLineOf Verif.firstWord
    flat
    rw [splitWs_space (by decide), splitWs_pad (by decide)]
    rfl
  have hne := ne_of_firstWord (e := str! "$EndComp") hf (by decide) (by decide)
  rw [parseComponentLoop.eq_def]
  simp only
  rw [if_neg hne]
  simp [hf, parseRotation_line _ hr, compLoop_done]

theorem parseComponent_lns (c : Component F) (hr : ReadComponent c) (h : WritableComponent c) (rest : List Str) :
    parseComponent (c.lns ++ rest) = .ok (c, str! "$EndComp" :: rest) := by
  unfold parseComponent Component.lns Component.tailLines next
  simp only [List.cons_append, List.drop_succ_cons, List.drop_zero, List.append_assoc, List.nil_append]
  have hf : ∀ f ∈ c.fields, FitsField f := fun f hf =>
    (fitsField_iff f).2 ⟨hr.2.2.2.2.2.2.2.1 f hf, h.2.2 f hf⟩
  rw [compLoop_l _ c h, compLoop_u _ c rfl hr, compLoop_p _ c hr, compLoop_ar _ _ _ fun a ha => (hr.2.2.2.2.2.2.1 a ha).2,
    compLoop_f _ _ _ hf, compLoop_end _ c hr]
  simp [Component.dflt]

/-! ### Sheets -/

/-- The lines of the labels of a sheet. -/
def labelLines : Nat → List SheetLabel → List Str
  | _, [] => []
  | i, l :: ls => (str! "F" ++ showNat i ++ str! " " ++ l.show) :: labelLines (i + 1) ls

def Sheet.sLine (s : Sheet) : Str :=
  str! "S " ++ showInt s.x ++ str! " " ++ showInt s.y ++ str! " " ++ showInt s.dimx ++ str! " " ++ showInt s.dimy
def Sheet.uLine (s : Sheet) : Str := str! "U " ++ s.unique
def Sheet.f0Line (s : Sheet) : Str := str! "F0 \"" ++ s.name ++ str! "\" " ++ showInt s.nameSize
def Sheet.f1Line (s : Sheet) : Str := str! "F1 \"" ++ s.filename ++ str! "\" " ++ showInt s.filenameSize

def Sheet.lns (s : Sheet) : List Str :=
  str! "$Sheet" :: s.sLine :: s.uLine :: s.f0Line :: s.f1Line :: (labelLines 2 s.labels ++ [str! "$EndSheet"])

theorem showLabels_eq (i : Nat) (l : List SheetLabel) : showLabels i l = unlines (labelLines i l) := by
  induction l generalizing i with
  | nil => rfl
  | cons a l ih =>
    simp only [showLabels, labelLines, unlines, ih, List.append_assoc, List.cons_append, List.nil_append]

theorem Sheet.show_eq (s : Sheet) : s.show = unlines s.lns := by
  unfold Sheet.show Sheet.lns Sheet.sLine Sheet.uLine Sheet.f0Line Sheet.f1Line
  simp only [unlines, unlines_append, showLabels_eq]
  simp only [List.append_assoc, List.cons_append, List.nil_append]

theorem word_form (f : LabelForm) : Word f.show := by cases f <;> decide
theorem word_side (f : LabelSide) : Word f.show := by cases f <;> decide

theorem word_fnum (i : Nat) : Word ('F' :: showNat i) := by
  refine And.left (b := EndsLine _) (lastWord_of_chars (cs := 'F' :: intChars) (by simp) ?_ (by decide))
  intro c hc
  rcases List.mem_cons.1 hc with rfl | hc
  · simp
  · exact List.mem_cons_of_mem _ (showNat_chars i c hc)

theorem solid_fnum (i : Nat) : Solid ('F' :: showNat i) := by
  refine solid_of_chars (cs := 'F' :: intChars) (by simp) ?_ (by decide)
  intro c hc
  rcases List.mem_cons.1 hc with rfl | hc
  · simp
  · exact List.mem_cons_of_mem _ (showNat_chars i c hc)

theorem SheetLabel.words (i : Nat) (l : SheetLabel) (h : FitsLabel l) :
    Words ['F' :: showNat i, l.name, l.form.show, l.side.show, showInt l.x, showInt l.y, showInt l.size]
      (str! "F" ++ showNat i ++ str! " " ++ l.show) := by
  unfold SheetLabel.show
  flat
  exact Words.bare (word_fnum i) (Words.quoted h.1.2 (Words.bare (word_form _) (Words.bare (word_side _)
    (Words.bare (word_showInt _) (Words.bare (word_showInt _) (Words.bare1 (word_showInt _)))))))

theorem labelLines_oneLine (i : Nat) (l : List SheetLabel) (h : ∀ a ∈ l, FitsLabel a) :
    ∀ s ∈ labelLines i l, OneLine s := by
  induction l generalizing i with
  | nil => simp [labelLines]
  | cons a l ih =>
    rw [List.forall_mem_cons] at h
    unfold labelLines
    rw [List.forall_mem_cons]
    refine ⟨(SheetLabel.words i a h.1).oneLine ?_ ?_, ih _ h.2⟩
    · have hi := fun (x : Int) => (word_showInt x).noLf
      simp [(word_fnum i).noLf, h.1.1.1, (word_form _).noLf, (word_side _).noLf, hi]
    · simp [(lastWord_showInt _).2]

theorem Sheet.lns_noLf (s : Sheet) (h : ReadSheet s) : ∀ l ∈ s.lns, '\n' ∉ l := by
  obtain ⟨_, _, _, _, hu, hn, _, hf, _, hl⟩ := h
  have hi := fun (x : Int) => (word_showInt x).noLf
  unfold Sheet.lns
  simp only [List.forall_mem_cons, List.forall_mem_append]
  refine ⟨by decide, ?_, ?_, ?_, ?_, fun l hm => (labelLines_oneLine 2 _ hl l hm).1, by decide, by simp⟩
  · simp [Sheet.sLine, hi]
  · simp [Sheet.uLine, hu.1]
  · simp [Sheet.f0Line, hn.1, hi]
  · simp [Sheet.f1Line, hf.1, hi]

theorem Sheet.strip_eq (s : Sheet) : s.strip = s ↔ EndsLine s.unique := by
  rw [← stripCr_eq_self]
  constructor
  · exact fun h => congrArg Sheet.unique h
  · intro h
    unfold Sheet.strip
    rw [h]

theorem Sheet.lns_strip (s : Sheet) (h : ReadSheet s) : s.lns.map stripCr = s.strip.lns := by
  have hl : (labelLines 2 s.labels).map stripCr = labelLines 2 s.labels := by
    rw [map_stripCr_eq]
    exact fun l hm => (labelLines_oneLine 2 _ h.2.2.2.2.2.2.2.2.2 l hm).2
  have h1 : stripCr s.uLine = s.strip.uLine := stripCr_sep ['U'] (by decide) _
  have h2 : stripCr s.sLine = s.sLine := stripCr_id _ (endsLine_int _ _)
  have h3 : stripCr s.f0Line = s.f0Line := stripCr_id _ (endsLine_int _ _)
  have h4 : stripCr s.f1Line = s.f1Line := stripCr_id _ (endsLine_int _ _)
  have h5 : stripCr (str! "$Sheet") = str! "$Sheet" := by decide
  have h6 : stripCr (str! "$EndSheet") = str! "$EndSheet" := by decide
  unfold Sheet.lns
  simp only [List.map_cons, List.map_append, List.map_nil, hl, h1, h2, h3, h4, h5, h6]
  rfl

theorem sheetLoop_done (d : Sheet) (rest : List Str) :
    parseSheetLoop d (str! "$EndSheet" :: rest) = .ok (d, str! "$EndSheet" :: rest) := by
  rw [parseSheetLoop.eq_def]
  simp only
  rw [if_pos trivial]

theorem sheetLoop_s (d s : Sheet) (h : ReadSheet s) (rest : List Str) :
    parseSheetLoop d (s.sLine :: rest) =
      parseSheetLoop { d with x := s.x, y := s.y, dimx := s.dimx, dimy := s.dimy } rest := by
  have hw : Words [str! "S", showInt s.x, showInt s.y, showInt s.dimx, showInt s.dimy] s.sLine := by
    unfold Sheet.sLine
    flat
    exact Words.bare (w := str! "S") (by decide) (Words.bare (word_showInt _) (Words.bare (word_showInt _)
      (Words.bare (word_showInt _) (Words.bare1 (word_showInt _)))))
  have hf : Verif.firstWord s.sLine = some (str! "S") := by
    unfold Sheet.sLine
    flat
    exact firstWord_char _ (by decide) (by decide)
  have hne := ne_of_firstWord (e := str! "$EndSheet") hf (by decide) (by decide)
  have hs := hw.splitN
  simp only [List.length_cons, List.length_nil, Nat.reduceAdd] at hs
  obtain ⟨hx, hy, hdx, hdy, _⟩ := h
  rw [parseSheetLoop.eq_def]
  simp only
  rw [if_neg hne]
  simp [hf, parseSheetS, hs, i64R_showInt hx, i64R_showInt hy, i64R_showInt hdx, i64R_showInt hdy]

theorem sheetLoop_u (d s : Sheet) (hu : Word s.unique) (rest : List Str) :
    parseSheetLoop d (s.uLine :: rest) = parseSheetLoop { d with unique := s.unique } rest := by
  have hw : Words [str! "U", s.unique] s.uLine := by
    unfold Sheet.uLine
    flat
    exact Words.bare (w := str! "U") (by decide) (Words.bare1 hu)
  have hf : Verif.firstWord s.uLine = some (str! "U") := by
    unfold Sheet.uLine
    flat
    exact firstWord_char _ (by decide) (by decide)
  have hne := ne_of_firstWord (e := str! "$EndSheet") hf (by decide) (by decide)
  have hs := hw.splitN
  simp only [List.length_cons, List.length_nil, Nat.reduceAdd] at hs
  rw [parseSheetLoop.eq_def]
  simp only
  rw [if_neg hne]
  simp [hf, parseSheetU, hs]

theorem sheetLoop_f0 (d s : Sheet) (h : ReadSheet s) (rest : List Str) :
    parseSheetLoop d (s.f0Line :: rest) =
      parseSheetLoop { d with name := s.name, nameSize := s.nameSize } rest := by
  obtain ⟨_, _, _, _, _, hn, hsz, _⟩ := h
  have hw : Words [str! "F0", s.name, showInt s.nameSize] s.f0Line := by
    unfold Sheet.f0Line
    flat
    exact Words.bare (w := str! "F0") (by decide) (Words.quoted hn.2 (Words.bare1 (word_showInt _)))
  have hf : Verif.firstWord s.f0Line = some (str! "F0") := by
    unfold Sheet.f0Line
    flat
    exact firstWord_word (w := str! "F0") (by decide) (by decide) _
  have hne := ne_of_firstWord (e := str! "$EndSheet") hf (by decide) (by decide)
  have hs := hw.splitN
  simp only [List.length_cons, List.length_nil, Nat.reduceAdd] at hs
  have h0 : i64R ['0'] = .ok 0 := by decide
  rw [parseSheetLoop.eq_def]
  simp only
  rw [if_neg hne]
  simp [hf, parseSheetF, hs, startsWith, h0, i64R_showInt hsz]

theorem sheetLoop_f1 (d s : Sheet) (h : ReadSheet s) (rest : List Str) :
    parseSheetLoop d (s.f1Line :: rest) =
      parseSheetLoop { d with filename := s.filename, filenameSize := s.filenameSize } rest := by
  obtain ⟨_, _, _, _, _, _, _, hn, hsz, _⟩ := h
  have hw : Words [str! "F1", s.filename, showInt s.filenameSize] s.f1Line := by
    unfold Sheet.f1Line
    flat
    exact Words.bare (w := str! "F1") (by decide) (Words.quoted hn.2 (Words.bare1 (word_showInt _)))
  have hf : Verif.firstWord s.f1Line = some (str! "F1") := by
    unfold Sheet.f1Line
    flat
    exact firstWord_word (w := str! "F1") (by decide) (by decide) _
  have hne := ne_of_firstWord (e := str! "$EndSheet") hf (by decide) (by decide)
  have hs := hw.splitN
  simp only [List.length_cons, List.length_nil, Nat.reduceAdd] at hs
  have h0 : i64R ['1'] = .ok 1 := by decide
  rw [parseSheetLoop.eq_def]
  simp only
  rw [if_neg hne]
  simp [hf, parseSheetF, hs, startsWith, h0, i64R_showInt hsz]

theorem i64R_showNat {n : Nat} (h : n < 9223372036854775808) : i64R (showNat n) = .ok (n : Int) := by
  have := i64R_showInt (i := (n : Int)) (by unfold inI64; omega)
  exact this

theorem sheetLoop_labels (d : Sheet) (i : Nat) (hi : 2 ≤ i) (l : List SheetLabel)
    (h : ∀ a ∈ l, FitsLabel a) (hlen : i + l.length ≤ 2147483648) (rest : List Str) :
    parseSheetLoop d (labelLines i l ++ rest) = parseSheetLoop { d with labels := d.labels ++ l } rest := by
  induction l generalizing d i with
  | nil => simp [labelLines]
  | cons a l ih =>
    rw [List.forall_mem_cons] at h
    rw [List.length_cons] at hlen
    have hs := (SheetLabel.words i a h.1).splitN
    simp only [List.length_cons, List.length_nil, Nat.reduceAdd] at hs
    have hf : Verif.firstWord (str! "F" ++ showNat i ++ str! " " ++ a.show) = some ('F' :: showNat i) := by
      flat
      exact firstWord_word (solid_fnum i) (by decide) _
    have hne := ne_of_firstWord (e := str! "$EndSheet") hf (by decide)
      (by simp)
    have hS : ('F' :: showNat i) ≠ str! "S" := by simp
    have hU : ('F' :: showNat i) ≠ str! "U" := by simp
    have hsw : startsWith ('F' :: showNat i) (str! "F") = true := by simp [startsWith]
    have hform : parseLabelForm a.form.show = .ok a.form := by cases a.form <;> rfl
    have hside : parseLabelSide a.side.show = .ok a.side := by cases a.side <;> rfl
    have hlab : parseSheetLabel (str! "F" ++ showNat i ++ str! " " ++ a.show) = .ok a := by
      rw [parseSheetLabel, hs]
      simp [hform, hside, i64R_showInt h.1.2.1, i64R_showInt h.1.2.2.1,
        i64R_showInt h.1.2.2.2]
    have hF : parseSheetF (str! "F" ++ showNat i ++ str! " " ++ a.show) d ('F' :: showNat i) =
        .ok { d with labels := d.labels ++ [a] } := by
      unfold parseSheetF
      rw [List.drop_succ_cons, List.drop_zero, i64R_showNat (by omega), Res.bind_ok,
        if_neg (by omega), if_neg (by omega), hlab]
      rfl
    rw [labelLines, List.cons_append, parseSheetLoop.eq_def]
    simp only
    rw [if_neg hne, hf]
    simp only
    rw [if_neg hS, if_neg hU, if_pos hsw, hF, Res.bind_ok, ih _ _ (by omega) h.2 (by omega)]
    simp

/-- A sheet whose lines can be read back. -/
def LineSheet (s : Sheet) : Prop := ReadSheet s ∧ Word s.unique ∧ s.labels.length < 2147483646

theorem parseSheet_lns (s : Sheet) (h : LineSheet s) (rest : List Str) :
    parseSheet (s.lns ++ rest) = .ok (s, str! "$EndSheet" :: rest) := by
  obtain ⟨hr, hu, hlen⟩ := h
  have hl := hr.2.2.2.2.2.2.2.2.2
  unfold parseSheet Sheet.lns next
  simp only [List.cons_append, List.drop_succ_cons, List.drop_zero, List.append_assoc, List.nil_append]
  rw [sheetLoop_s _ s hr, sheetLoop_u _ s hu, sheetLoop_f0 _ s hr, sheetLoop_f1 _ s hr,
    sheetLoop_labels _ 2 (Nat.le_refl _) _ hl (by omega), sheetLoop_done]
  simp [Sheet.dflt]

/-! ### Wires, connections and texts -/

def Wire.lns (w : Wire) : List Str :=
  [str! "Wire " ++ w.type_.show ++ str! " Line",
   str! "\t" ++ showInt w.x1 ++ str! " " ++ showInt w.y1 ++ str! " " ++ showInt w.x2 ++ str! " " ++ showInt w.y2]

theorem Wire.show_eq (w : Wire) : w.show = unlines w.lns := by
  unfold Wire.show Wire.lns
  simp only [unlines, List.append_assoc, List.cons_append, List.nil_append]

theorem Wire.lns_oneLine (w : Wire) : ∀ l ∈ w.lns, OneLine l := by
  have hi := fun (x : Int) => (word_showInt x).noLf
  have ht : OneLine (str! "Wire " ++ w.type_.show ++ str! " Line") := by cases w.type_ <;> decide
  simp only [Wire.lns, List.forall_mem_cons]
  refine ⟨ht, ⟨?_, endsLine_int _ _⟩, by simp⟩
  simp [hi]

/-- The last printed line of a wire. -/
def Wire.last (w : Wire) : Str :=
  str! "\t" ++ showInt w.x1 ++ str! " " ++ showInt w.y1 ++ str! " " ++ showInt w.x2 ++ str! " " ++ showInt w.y2

theorem parseWire_lns (w : Wire) (h : FitsWire w) (rest : List Str) :
    parseWire (w.lns ++ rest) = .ok (w, w.last :: rest) := by
  have h1 : splitWs (str! "Wire " ++ w.type_.show ++ str! " Line") = [str! "Wire", w.type_.show, str! "Line"] := by
    cases w.type_ <;> decide
  have h2 : splitWs w.last = [showInt w.x1, showInt w.y1, showInt w.x2, showInt w.y2] := by
    unfold Wire.last
    flat
    rw [splitWs_space (by decide), splitWs_word (solid_showInt _) (by decide),
      splitWs_word (solid_showInt _) (by decide), splitWs_word (solid_showInt _) (by decide),
      splitWs_last (solid_showInt _)]
  have h3 : (if w.type_.show = str! "Notes" then WireType.notes
      else if w.type_.show = str! "Bus" then .bus else .wire) = w.type_ := by
    cases w.type_ <;> decide
  have hl : w.lns = [str! "Wire " ++ w.type_.show ++ str! " Line", w.last] := rfl
  obtain ⟨a, b, c, d⟩ := h
  rw [hl, parseWire]
  simp only [here, next, List.cons_append, List.nil_append, List.drop_succ_cons, List.drop_zero, Res.bind_ok]
  have h1' := h1
  simp only [List.cons_append, List.nil_append] at h1'
  rw [h1', h2]
  simp [i64R_showInt a, i64R_showInt b, i64R_showInt c, i64R_showInt d, h3]

def connLine (p : Pos) : Str := str! "Connection ~ " ++ showInt p.x ++ str! " " ++ showInt p.y
def noConnLine (p : Pos) : Str := str! "NoConn ~ " ++ showInt p.x ++ str! " " ++ showInt p.y

theorem splitWs_conn (p : Pos) : splitWs (connLine p) = [str! "Connection", str! "~", showInt p.x, showInt p.y] := by
  unfold connLine
  flat
  have := splitWs_word (w := str! "Connection") (by decide) (c := ' ') (by decide)
    ('~' :: ' ' :: (showInt p.x ++ ' ' :: showInt p.y))
  have h2 := splitWs_word (w := str! "~") (by decide) (c := ' ') (by decide) (showInt p.x ++ ' ' :: showInt p.y)
  simp only [List.cons_append, List.nil_append] at this h2
  rw [this, h2, splitWs_word (solid_showInt _) (by decide), splitWs_last (solid_showInt _)]

theorem splitWs_noConn (p : Pos) : splitWs (noConnLine p) = [str! "NoConn", str! "~", showInt p.x, showInt p.y] := by
  unfold noConnLine
  flat
  have := splitWs_word (w := str! "NoConn") (by decide) (c := ' ') (by decide)
    ('~' :: ' ' :: (showInt p.x ++ ' ' :: showInt p.y))
  have h2 := splitWs_word (w := str! "~") (by decide) (c := ' ') (by decide) (showInt p.x ++ ' ' :: showInt p.y)
  simp only [List.cons_append, List.nil_append] at this h2
  rw [this, h2, splitWs_word (solid_showInt _) (by decide), splitWs_last (solid_showInt _)]

theorem parsePos_conn (p : Pos) (h : FitsPos p) : parsePos (connLine p) = .ok p := by
  simp [parsePos, splitWs_conn, i64R_showInt h.1, i64R_showInt h.2]

theorem parsePos_noConn (p : Pos) (h : FitsPos p) : parsePos (noConnLine p) = .ok p := by
  simp [parsePos, splitWs_noConn, i64R_showInt h.1, i64R_showInt h.2]

def Text.head (t : Text) : Str :=
  str! "Text " ++ t.t.show ++ str! " " ++
  padRight 4 (showInt t.x) ++ str! " " ++ padRight 4 (showInt t.y) ++ str! " " ++
  padRight 4 (showInt t.orientation) ++ str! " " ++ padRight 4 (showInt t.size) ++ str! " " ++
  (match t.shape with | some s => s ++ str! " " | none => []) ++
  (if t.italic then str! "Italic" else str! "~") ++ str! " " ++ showInt t.thickness

def Text.lns (t : Text) : List Str := [t.head, t.text]

theorem Text.show_eq (t : Text) : t.show = unlines t.lns := by
  unfold Text.show Text.lns Text.head
  simp only [unlines, List.append_assoc, List.cons_append, List.nil_append]
  rfl

theorem solid_textType (t : TextType) : Solid t.show := by cases t <;> decide
theorem solid_italic (b : Bool) : Solid (if b then str! "Italic" else str! "~") := by cases b <;> decide

theorem splitWs_textHead (t : Text) (h : ReadText t) :
    splitWs t.head = str! "Text" :: t.t.show :: showInt t.x :: showInt t.y :: showInt t.orientation ::
      showInt t.size :: (t.shape.toList ++ [if t.italic then str! "Italic" else str! "~", showInt t.thickness]) := by
  obtain ⟨_, _, _, _, _, _, hs⟩ := h
  have hsh : ∀ s, t.shape = some s → Solid s := by
    intro s he
    rw [he] at hs
    cases ht : t.t <;> rw [ht] at hs <;> first | exact hs | exact hs.elim
  unfold Text.head
  flat
  have e1 := fun r => splitWs_word (w := str! "Text") (by decide) (c := ' ') (by decide) r
  simp only [List.cons_append, List.nil_append] at e1
  rw [e1, splitWs_word (solid_textType _) (by decide), splitWs_pad (solid_showInt _), splitWs_pad (solid_showInt _),
    splitWs_pad (solid_showInt _), splitWs_pad (solid_showInt _)]
  cases hc : t.shape with
  | none =>
    simp only [List.nil_append, Option.toList]
    rw [splitWs_word (solid_italic _) (by decide), splitWs_last (solid_showInt _)]
  | some s =>
    simp only [List.append_assoc, List.cons_append, List.nil_append, Option.toList]
    rw [splitWs_word (hsh s hc) (by decide), splitWs_word (solid_italic _) (by decide),
      splitWs_last (solid_showInt _)]

theorem Spec.Solid.oneLine {s : Str} (h : Solid s) : OneLine s :=
  ⟨fun hc => absurd (h.2 _ hc) (by decide), fun hc => absurd (h.2 _ (List.mem_of_getLast? hc)) (by decide)⟩

theorem Text.head_oneLine (t : Text) (h : ReadText t) : OneLine t.head := by
  obtain ⟨_, _, _, _, _, ht, hs⟩ := h
  have hp := fun (x : Int) => noLf_padRight (word_showInt x).noLf 4
  have hi := fun (x : Int) => (word_showInt x).noLf
  have h1 := (Spec.Solid.oneLine (solid_textType t.t)).1
  have h2 := (Spec.Solid.oneLine (solid_italic t.italic)).1
  have h3 : '\n' ∉ (match t.shape with | some s => s ++ str! " " | none => []) := by
    cases hc : t.shape with
    | none => decide
    | some s =>
      rw [hc] at hs
      have : OneLine s := by
        cases ht : t.t <;> rw [ht] at hs <;> first | exact Spec.Solid.oneLine hs | exact hs.elim
      simp [this.1]
  refine ⟨?_, endsLine_int _ _⟩
  simp only [Text.head, List.mem_append, hp, hi, h1, h2, h3, or_false]
  decide

theorem Text.lns_noLf (t : Text) (h : ReadText t) : ∀ l ∈ t.lns, '\n' ∉ l := by
  simp only [Text.lns, List.forall_mem_cons]
  exact ⟨(t.head_oneLine h).1, h.2.2.2.2.2.1, by simp⟩

theorem parseText_lns (t : Text) (h : ReadText t) (rest : List Str) :
    parseText (t.lns ++ rest) = .ok (t, t.text :: rest) := by
  have hs := splitWs_textHead t h
  obtain ⟨a, b, c, d, e, _, hsh⟩ := h
  obtain ⟨ty, x, y, o, sz, shape, it, th, tx⟩ := t
  simp only at a b c d e hsh hs
  have hty : parseTextType ty.show = .ok ty := by cases ty <;> rfl
  have hit : decide ((if it then str! "Italic" else str! "~") = str! "Italic") = it := by cases it <;> decide
  unfold parseText Text.lns
  simp only [here, next, List.cons_append, List.nil_append, List.drop_succ_cons, List.drop_zero, Res.bind_ok, hs]
  cases shape with
  | none =>
    cases ty with
    | global => exact hsh.elim
    | hierarchical => exact hsh.elim
    | note =>
      simp [hty, i64R_showInt a, i64R_showInt b, i64R_showInt c, i64R_showInt d, i64R_showInt e,
        TextType.isLocal, hit]
    | label =>
      simp [hty, i64R_showInt a, i64R_showInt b, i64R_showInt c, i64R_showInt d, i64R_showInt e,
        TextType.isLocal, hit]
  | some s =>
    cases ty with
    | note => exact hsh.elim
    | label => exact hsh.elim
    | global =>
      simp [hty, i64R_showInt a, i64R_showInt b, i64R_showInt c, i64R_showInt d, i64R_showInt e,
        TextType.isLocal, hit]
    | hierarchical =>
      simp [hty, i64R_showInt a, i64R_showInt b, i64R_showInt c, i64R_showInt d, i64R_showInt e,
        TextType.isLocal, hit]

/-! ### The description -/

/-- A line of a word and a quoted text. -/
def qLine (w s : Str) : Str := w ++ str! " \"" ++ s ++ str! "\""

def Description.descrLine (d : Description) : Str :=
  str! "$Descr " ++ d.size ++ str! " " ++ showInt d.dimx ++ str! " " ++ showInt d.dimy
def Description.sheetLine (d : Description) : Str :=
  str! "Sheet " ++ showInt d.sheet ++ str! " " ++ showInt d.sheetCount

def Description.lns (d : Description) : List Str :=
  [d.descrLine, str! "encoding utf-8", d.sheetLine, qLine (str! "Title") d.title, qLine (str! "Date") d.date,
   qLine (str! "Rev") d.rev, qLine (str! "Comp") d.comp, qLine (str! "Comment1") d.comment1,
   qLine (str! "Comment2") d.comment2, qLine (str! "Comment3") d.comment3, qLine (str! "Comment4") d.comment4,
   str! "$EndDescr"]

theorem Description.show_eq (d : Description) : d.show = unlines d.lns := by
  unfold Description.show Description.lns qLine Description.descrLine Description.sheetLine
  simp only [unlines, List.append_assoc, List.cons_append, List.nil_append]

theorem oneLine_qLine {w s : Str} (hw : '\n' ∉ w) (hs : '\n' ∉ s) : OneLine (qLine w s) := by
  refine ⟨by simp [qLine, hw, hs], ?_⟩
  unfold qLine
  rw [endsLine_append _ (by simp)]
  decide

theorem Description.lns_oneLine (d : Description) (h : ReadDescription d) : ∀ l ∈ d.lns, OneLine l := by
  obtain ⟨h1, _, _, h2, h3, h4, h5, h6, h7, h8, h9, _⟩ := h
  have hi := fun (x : Int) => (word_showInt x).noLf
  simp only [Description.lns, List.forall_mem_cons]
  refine ⟨⟨?_, endsLine_int _ _⟩, by decide, ⟨?_, endsLine_int _ _⟩, oneLine_qLine (by decide) h2.1,
    oneLine_qLine (by decide) h3.1,
    oneLine_qLine (by decide) h4.1, oneLine_qLine (by decide) h5.1, oneLine_qLine (by decide) h6.1,
    oneLine_qLine (by decide) h7.1, oneLine_qLine (by decide) h8.1, oneLine_qLine (by decide) h9.1,
    by decide, by simp⟩
  · simp [Description.descrLine, hi, h1.1]
  · simp [Description.sheetLine, hi]

theorem wordAndQstring_qLine {w s : Str} (hw : Word w) (hs : Quotable s) :
    wordAndQstring w (qLine w s) = .ok s := by
  have h : Words [w, s] (qLine w s) := by
    unfold qLine
    flat
    exact Words.bare hw (Words.quoted1 hs.2)
  have hs := h.splitN
  simp only [List.length_cons, List.length_nil, Nat.reduceAdd] at hs
  simp [wordAndQstring, hs, assumeString]

theorem parseDescription_lns (d : Description) (h : FitsDescription d) (rest : List Str) :
    parseDescription (d.lns ++ rest) = .ok (d, str! "$EndDescr" :: rest) := by
  obtain ⟨h1, hx, hy, h2, h3, h4, h5, h6, h7, h8, h9, hs, hc⟩ := h
  have hw1 : Words [str! "$Descr", d.size, showInt d.dimx, showInt d.dimy] d.descrLine := by
    unfold Description.descrLine
    flat
    exact Words.bare (w := str! "$Descr") (by decide) (Words.bare h1 (Words.bare (word_showInt _)
      (Words.bare1 (word_showInt _))))
  have hw2 : Words [str! "Sheet", showInt d.sheet, showInt d.sheetCount] d.sheetLine := by
    unfold Description.sheetLine
    flat
    exact Words.bare (w := str! "Sheet") (by decide) (Words.bare (word_showInt _) (Words.bare1 (word_showInt _)))
  have hs1 := hw1.splitN
  have hs2 := hw2.splitN
  simp only [List.length_cons, List.length_nil, Nat.reduceAdd] at hs1 hs2
  unfold parseDescription Description.lns
  simp only [here, next, List.cons_append, List.nil_append, List.drop_succ_cons, List.drop_zero, Res.bind_ok,
    hs1, hs2, idx_succ, idx_zero, i64R_showInt hx, i64R_showInt hy, i64R_showInt hs, i64R_showInt hc,
    ne_eq, not_true, if_false]
  rw [wordAndQstring_qLine (by decide) h2, Res.bind_ok, wordAndQstring_qLine (by decide) h3, Res.bind_ok,
    wordAndQstring_qLine (by decide) h4, Res.bind_ok, wordAndQstring_qLine (by decide) h5, Res.bind_ok,
    wordAndQstring_qLine (by decide) h6, Res.bind_ok, wordAndQstring_qLine (by decide) h7, Res.bind_ok,
    wordAndQstring_qLine (by decide) h8, Res.bind_ok, wordAndQstring_qLine (by decide) h9, Res.bind_ok]
  simp [assumeString]

/-! ### Items -/

def Element.lns : Element F → List Str
  | .component c => c.lns
  | .wire w => w.lns
  | .connection p => [connLine p]
  | .noConnect p => [noConnLine p]
  | .text t => t.lns
  | .other s => [s]

theorem Element.show_eq (e : Element F) : e.show = unlines e.lns := by
  cases e with
  | component c => exact c.show_eq
  | wire w => exact w.show_eq
  | connection p =>
    simp only [Element.show, Element.lns, showConnection, connLine, unlines, List.append_assoc, List.cons_append,
      List.nil_append]
  | noConnect p =>
    simp only [Element.show, Element.lns, showNoConnect, noConnLine, unlines, List.append_assoc, List.cons_append,
      List.nil_append]
  | text t => exact t.show_eq
  | other s => rfl

theorem Element.lns_noLf (e : Element F) (h : ReadElement e) : ∀ l ∈ e.lns, '\n' ∉ l := by
  have hi := fun (x : Int) => (word_showInt x).noLf
  cases e with
  | component c => exact c.lns_noLf h
  | wire w => exact fun l hl => (w.lns_oneLine l hl).1
  | connection p => simp [Element.lns, connLine, hi]
  | noConnect p => simp [Element.lns, noConnLine, hi]
  | text t => exact t.lns_noLf h
  | other s => simpa [Element.lns] using h.1

theorem Element.strip_eq (e : Element F) : e.strip = e ↔ EndedElement e := by
  cases e with
  | component c => simp [Element.strip, EndedElement, c.strip_eq]
  | text t =>
    simp only [Element.strip, EndedElement, ← stripCr_eq_self, Element.text.injEq]
    constructor
    · exact fun h => congrArg Text.text h
    · intro h; rw [h]
  | other s => simp [Element.strip, EndedElement, stripCr_eq_self]
  | _ => simp [Element.strip, EndedElement]

theorem Element.lns_strip (e : Element F) (h : ReadElement e) : e.lns.map stripCr = e.strip.lns := by
  cases e with
  | component c => exact c.lns_strip h
  | wire w => exact (map_stripCr_eq _).2 fun l hl => (w.lns_oneLine l hl).2
  | connection p =>
    have : EndsLine (connLine p) := endsLine_int _ _
    exact (map_stripCr_eq _).2 (by simpa [Element.lns] using this)
  | noConnect p =>
    have : EndsLine (noConnLine p) := endsLine_int _ _
    exact (map_stripCr_eq _).2 (by simpa [Element.lns] using this)
  | text t =>
    show [stripCr t.head, stripCr t.text] = [t.head, stripCr t.text]
    rw [stripCr_id _ (t.head_oneLine h).2]
  | other s => rfl

theorem Element.lns_oneLine (e : Element F) (h : ReadElement e) (he : EndedElement e) : ∀ l ∈ e.lns, OneLine l := by
  have := e.lns_strip h
  rw [(e.strip_eq).2 he, map_stripCr_eq] at this
  exact fun l hl => ⟨e.lns_noLf h l hl, this l hl⟩

theorem Sheet.lns_oneLine (s : Sheet) (h : ReadSheet s) (he : EndsLine s.unique) : ∀ l ∈ s.lns, OneLine l := by
  have := s.lns_strip h
  rw [(s.strip_eq).2 he, map_stripCr_eq] at this
  exact fun l hl => ⟨s.lns_noLf h l hl, this l hl⟩

theorem Component.lns_oneLine (s : Component F) (h : ReadComponent s) (he : EndedComponent s) :
    ∀ l ∈ s.lns, OneLine l := Element.lns_oneLine (.component s) h he

/-- One turn of the main loop reads one element, up to its last line. -/
theorem parseItem_element (sch : Schematic F) (e : Element F) (h : ReadElement e) (hw : WritableElement e)
    (rest : List Str) :
    ∃ l, parseItem sch (e.lns ++ rest) = .ok ({ sch with elements := sch.elements ++ [e] }, l :: rest) := by
  cases e with
  | component c =>
    refine ⟨str! "$EndComp", ?_⟩
    have hf : Verif.firstWord (str! "$Comp") = some (str! "$Comp") := by decide
    have hp := parseComponent_lns c h hw rest
    rw [Element.lns, parseItem, hp, Component.lns, List.cons_append]
    simp only [here, Res.bind_ok, hf]
    rfl
  | wire w =>
    refine ⟨w.last, ?_⟩
    have hf : Verif.firstWord (str! "Wire " ++ w.type_.show ++ str! " Line") = some (str! "Wire") := by
      cases w.type_ <;> decide
    have hp := parseWire_lns w h rest
    rw [Element.lns, parseItem, hp, Wire.lns, List.cons_append]
    simp only [here, Res.bind_ok, hf]
    rfl
  | connection p =>
    refine ⟨connLine p, ?_⟩
    have hf : Verif.firstWord (connLine p) = some (str! "Connection") := by
      rw [Verif.firstWord, splitWs_conn]; rfl
    rw [Element.lns, parseItem, List.cons_append]
    simp only [here, Res.bind_ok, hf, parsePos_conn p h]
    rfl
  | noConnect p =>
    refine ⟨noConnLine p, ?_⟩
    have hf : Verif.firstWord (noConnLine p) = some (str! "NoConn") := by
      rw [Verif.firstWord, splitWs_noConn]; rfl
    rw [Element.lns, parseItem, List.cons_append]
    simp only [here, Res.bind_ok, hf, parsePos_noConn p h]
    rfl
  | text t =>
    refine ⟨t.text, ?_⟩
    have hf : Verif.firstWord t.head = some (str! "Text") := by
      rw [Verif.firstWord, splitWs_textHead t h]; rfl
    have hp := parseText_lns t h rest
    rw [Element.lns, parseItem, hp, Text.lns, List.cons_append]
    simp only [here, Res.bind_ok, hf]
    rfl
  | other s =>
    refine ⟨s, ?_⟩
    obtain ⟨_, w, hw, hn⟩ := h
    have hf : Verif.firstWord s = some w := hw
    simp only [itemWords, List.mem_cons, List.not_mem_nil, or_false, not_or] at hn
    obtain ⟨n1, n2, n3, n4, n5, n6, n7, n8⟩ := hn
    rw [Element.lns, parseItem, List.cons_append]
    simp only [here, Res.bind_ok, hf]
    rw [if_neg n1, if_neg n2, if_neg n3, if_neg n4, if_neg n5, if_neg n6, if_neg n7, if_neg n8]
    rfl

theorem parseItem_sheet (sch : Schematic F) (s : Sheet) (h : LineSheet s) (rest : List Str) :
    parseItem sch (s.lns ++ rest) =
      .ok ({ sch with sheets := sch.sheets ++ [s] }, str! "$EndSheet" :: rest) := by
  have hf : Verif.firstWord (str! "$Sheet") = some (str! "$Sheet") := by decide
  have hp := parseSheet_lns s h rest
  rw [parseItem, hp, Sheet.lns, List.cons_append]
  simp only [here, Res.bind_ok, hf]
  rfl

theorem parseItem_descr (sch : Schematic F) (d : Description) (h : FitsDescription d) (rest : List Str) :
    parseItem sch (d.lns ++ rest) = .ok ({ sch with description := d }, str! "$EndDescr" :: rest) := by
  have hf : Verif.firstWord d.descrLine = some (str! "$Descr") := by
    unfold Description.descrLine
    flat
    exact firstWord_word (w := str! "$Descr") (by decide) (by decide) _
  have hp := parseDescription_lns d h rest
  rw [parseItem, hp, Description.lns, List.cons_append]
  simp only [here, Res.bind_ok, hf]
  rfl

theorem parseItems_step (n : Nat) (sch sch' : Schematic F) (ls : List Str) (l : Str) (rest : List Str)
    (h0 : ls ≠ []) (h : parseItem sch (ls ++ rest) = .ok (sch', l :: rest)) :
    parseItems (n + 1) sch (ls ++ rest) = parseItems n sch' rest := by
  cases ls with
  | nil => exact absurd rfl h0
  | cons a ls =>
    rw [List.cons_append] at h ⊢
    rw [parseItems, h]
    · rfl
    · simp

theorem Element.lns_ne (e : Element F) : e.lns ≠ [] := by
  cases e <;> simp [Element.lns, Component.lns, Wire.lns, Text.lns]

theorem parseItems_elements (es : List (Element F)) (h : ∀ e ∈ es, ReadElement e ∧ WritableElement e) (n : Nat) (sch : Schematic F)
    (rest : List Str) :
    parseItems (n + es.length) sch (es.flatMap Element.lns ++ rest) =
      parseItems n { sch with elements := sch.elements ++ es } rest := by
  induction es generalizing sch with
  | nil => simp
  | cons e es ih =>
    rw [List.forall_mem_cons] at h
    rw [List.flatMap_cons, List.append_assoc, List.length_cons, ← Nat.add_assoc]
    obtain ⟨l, hl⟩ := parseItem_element sch e h.1.1 h.1.2 (es.flatMap Element.lns ++ rest)
    rw [parseItems_step _ _ _ _ l _ e.lns_ne hl, ih h.2]
    simp

theorem parseItems_sheets (es : List Sheet) (h : ∀ e ∈ es, LineSheet e) (n : Nat) (sch : Schematic F)
    (rest : List Str) :
    parseItems (n + es.length) sch (es.flatMap Sheet.lns ++ rest) =
      parseItems n { sch with sheets := sch.sheets ++ es } rest := by
  induction es generalizing sch with
  | nil => simp
  | cons e es ih =>
    rw [List.forall_mem_cons] at h
    rw [List.flatMap_cons, List.append_assoc, List.length_cons, ← Nat.add_assoc]
    rw [parseItems_step _ _ _ _ _ _ (by simp [Sheet.lns]) (parseItem_sheet sch e h.1 _), ih h.2]
    simp

/-- More fuel does not change a result. -/
theorem parseItems_fuel (n k : Nat) (sch r : Schematic F) (p : List Str)
    (h : parseItems n sch p = .ok r) : parseItems (n + k) sch p = .ok r := by
  induction n generalizing sch p with
  | zero =>
    cases p with
    | nil => cases k <;> simpa [parseItems] using h
    | cons a p => simp [parseItems] at h
  | succ n ih =>
    cases p with
    | nil =>
      rw [parseItems] at h ⊢
      exact h
    | cons a p =>
      rw [Nat.succ_add]
      rw [parseItems] at h ⊢
      · obtain ⟨⟨s2, p2⟩, h1, h2⟩ := Res.bind_eq_ok.1 h
        rw [h1]
        exact ih _ _ h2
      all_goals simp

/-! ### The whole file -/

def Schematic.lns (s : Schematic F) : List Str :=
  str! "EESchema Schematic File Version 2" :: (s.libraries.map (fun l => str! "LIBS:" ++ l) ++
    (s.eelayer :: str! "EELAYER END" :: (s.description.lns ++ (s.elements.flatMap Element.lns ++
      (s.sheets.flatMap Sheet.lns ++ [str! "$EndSCHEMATC"])))))

theorem Schematic.show_eq (s : Schematic F) : s.show = unlines s.lns := by
  unfold Schematic.show Schematic.lns
  have h1 : (s.elements.map Element.show).flatten = unlines (s.elements.flatMap Element.lns) := by
    rw [unlines_flatMap]
    exact congrArg List.flatten (List.map_congr_left fun e _ => e.show_eq)
  have h2 : (s.sheets.map Sheet.show).flatten = unlines (s.sheets.flatMap Sheet.lns) := by
    rw [unlines_flatMap]
    exact congrArg List.flatten (List.map_congr_left fun e _ => e.show_eq)
  rw [h1, h2, Description.show_eq]
  simp only [unlines, unlines_append, unlines_map, List.append_assoc, List.cons_append, List.nil_append]

theorem Schematic.lns_noLf (s : Schematic F) (h : ReadSchematic s) (he : '\n' ∉ s.eelayer) :
    ∀ l ∈ s.lns, '\n' ∉ l := by
  obtain ⟨hl, hd, hes, hsh⟩ := h
  simp only [Schematic.lns, List.forall_mem_cons, List.forall_mem_append, List.forall_mem_map]
  refine ⟨by decide, fun l hm => ?_, he, by decide, fun l hm => (s.description.lns_oneLine hd l hm).1, ?_, ?_, by decide,
    by simp⟩
  · have := hl l hm
    simp [this]
  · intro l hm
    obtain ⟨e, h1, h2⟩ := List.mem_flatMap.1 hm
    exact e.lns_noLf (hes e h1) l h2
  · intro l hm
    obtain ⟨e, h1, h2⟩ := List.mem_flatMap.1 hm
    exact e.lns_noLf (hsh e h1) l h2

theorem flatMap_congr_mem {α β : Type} {l : List α} {f g : α → List β} (h : ∀ a ∈ l, f a = g a) :
    l.flatMap f = l.flatMap g := by
  induction l with
  | nil => rfl
  | cons a l ih =>
    rw [List.forall_mem_cons] at h
    rw [List.flatMap_cons, List.flatMap_cons, h.1, ih h.2]

theorem map_eq_self {α : Type} (f : α → α) (l : List α) : l.map f = l ↔ ∀ a ∈ l, f a = a := by
  induction l with
  | nil => simp
  | cons a l ih => simp [ih]

theorem Schematic.strip_eq (s : Schematic F) : s.strip = s ↔ Ended s := by
  have h1 : s.elements.map Element.strip = s.elements ↔ ∀ e ∈ s.elements, EndedElement e := by
    simp only [map_eq_self, Element.strip_eq]
  have h2 : s.sheets.map Sheet.strip = s.sheets ↔ ∀ e ∈ s.sheets, EndsLine (Sheet.unique e) := by
    simp only [map_eq_self, Sheet.strip_eq]
  unfold Ended
  rw [← h1, ← h2, ← stripCr_eq_self, ← map_stripCr_eq]
  constructor
  · intro h
    exact ⟨congrArg Schematic.libraries h, congrArg Schematic.eelayer h, congrArg Schematic.elements h,
      congrArg Schematic.sheets h⟩
  · rintro ⟨a, b, c, d⟩
    unfold Schematic.strip
    rw [a, b, c, d]

theorem Schematic.lns_strip (s : Schematic F) (h : ReadSchematic s) : s.lns.map stripCr = s.strip.lns := by
  obtain ⟨hl, hd, hes, hsh⟩ := h
  have h1 : s.description.lns.map stripCr = s.description.lns :=
    (map_stripCr_eq _).2 fun l hm => (s.description.lns_oneLine hd l hm).2
  have h2 : (s.elements.flatMap Element.lns).map stripCr = (s.elements.map Element.strip).flatMap Element.lns := by
    rw [List.map_flatMap, List.flatMap_map]
    exact flatMap_congr_mem fun e he => e.lns_strip (hes e he)
  have h3 : (s.sheets.flatMap Sheet.lns).map stripCr = (s.sheets.map Sheet.strip).flatMap Sheet.lns := by
    rw [List.map_flatMap, List.flatMap_map]
    exact flatMap_congr_mem fun e he => e.lns_strip (hsh e he)
  have h4 : (s.libraries.map fun l => str! "LIBS:" ++ l).map stripCr =
      (s.libraries.map stripCr).map fun l => str! "LIBS:" ++ l := by
    rw [List.map_map, List.map_map]
    exact List.map_congr_left fun l _ => stripCr_sep (str! "LIBS") (c := ':') (by decide) l
  have h5 : stripCr (str! "EESchema Schematic File Version 2") = str! "EESchema Schematic File Version 2" := by decide
  have h6 : stripCr (str! "EELAYER END") = str! "EELAYER END" := by decide
  have h7 : stripCr (str! "$EndSCHEMATC") = str! "$EndSCHEMATC" := by decide
  unfold Schematic.lns
  simp only [List.map_cons, List.map_append, List.map_nil, h1, h2, h3, h4, h5, h6, h7]
  rfl

theorem Schematic.lns_oneLine (s : Schematic F) (h : ReadSchematic s) (hl : '\n' ∉ s.eelayer) (he : Ended s) :
    ∀ l ∈ s.lns, OneLine l := by
  have := s.lns_strip h
  rw [(s.strip_eq).2 he, map_stripCr_eq] at this
  exact fun l hm => ⟨s.lns_noLf h hl l hm, this l hm⟩

theorem parseLibs_lns (sch : Schematic F) (ls : List Str) (s : Str) (hs : startsWith s (str! "LIBS:") = false)
    (rest : List Str) :
    parseLibs sch (ls.map (fun l => str! "LIBS:" ++ l) ++ (s :: rest)) =
      ({ sch with libraries := sch.libraries ++ ls }, s :: rest) := by
  induction ls generalizing sch with
  | nil => simp [parseLibs, hs]
  | cons a ls ih =>
    have h1 : startsWith (str! "LIBS:" ++ a) (str! "LIBS:") = true := by simp [startsWith]
    rw [List.map_cons, List.cons_append, parseLibs, if_pos h1, ih]
    simp

theorem startsWith_iff (s p : Str) : startsWith s p = true ↔ ∃ t, s = p ++ t := by
  unfold startsWith
  rw [List.isPrefixOf_iff_prefix]
  exact ⟨fun ⟨t, h⟩ => ⟨t, h.symm⟩, fun ⟨t, h⟩ => ⟨t, h.symm⟩⟩

/-- A schematic whose lines can be read back. -/
def LineSchematic (s : Schematic F) : Prop :=
  ReadSchematic s ∧ ReadLayer s.eelayer ∧ Writable s ∧ CountableLabels s

theorem fitsSchematic_line (s : Schematic F) : FitsSchematic s ↔ LineSchematic s ∧ Ended s := by
  rw [fitsSchematic_iff]
  unfold LineSchematic
  tauto

/-- Reading the lines of a printed schematic followed by further lines. -/
theorem parseLines_lns_append (f : Option Str) (s : Schematic F) (h : LineSchematic s) (extra : List Str) :
    ∃ n, extra.length ≤ n ∧
      parseLines f (s.lns ++ extra) = parseItems n ({ s with filename := f } : Schematic F) extra := by
  obtain ⟨⟨_, hd1, hes1, hsh1⟩, ⟨_, he⟩, ⟨hd2, hes2, hsh2⟩, hc⟩ := h
  have hd := (fitsDescription_iff _).2 ⟨hd1, hd2⟩
  have hes : ∀ e ∈ s.elements, ReadElement e ∧ WritableElement e := fun e h => ⟨hes1 e h, hes2 e h⟩
  have hsh : ∀ e ∈ s.sheets, LineSheet e := fun e h => ⟨hsh1 e h, hsh2 e h, hc e h⟩
  have hl : startsWith s.eelayer (str! "LIBS:") = false := by
    obtain ⟨t, ht⟩ := (startsWith_iff _ _).1 he
    rw [ht]; rfl
  have hlast : ∀ (sch : Schematic F), parseItem sch ([str! "$EndSCHEMATC"] ++ extra) =
      .ok (sch, str! "$EndSCHEMATC" :: extra) := by
    intro sch
    have hf : Verif.firstWord (str! "$EndSCHEMATC") = some (str! "$EndSCHEMATC") := by decide
    rw [parseItem]
    simp only [List.cons_append, List.nil_append, here, Res.bind_ok, hf]
    rfl
  have hlen : ∃ k, (s.description.lns ++ (s.elements.flatMap Element.lns ++
      (s.sheets.flatMap Sheet.lns ++ ([str! "$EndSCHEMATC"] ++ extra)))).length =
      k + extra.length + 1 + s.sheets.length + s.elements.length + 1 := by
    have h1 : s.elements.length ≤ (s.elements.flatMap Element.lns).length := by
      generalize s.elements = l
      induction l with
      | nil => simp
      | cons e l ih =>
        have : 0 < e.lns.length := List.length_pos_iff.2 e.lns_ne
        simp only [List.flatMap_cons, List.length_append, List.length_cons]
        omega
    have h2 : s.sheets.length ≤ (s.sheets.flatMap Sheet.lns).length := by
      generalize s.sheets = l
      induction l with
      | nil => simp
      | cons e l ih =>
        have : 0 < e.lns.length := List.length_pos_iff.2 (by simp [Sheet.lns])
        simp only [List.flatMap_cons, List.length_append, List.length_cons]
        omega
    have h3 : 0 < s.description.lns.length := by simp [Description.lns]
    refine ⟨s.description.lns.length + (s.elements.flatMap Element.lns).length +
      (s.sheets.flatMap Sheet.lns).length - (s.sheets.length + s.elements.length + 1), ?_⟩
    simp only [List.length_append, List.length_cons, List.length_nil]
    omega
  obtain ⟨k, hk⟩ := hlen
  refine ⟨k + extra.length, by omega, ?_⟩
  have hsp : s.lns ++ extra = str! "EESchema Schematic File Version 2" ::
      ((s.libraries.map fun l => str! "LIBS:" ++ l) ++ (s.eelayer :: str! "EELAYER END" ::
        (s.description.lns ++ (s.elements.flatMap Element.lns ++
          (s.sheets.flatMap Sheet.lns ++ ([str! "$EndSCHEMATC"] ++ extra)))))) := by
    simp [Schematic.lns]
  rw [hsp]
  unfold parseLines
  rw [assumeLine, if_neg (by simp), Res.bind_ok, parseLibs_lns _ _ _ hl]
  simp only [here, Res.bind_ok, he, Bool.not_true, Bool.false_eq_true, if_false, next, List.drop_succ_cons,
    List.drop_zero, assumeLine, ne_eq, not_true]
  rw [hk]
  rw [parseItems_step _ _ _ _ _ _ (by simp [Description.lns]) (parseItem_descr _ _ hd _),
    parseItems_elements _ hes, parseItems_sheets _ hsh,
    parseItems_step (k + extra.length) _ _ [str! "$EndSCHEMATC"] _ extra (by simp) (hlast _)]
  simp [Schematic.dflt]

/-- Reading the lines of a printed schematic. -/
theorem parseLines_lns (f : Option Str) (s : Schematic F) (h : LineSchematic s) :
    parseLines f s.lns = .ok { s with filename := f } := by
  obtain ⟨n, _, hn⟩ := parseLines_lns_append f s h []
  rw [List.append_nil] at hn
  rw [hn]
  cases n <;> rfl

theorem parse_show_append (f : Option Str) (s : Schematic F) (h : FitsSchematic s) (extra : List Str)
    (hx : ∀ l ∈ extra, OneLine l) :
    ∃ n, extra.length ≤ n ∧
      parse f (s.show ++ unlines extra) = parseItems n ({ s with filename := f } : Schematic F) extra := by
  obtain ⟨h, hend⟩ := (fitsSchematic_line s).1 h
  obtain ⟨n, hn, he⟩ := parseLines_lns_append f s h extra
  refine ⟨n, hn, ?_⟩
  rw [parse, s.show_eq, ← unlines_append, lines_unlines, he]
  intro l hl
  rcases List.mem_append.1 hl with hl | hl
  · exact s.lns_oneLine h.1 h.2.1.1 hend l hl
  · exact hx l hl

theorem parse_show (f : Option Str) (s : Schematic F) (h : FitsSchematic s) :
    parse f s.show = .ok { s with filename := f } := by
  obtain ⟨h, hend⟩ := (fitsSchematic_line s).1 h
  rw [parse, s.show_eq, lines_unlines _ (s.lns_oneLine h.1 h.2.1.1 hend), parseLines_lns f s h]

end Verif.Sch
