import Verif.Props.C29
import Verif.Props.C68
import Verif.Lemmas.Difference
import Verif.Lemmas.Lines
/-!
# C122: what fixing a footprint shows in a line-by-line comparison
-/

namespace Verif
open Flt Fp

variable {F : Type} [Flt F]

namespace Spec

/-- The blanks at the start of a line. -/
def margin (level : Int) : Str := List.replicate (2 * level.toNat) ' '

/-- The first line of a text of a footprint: what it says, where, on which layer. -/
def titleLine (q : Str → Bool) (level : Int) (t : FpText F) : Str :=
  margin (level + 1) ++ str! "(" ++ Fm.atomText q (str! "fp_text") ++ str! " " ++ Fm.atomText q t.name ++ str! " " ++
    Fm.atomText q t.value ++ str! " " ++ flat (Fm.atomText q) t.at_.ser ++ str! " " ++
    flat (Fm.atomText q) (.list [.str (str! "layer"), .str t.layer.show]) ++
    (if t.hide then str! " " ++ Fm.atomText q (str! "hide") else [])

/-- The second line of a text: its font. -/
def fontLine (q : Str → Bool) (level : Int) (t : FpText F) : Str :=
  margin (level + 2) ++ flat (Fm.atomText q) t.effects.ser

/-- What the style rules make of a text that says `value` on a layer of type `ty`. -/
def styled (cfg : Config F) (value : Str) (ty : LayerType) (t : FpText F) : FpText F :=
  ⟨t.name, value, t.at_, ⟨t.layer.side, ty⟩,
    ⟨⟨⟨cfg.fontSize, cfg.fontSize, t.effects.font.size.t⟩, cfg.fontThickness, t.effects.font.italic⟩, t.effects.justify⟩, false⟩

/-- The text the rules prescribe in place of a text of this footprint. -/
def Prescribed (cfg : Config F) (m : Module F) (t t' : FpText F) : Prop :=
  (t.name = str! "reference" ∧ t' = styled cfg (str! "REF**") .silkS t) ∨
  (t.name = str! "value" ∧ t' = styled cfg m.name .fab t) ∨
  (t.name = str! "user" ∧ t' = styled cfg (str! "%R") .fab t)

/-- The text that is added if there is no user text. -/
def userText (cfg : Config F) : FpText F :=
  ⟨str! "user", str! "%R", ⟨zero, zero, zero⟩, ⟨.front, .fab⟩,
    ⟨⟨⟨cfg.fontSize, cfg.fontSize, .xy⟩, cfg.fontThickness, false⟩, none⟩, false⟩

/-- The line of a side of a courtyard. -/
def sideLine (q : Str → Bool) (level : Int) (x1 y1 x2 y2 : F) : Str :=
  margin (level + 1) ++ flat (Fm.atomText q)
    (.list [.str (str! "fp_line"), .list [.str (str! "start"), .str (toStr x1), .str (toStr y1)],
      .list [.str (str! "end"), .str (toStr x2), .str (toStr y2)],
      .list [.str (str! "layer"), .str (str! "F.CrtYd")], .list [.str (str! "width"), .str (toStr (lit 5 2 : F))]])

end Spec
open Spec

/-- No word of the tree has a line break. -/
def Diff.OneLine : Sexp → Prop
  | .str s => '\n' ∉ s
  | .empty => True
  | .list l => ∀ x ∈ l.attach, Diff.OneLine x.1
decreasing_by have := List.sizeOf_lt_of_mem x.2; simp; omega

theorem Diff.oneLine_list (l : List Sexp) : Diff.OneLine (.list l) ↔ ∀ x ∈ l, Diff.OneLine x := by
  rw [Diff.OneLine]; simp

mutual
theorem Diff.flat_noLf (q : Str → Bool) : ∀ (e : Sexp), Diff.OneLine e → '\n' ∉ flat (Fm.atomText q) e
  | .str s, h => by
    rw [Diff.OneLine] at h
    exact Diff.atomText_noLf q h
  | .empty, _ => by simp [flat]
  | .list [], _ => by simp [flat]
  | .list (x :: l), h => by
    rw [Diff.oneLine_list] at h
    have h1 := Diff.flat_noLf q x (h x List.mem_cons_self)
    have h2 := Diff.flatL_noLf q l fun y hy => h y (List.mem_cons_of_mem _ hy)
    simp [flat, h1, h2]
theorem Diff.flatL_noLf (q : Str → Bool) : ∀ (l : List Sexp), (∀ x ∈ l, Diff.OneLine x) → '\n' ∉ flatL (Fm.atomText q) l
  | [], _ => by simp [flatL]
  | x :: l, h => by
    have h1 := Diff.flat_noLf q x (h x List.mem_cons_self)
    have h2 := Diff.flatL_noLf q l fun y hy => h y (List.mem_cons_of_mem _ hy)
    simp [flatL, h1, h2]
end

theorem Diff.margin_noLf (l : Int) : '\n' ∉ margin l := by
  unfold margin; intro h; rw [List.mem_replicate] at h; exact absurd h.2 (by decide)

theorem Diff.toStr_noLf [TextLaws F] (x : F) : '\n' ∉ toStr x := (word_toStr x).noLf

theorem Diff.layer_noLf (l : Fp.Layer) (t : LayerType) (h : '\n' ∉ l.show) (ht : '\n' ∉ t.show) :
    '\n' ∉ (Fp.Layer.mk l.side t).show := by
  unfold Fp.Layer.show at h ⊢
  rw [List.mem_append, not_or] at h ⊢
  exact ⟨h.1, ht⟩

variable [TextLaws F]

theorem Diff.at_oneLine (a : At F) : Diff.OneLine a.ser := by
  unfold At.ser Sx.node Sx.ofF
  split <;> simp [Diff.oneLine_list, Diff.OneLine, Diff.toStr_noLf]

theorem Diff.effects_oneLine (e : Effects F) : Diff.OneLine e.ser := by
  unfold Effects.ser Font.ser Sx.node Sx.pair Sx.ofF
  cases e.justify with
  | none => split_ifs <;> simp [Diff.oneLine_list, Diff.OneLine, Diff.toStr_noLf]
  | some j => cases j <;> split_ifs <;> simp [Diff.oneLine_list, Diff.OneLine, Diff.toStr_noLf, Justify.ser, Sx.pair]

theorem Diff.title_noLf (q : Str → Bool) (level : Int) (t : FpText F) (hn : '\n' ∉ t.name) (hv : '\n' ∉ t.value)
    (hl : '\n' ∉ t.layer.show) : '\n' ∉ titleLine q level t := by
  have h1 := Diff.flat_noLf q t.at_.ser (Diff.at_oneLine _)
  have h2 := Diff.flat_noLf q (.list [.str (str! "layer"), .str t.layer.show])
    (by simp [Diff.oneLine_list, Diff.OneLine, hl])
  have h3 := Diff.atomText_noLf q (s := str! "fp_text") (by decide)
  have h4 := Diff.atomText_noLf q (s := str! "hide") (by decide)
  have h5 := Diff.atomText_noLf q hn
  have h6 := Diff.atomText_noLf q hv
  unfold titleLine
  split <;> simp only [List.mem_append, not_or, h1, h2, h3, h4, h5, h6, Diff.margin_noLf, not_false_eq_true, true_and, and_true] <;> decide

theorem Diff.font_noLf (q : Str → Bool) (level : Int) (t : FpText F) : '\n' ∉ fontLine q level t := by
  unfold fontLine
  simp [Diff.margin_noLf, Diff.flat_noLf q _ (Diff.effects_oneLine t.effects)]

omit [TextLaws F] in
/-- A text takes three lines. -/
theorem Diff.text_lines (q : Str → Bool) (level : Int) (t : FpText F) :
    elementText (Fm.atomText q) level (.text t) =
      '\n' :: (titleLine q level t ++ '\n' :: (fontLine q level t ++ '\n' :: (margin (level + 1) ++ str! ")"))) := by
  have hs : ∀ l, startLine 1 l = '\n' :: margin l := fun _ => rfl
  unfold elementText titleLine fontLine
  simp only [hs, FpText.ser, Sx.node, Sx.pair, body, broken]
  cases t.hide <;> simp [At.ser, Effects.ser, Sx.node, flat, flatL]

/-- The same first line, and lines in the given relation after it. -/
def Diff.Tail (R : Str → Str → Prop) (s s' : Str) : Prop :=
  ∃ l ls ls', fileLines s = l :: ls ∧ fileLines s' = l :: ls' ∧ List.Forall₂ R ls ls'

theorem Diff.Tail.refl {R : Str → Str → Prop} (hR : ∀ x, R x x) (s : Str) : Diff.Tail R s s := by
  cases h : fileLines s with
  | nil => exact absurd h (Diff.lines_ne_nil s)
  | cons l ls => exact ⟨l, ls, ls, h, h, List.forall₂_same.2 fun x _ => hR x⟩

theorem Diff.Tail.prefix {R : Str → Str → Prop} (hR : ∀ x, R x x) (c : Str) {s s' : Str} (h : Diff.Tail R s s') :
    Diff.Tail R (c ++ s) (c ++ s') := by
  induction c with
  | nil => exact h
  | cons x c ih =>
    obtain ⟨l, ls, ls', h1, h2, h3⟩ := ih
    simp only [List.cons_append]
    unfold Diff.Tail
    rw [fileLines, fileLines, h1, h2]
    by_cases hx : x = '\n'
    · rw [if_pos hx, if_pos hx]; exact ⟨_, _, _, rfl, rfl, .cons (hR l) h3⟩
    · rw [if_neg hx, if_neg hx]; exact ⟨_, _, _, rfl, rfl, h3⟩

theorem Diff.Tail.all {R : Str → Str → Prop} (hR : ∀ x, R x x) {s s' : Str} (h : Diff.Tail R s s') :
    List.Forall₂ R (fileLines s) (fileLines s') := by
  obtain ⟨l, ls, ls', h1, h2, h3⟩ := h
  rw [h1, h2]; exact .cons (hR l) h3

theorem Diff.lines_one {a : Str} (h : '\n' ∉ a) : fileLines a = [a] := by
  obtain ⟨l, ls, h1, h2⟩ := Diff.lines_word a [] h
  simp only [fileLines, List.cons.injEq] at h1
  obtain ⟨rfl, rfl⟩ := h1
  simpa using h2

theorem Diff.Tail.line {R : Str → Str → Prop} {a a' : Str} (ha : '\n' ∉ a) (ha' : '\n' ∉ a') (h : R a a')
    {s s' : Str} (hs : List.Forall₂ R (fileLines s) (fileLines s')) :
    List.Forall₂ R (fileLines (a ++ '\n' :: s)) (fileLines (a' ++ '\n' :: s')) := by
  rw [Diff.lines_break, Diff.lines_break, Diff.lines_one ha, Diff.lines_one ha']
  exact .cons h hs

theorem Diff.Tail.newline {R : Str → Str → Prop} {s s' : Str} (hs : List.Forall₂ R (fileLines s) (fileLines s')) :
    Diff.Tail R ('\n' :: s) ('\n' :: s') :=
  ⟨[], _, _, by rw [fileLines, if_pos rfl], by rw [fileLines, if_pos rfl], hs⟩

omit [Flt F] [TextLaws F] in
theorem Diff.modText_rel (w : Str) (f : FpText F → FpText F) (es : List (Elem F)) :
    List.Forall₂ (fun e e' => e' = e ∨ ∃ t, e = .text t ∧ t.name = w ∧ e' = .text (f t)) es (Module.modText w f es) := by
  induction es with
  | nil => exact .nil
  | cons e es ih =>
    have hsame : List.Forall₂ (fun e e' => e' = e ∨ ∃ t, e = .text t ∧ t.name = w ∧ e' = .text (f t)) es es :=
      List.forall₂_same.2 fun _ _ => .inl rfl
    cases e with
    | text t =>
      by_cases h : t.name = w
      · simp only [Module.modText, h, if_true]
        exact .cons (.inr ⟨t, rfl, h, rfl⟩) hsame
      · simp only [Module.modText, h, if_false]
        exact .cons (.inl rfl) ih
    | _ => exact .cons (.inl rfl) ih

theorem Diff.rel_trans {α : Type} {A B C : α → α → Prop} (h : ∀ x y z, A x y → B y z → C x z) {l m n : List α}
    (h1 : List.Forall₂ A l m) (h2 : List.Forall₂ B m n) : List.Forall₂ C l n := by
  induction h1 generalizing n with
  | nil => cases h2; exact .nil
  | cons a as ih =>
    cases h2 with
    | cons b bs => exact .cons (h _ _ _ a b) (ih bs)

omit [Flt F] [TextLaws F] in
theorem Diff.kept_rel (cfg : Config F) (m : Module F) :
    List.Forall₂ (fun e e' => e' = e ∨ ∃ t t', e = .text t ∧ e' = .text t' ∧ Prescribed cfg m t t')
      m.elements (keptElems cfg m) := by
  have h1 := Diff.modText_rel (str! "reference") (fixText cfg (str! "REF**") .silkS) m.elements
  have h2 := Diff.modText_rel (str! "value") (fixText cfg m.name .fab)
    (Module.modText (str! "reference") (fixText cfg (str! "REF**") .silkS) m.elements)
  have h3 := Diff.modText_rel (str! "user") (fixText cfg (str! "%R") .fab)
    (Module.modText (str! "value") (fixText cfg m.name .fab)
      (Module.modText (str! "reference") (fixText cfg (str! "REF**") .silkS) m.elements))
  have h12 := Diff.rel_trans (C := fun e e' => e' = e ∨ ∃ t t', e = .text t ∧ e' = .text t' ∧ t'.name = t.name ∧
    t.name ≠ str! "user" ∧ Prescribed cfg m t t') (by
      rintro x y z (rfl | ⟨t, rfl, ht, rfl⟩) (rfl | ⟨u, hu, hun, rfl⟩)
      · exact .inl rfl
      · exact .inr ⟨u, _, hu, rfl, rfl, by rw [hun]; decide, .inr (.inl ⟨hun, rfl⟩)⟩
      · exact .inr ⟨t, _, rfl, rfl, rfl, by rw [ht]; decide, .inl ⟨ht, rfl⟩⟩
      · cases hu
        exact absurd (ht.symm.trans hun) (by decide)) h1 h2
  refine Diff.rel_trans ?_ h12 h3
  rintro x y z (rfl | ⟨t, t', rfl, rfl, hn, hu, hp⟩) (rfl | ⟨u, hu', hun, rfl⟩)
  · exact .inl rfl
  · exact .inr ⟨u, _, hu', rfl, .inr (.inr ⟨hun, rfl⟩)⟩
  · exact .inr ⟨t, t', rfl, rfl, hp⟩
  · cases hu'
    exact absurd (hn.symm.trans hun) hu

/-- The lines in which the file of a footprint may differ after fixing: the first two lines of the
first reference, value and user text, which become what the rules prescribe. -/
def Spec.Restyled (q : Str → Bool) (level : Int) (cfg : Config F) (m : Module F) (a b : Str) : Prop :=
  ∃ (i : Nat) (t t' : FpText F), FirstOfName m.elements i t ∧ Prescribed cfg m t t' ∧
    ((a = titleLine q level t ∧ b = titleLine q level t') ∨ (a = fontLine q level t ∧ b = fontLine q level t'))

theorem Diff.elements_lines (q : Str → Bool) (level : Int) (R : Str → Str → Prop) (hR : ∀ x, R x x) (s : Str) :
    ∀ {es es' : List (Elem F)},
    List.Forall₂ (fun e e' => e' = e ∨ ∃ t t', e = .text t ∧ e' = .text t' ∧
      '\n' ∉ titleLine q level t ∧ '\n' ∉ titleLine q level t' ∧ R (titleLine q level t) (titleLine q level t') ∧
      R (fontLine q level t) (fontLine q level t')) es es' →
    Diff.Tail R (es.flatMap (elementText (Fm.atomText q) level) ++ s) (es'.flatMap (elementText (Fm.atomText q) level) ++ s) := by
  intro es es' h
  induction h with
  | nil => exact .refl hR s
  | @cons e e' es es' h hs ih =>
    rw [List.flatMap_cons, List.flatMap_cons, List.append_assoc, List.append_assoc]
    rcases h with rfl | ⟨t, t', rfl, rfl, h1, h2, h3, h4⟩
    · exact ih.prefix hR _
    · rw [Diff.text_lines, Diff.text_lines]
      simp only [List.cons_append, List.append_assoc]
      refine Diff.Tail.newline (Diff.Tail.line h1 h2 h3 (Diff.Tail.line (Diff.font_noLf q level t) (Diff.font_noLf q level t') h4 ?_))
      exact ((ih.prefix hR (str! ")")).prefix hR (margin (level + 1))).all hR

omit [TextLaws F] in
theorem Diff.kept_first (cfg : Config F) (m : Module F) :
    List.Forall₂ (fun e e' => e' = e ∨ ∃ i t t', e = .text t ∧ e' = .text t' ∧ FirstOfName m.elements i t ∧ Prescribed cfg m t t')
      m.elements (keptElems cfg m) := by
  obtain ⟨_, hl, hk⟩ := Fp.kept_of_fix m cfg
  have h := Diff.kept_rel cfg m
  rw [List.forall₂_iff_get] at h ⊢
  refine ⟨h.1, fun i h1 h2 => ?_⟩
  rcases h.2 i h1 h2 with he | ⟨t, t', ht, ht', hp⟩
  · exact .inl he
  · obtain ⟨e', he', hf⟩ := hk i (.text t) (by rw [← ht]; simp)
    have hv : e' = .text t' := by
      rw [← ht']
      have : (keptElems cfg m)[i]? = some ((keptElems cfg m).get ⟨i, h2⟩) := by simp
      rw [this] at he'; exact (Option.some.inj he').symm
    rcases hf with hf | ⟨u, u', hu, _, _, _, hfirst⟩
    · exact .inl (by rw [ht, ht', ← hv, hf])
    · cases hu
      exact .inr ⟨i, t, t', ht, ht', hfirst, hp⟩

theorem Diff.prescribed_title (q : Str → Bool) (level : Int) (cfg : Config F) (m : Module F) (t t' : FpText F) (hn : '\n' ∉ m.name)
    (hl : '\n' ∉ t.layer.show) (h : Prescribed cfg m t t') : '\n' ∉ titleLine q level t' := by
  rcases h with ⟨h, rfl⟩ | ⟨h, rfl⟩ | ⟨h, rfl⟩
  · exact Diff.title_noLf q level _ (by show _ ∉ t.name; rw [h]; decide) (by decide : _ ∉ str! "REF**") (Diff.layer_noLf t.layer .silkS hl (by decide))
  · exact Diff.title_noLf q level _ (by show _ ∉ t.name; rw [h]; decide) hn (Diff.layer_noLf t.layer .fab hl (by decide))
  · exact Diff.title_noLf q level _ (by show _ ∉ t.name; rw [h]; decide) (by decide : _ ∉ str! "%R") (Diff.layer_noLf t.layer .fab hl (by decide))

theorem Diff.user_lines (q : Str → Bool) (level : Int) (cfg : Config F) (a b : Str) :
    fileLines (a ++ (elementText (Fm.atomText q) level (.text (userText cfg)) ++ '\n' :: b)) =
      fileLines a ++ ([titleLine q level (userText cfg), fontLine q level (userText cfg), margin (level + 1) ++ str! ")"] ++ fileLines b) := by
  have h1 : '\n' ∉ titleLine q level (userText cfg) :=
    Diff.title_noLf q level _ (by decide : _ ∉ str! "user") (by decide : _ ∉ str! "%R") (by decide : _ ∉ (Fp.Layer.mk .front .fab).show)
  have h2 : '\n' ∉ margin (level + 1) ++ str! ")" := by
    rw [List.mem_append, not_or]; exact ⟨Diff.margin_noLf _, by decide⟩
  rw [Diff.text_lines]
  simp only [List.cons_append, List.append_assoc]
  rw [Diff.lines_break, Diff.lines_break, Diff.lines_one h1, Diff.lines_break, Diff.lines_one (Diff.font_noLf q level _)]
  rw [show margin (level + 1) ++ (')' :: ([] ++ '\n' :: b)) = (margin (level + 1) ++ str! ")") ++ '\n' :: b by simp,
    Diff.lines_break, Diff.lines_one h2]
  simp

theorem Diff.added_line (a c b : Str) (h : '\n' ∉ c) :
    fileLines (a ++ ('\n' :: c ++ '\n' :: b)) = fileLines a ++ ([c] ++ fileLines b) := by
  rw [List.cons_append, Diff.lines_break, Diff.lines_break, Diff.lines_one h]

theorem Diff.side_noLf (q : Str → Bool) (level : Int) (x1 y1 x2 y2 : F) : '\n' ∉ sideLine q level x1 y1 x2 y2 := by
  unfold sideLine
  rw [List.mem_append, not_or]
  exact ⟨Diff.margin_noLf _, Diff.flat_noLf q _ (by simp [Diff.oneLine_list, Diff.OneLine, Diff.toStr_noLf])⟩

open Classical in
/-- A line-by-line comparison of a footprint file before and after fixing.  Of the lines that were
there, only the title and the font of the first reference, value and user text may have changed, and
they say what the rules prescribe.  What is new stands at the end, before the closing
parenthesis: a user text if there was none, the mark of a surface-mount footprint that lacked it,
the four sides of a rectangular courtyard if there were fewer than four lines of a courtyard. -/
theorem C122_fix (q : Str → Bool) (level : Int) (m : Module F) (cfg : Config F) (hn : '\n' ∉ m.name)
    (ht : ∀ t, Elem.text t ∈ m.elements → Governed t.name → '\n' ∉ t.value ∧ '\n' ∉ t.layer.show) :
    ∃ (before after : List Str) (x1 y1 x2 y2 : F),
      fileLines (Fp.toText q level m) = before ++ [str! ")"] ∧
      fileLines (Fp.toText q level (m.fix cfg)) = after ++
        (if textsNamed m (str! "user") = [] then
          [titleLine q level (userText cfg), fontLine q level (userText cfg), margin (level + 1) ++ str! ")"] else []) ++
        (if HasPad m .smd ∧ ¬ HasPad m .pth ∧ ¬ MarkedSmd m then
          [margin (level + 1) ++ flat (Fm.atomText q) (.list [.str (str! "attr"), .str (str! "smd")])] else []) ++
        (if (courtyard m).length < 4 then
          [sideLine q level x1 y1 x2 y1, sideLine q level x2 y1 x2 y2, sideLine q level x2 y2 x1 y2, sideLine q level x1 y2 x1 y1]
          else []) ++ [str! ")"] ∧
      List.Forall₂ (fun a b => a = b ∨ Restyled q level cfg m a b) before after := by
  have hclose : fileLines (str! ")") = [str! ")"] := by decide
  refine ⟨fileLines (str! "(" ++ Fm.atomText q (str! "module") ++ str! " " ++ Fm.atomText q m.name ++
      m.elements.flatMap (elementText (Fm.atomText q) level)),
    fileLines (str! "(" ++ Fm.atomText q (str! "module") ++ str! " " ++ Fm.atomText q m.name ++
      (keptElems cfg m).flatMap (elementText (Fm.atomText q) level)),
    (courtyardBox m).1, (courtyardBox m).2.1, (courtyardBox m).2.2.1, (courtyardBox m).2.2.2, ?_, ?_, ?_⟩
  · rw [C68_text, show str! "\n)" = '\n' :: str! ")" from rfl, Diff.lines_break, hclose]
  · obtain ⟨he, _⟩ := Fp.kept_of_fix m cfg
    rw [C68_text, he, show (m.fix cfg).name = m.name from (C29_fix_keeps m cfg).1]
    generalize str! "(" ++ Fm.atomText q (str! "module") ++ str! " " ++ Fm.atomText q m.name = head
    rw [List.flatMap_append, List.flatMap_append, List.flatMap_append]
    rw [← List.append_assoc head]
    generalize head ++ (keptElems cfg m).flatMap (elementText (Fm.atomText q) level) = body
    rw [List.append_assoc body, List.append_assoc, List.append_assoc]
    -- the lines of the courtyard
    have hc : ∃ c, (addedLines m).flatMap (elementText (Fm.atomText q) level) ++ str! "\n)" = '\n' :: c ∧
        fileLines c = (if (courtyard m).length < 4 then
        [sideLine q level (courtyardBox m).1 (courtyardBox m).2.1 (courtyardBox m).2.2.1 (courtyardBox m).2.1,
         sideLine q level (courtyardBox m).2.2.1 (courtyardBox m).2.1 (courtyardBox m).2.2.1 (courtyardBox m).2.2.2,
         sideLine q level (courtyardBox m).2.2.1 (courtyardBox m).2.2.2 (courtyardBox m).1 (courtyardBox m).2.2.2,
         sideLine q level (courtyardBox m).1 (courtyardBox m).2.2.2 (courtyardBox m).1 (courtyardBox m).2.1]
        else []) ++ [str! ")"] := by
      unfold addedLines
      rw [Fp.courtyardCount_eq]
      by_cases h : (courtyard m).length < 4
      · rw [if_pos h, if_pos h]
        refine ⟨sideLine q level (courtyardBox m).1 (courtyardBox m).2.1 (courtyardBox m).2.2.1 (courtyardBox m).2.1 ++
          '\n' :: (sideLine q level (courtyardBox m).2.2.1 (courtyardBox m).2.1 (courtyardBox m).2.2.1 (courtyardBox m).2.2.2 ++
          '\n' :: (sideLine q level (courtyardBox m).2.2.1 (courtyardBox m).2.2.2 (courtyardBox m).1 (courtyardBox m).2.2.2 ++
          '\n' :: (sideLine q level (courtyardBox m).1 (courtyardBox m).2.2.2 (courtyardBox m).1 (courtyardBox m).2.1 ++
          '\n' :: str! ")"))), ?_, ?_⟩
        · have hs : startLine 1 (level + 1) = '\n' :: margin (level + 1) := rfl
          simp [courtyardLines, elementText, hs, sideLine, FpLine.ser, FpLine.make, Sx.node, Sx.pair, Sx.ofF, Xy.ser, XyType.show,
            flat, flatL, Layer.show, LayerSide.show, LayerType.show, Layer.dflt]
        · simp only [Diff.lines_break, Diff.lines_one (Diff.side_noLf q level _ _ _ _), hclose]
          rfl
      · rw [if_neg h, if_neg h]; exact ⟨_, rfl, hclose⟩
    obtain ⟨c, hc1, hc2⟩ := hc
    rw [hc1]
    -- the line of the mark
    have hb : ∃ b, (addedAttr m).flatMap (elementText (Fm.atomText q) level) ++ '\n' :: c = '\n' :: b ∧
        fileLines b = (if HasPad m .smd ∧ ¬ HasPad m .pth ∧ ¬ MarkedSmd m then
          [margin (level + 1) ++ flat (Fm.atomText q) (.list [.str (str! "attr"), .str (str! "smd")])] else []) ++ fileLines c := by
      have hiff : (HasPad m .smd ∧ ¬ HasPad m .pth ∧ ¬ MarkedSmd m) ↔ (pthCount m = 0 ∧ smdCount m > 0 ∧ m.hasSmdAttr = false) := by
        rw [← Fp.hasSmdAttr_iff, ← Fp.padCount_pos, ← Fp.padCount_pos]
        change (0 < smdCount m ∧ ¬ 0 < pthCount m ∧ _) ↔ _
        cases m.hasSmdAttr <;> rcases smdCount m with _ | x <;> rcases pthCount m with _ | y <;> simp
      unfold addedAttr
      by_cases h : HasPad m .smd ∧ ¬ HasPad m .pth ∧ ¬ MarkedSmd m
      · rw [if_pos h, if_pos (hiff.1 h)]
        refine ⟨(margin (level + 1) ++ flat (Fm.atomText q) (.list [.str (str! "attr"), .str (str! "smd")])) ++ '\n' :: c, ?_, ?_⟩
        · have hs : startLine 1 (level + 1) = '\n' :: margin (level + 1) := rfl
          simp [elementText, hs, Sx.pair]
        · rw [Diff.lines_break, Diff.lines_one]
          rw [List.mem_append, not_or]
          exact ⟨Diff.margin_noLf _, Diff.flat_noLf q _ (by simp [Diff.oneLine_list, Diff.OneLine])⟩
      · rw [if_neg h, if_neg fun h' => h (hiff.2 h')]
        exact ⟨c, rfl, rfl⟩
    obtain ⟨b, hb1, hb2⟩ := hb
    rw [List.append_assoc, hb1]
    have ha : fileLines (body ++ ((addedText cfg m).flatMap (elementText (Fm.atomText q) level) ++ '\n' :: b)) =
        fileLines body ++ ((if textsNamed m (str! "user") = [] then
          [titleLine q level (userText cfg), fontLine q level (userText cfg), margin (level + 1) ++ str! ")"] else []) ++ fileLines b) := by
      have hiff : (m.getText (str! "user")).isNone = true ↔ textsNamed m (str! "user") = [] := by
        rw [Fp.getText_eq]; cases textsNamed m (str! "user") <;> simp
      unfold addedText
      by_cases h : textsNamed m (str! "user") = []
      · rw [if_pos (hiff.2 h), if_pos h]
        rw [List.flatMap_cons, List.flatMap_nil, List.append_nil]
        exact Diff.user_lines q level cfg body b
      · rw [if_neg h, if_neg fun h' => h (hiff.1 h')]
        exact Diff.lines_break body b
    rw [ha, hb2, hc2]
    simp only [List.append_assoc]
  · have hR : ∀ x, x = x ∨ Restyled q level cfg m x x := fun _ => .inl rfl
    have := Diff.elements_lines q level (fun a b => a = b ∨ Restyled q level cfg m a b) hR [] (es := m.elements) (es' := keptElems cfg m) (by
      refine List.Forall₂.imp ?_ (Diff.kept_first cfg m)
      rintro e e' (h | ⟨i, t, t', rfl, rfl, hf, hp⟩)
      · exact .inl h
      · have hg : Governed t.name := by
          rcases hp with ⟨h, _⟩ | ⟨h, _⟩ | ⟨h, _⟩
          exacts [.inl h, .inr (.inl h), .inr (.inr h)]
        obtain ⟨h1, h2⟩ := ht t (List.mem_of_getElem? hf.1) hg
        have hnm : '\n' ∉ t.name := by rcases hg with h | h | h <;> rw [h] <;> decide
        exact .inr ⟨t, t', rfl, rfl, Diff.title_noLf q level t hnm h1 h2, Diff.prescribed_title q level cfg m t t' hn h2 hp,
          .inr ⟨i, t, t', hf, hp, .inl ⟨rfl, rfl⟩⟩, .inr ⟨i, t, t', hf, hp, .inr ⟨rfl, rfl⟩⟩⟩)
    simp only [List.append_nil] at this
    exact (this.prefix hR _).all hR

open Classical in
/-- The number of lines grows by what is added. -/
theorem C122_line_count (q : Str → Bool) (level : Int) (m : Module F) (cfg : Config F) (hn : '\n' ∉ m.name)
    (ht : ∀ t, Elem.text t ∈ m.elements → Governed t.name → '\n' ∉ t.value ∧ '\n' ∉ t.layer.show) :
    (fileLines (Fp.toText q level (m.fix cfg))).length = (fileLines (Fp.toText q level m)).length +
      (if textsNamed m (str! "user") = [] then 3 else 0) +
      (if HasPad m .smd ∧ ¬ HasPad m .pth ∧ ¬ MarkedSmd m then 1 else 0) +
      (if (courtyard m).length < 4 then 4 else 0) := by
  obtain ⟨a, b, x1, y1, x2, y2, h1, h2, h3⟩ := C122_fix q level m cfg hn ht
  rw [h1, h2]
  have := h3.length_eq
  simp only [List.length_append, List.length_cons, List.length_nil]
  split_ifs <;> simp <;> omega

/-- Comments and all other lines survive: a line that belongs to none of the three texts is still
there after fixing, in the same place. -/
theorem C122_other_lines (q : Str → Bool) (level : Int) (m : Module F) (cfg : Config F) (hn : '\n' ∉ m.name)
    (ht : ∀ t, Elem.text t ∈ m.elements → Governed t.name → '\n' ∉ t.value ∧ '\n' ∉ t.layer.show) (i : Nat) (line : Str)
    (hi : (fileLines (Fp.toText q level m))[i]? = some line)
    (hl : ∀ t, Elem.text t ∈ m.elements → Governed t.name → line ≠ titleLine q level t ∧ line ≠ fontLine q level t)
    (hc : i + 1 < (fileLines (Fp.toText q level m)).length) :
    (fileLines (Fp.toText q level (m.fix cfg)))[i]? = some line := by
  obtain ⟨a, b, x1, y1, x2, y2, h1, h2, h3⟩ := C122_fix q level m cfg hn ht
  rw [h1, List.length_append, List.length_singleton] at hc
  have hia : i < a.length := by omega
  have hib : i < b.length := by rw [← h3.length_eq]; exact hia
  rw [h1, List.getElem?_append_left hia] at hi
  rw [h2]
  simp only [List.append_assoc]
  rw [List.getElem?_append_left hib]
  rw [List.forall₂_iff_get] at h3
  rw [List.getElem?_eq_getElem hia, Option.some.injEq] at hi
  rw [List.getElem?_eq_getElem hib, Option.some.injEq]
  rcases h3.2 i hia hib with he | ⟨j, t, t', hf, hp, he⟩
  · rw [← hi]; exact he.symm
  · have hg : Governed t.name := by
      rcases hp with ⟨h, _⟩ | ⟨h, _⟩ | ⟨h, _⟩
      exacts [.inl h, .inr (.inl h), .inr (.inr h)]
    obtain ⟨h4, h5⟩ := hl t (List.mem_of_getElem? hf.1) hg
    rcases he with ⟨he, _⟩ | ⟨he, _⟩
    · exact absurd (hi.symm.trans he) h4
    · exact absurd (hi.symm.trans he) h5

/-- A footprint that meets the hypotheses and gains all that can be added: a hidden reference, a value,
and a surface-mount pad. -/
def Spec.unfixed : Module Nm :=
  ⟨str! "R0805", [.text { FpText.new (str! "reference") (str! "R1") with hide := true },
    .text (FpText.new (str! "value") (str! "1k")), .pad (Pad.new (str! "1") .smd .rect)]⟩

example : '\n' ∉ Spec.unfixed.name ∧
    (∀ t, Elem.text t ∈ Spec.unfixed.elements → Governed t.name → '\n' ∉ t.value ∧ '\n' ∉ t.layer.show) ∧
    textsNamed Spec.unfixed (str! "user") = [] ∧ (courtyard Spec.unfixed).length < 4 := by
  refine ⟨by decide, ?_, by decide, by decide⟩
  intro t ht _
  simp only [Spec.unfixed, List.mem_cons, Elem.text.injEq, reduceCtorEq, List.not_mem_nil, or_false] at ht
  rcases ht with rfl | rfl <;> decide

/-- Eight lines are added. -/
example : (fileLines (Fp.toText Fm.stdQuote 0 Spec.unfixed)).length = 9 ∧
    (fileLines (Fp.toText Fm.stdQuote 0 (Spec.unfixed.fix Config.klc))).length = 17 := by
  decide +kernel

end Verif
