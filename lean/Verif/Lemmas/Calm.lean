import Verif.Model.Layout.Codec
import Verif.Model.FpLibTable
import Verif.Lemmas.SplitPred
/-!
# Readers of trees: no panic, no endless loop
-/

set_option linter.unusedSectionVars false

namespace Verif
open Flt

/-- A call that returns, with a value or an error. -/
def Res.Calm {α : Type} (x : Res α) : Prop := x ≠ .panic ∧ x ≠ .diverge

/-- A tree with no missing parts: the form of every tree read from a text that has one. -/
inductive Sexp.Full : Sexp → Prop
  | str (s : Str) : Full (.str s)
  | list (l : List Sexp) : (∀ x ∈ l, Full x) → Full (.list l)

namespace Res

theorem calm_bind {α β : Type} {x : Res α} {f : α → Res β} (h : x.Calm)
    (hf : ∀ a, x = .ok a → (f a).Calm) : (x >>= f).Calm := by
  cases x with
  | ok a => exact hf a rfl
  | err e => exact ⟨by simp, by simp⟩
  | panic => exact absurd rfl h.1
  | diverge => exact absurd rfl h.2

theorem calm_map {α β : Type} {x : Res α} {f : α → β} (h : x.Calm) : (f <$> x).Calm :=
  calm_bind h fun _ _ => ⟨by simp, by simp⟩

theorem calm_ok {α : Type} (a : α) : (Res.ok a).Calm := ⟨by simp, by simp⟩
theorem calm_err {α : Type} (e : Err) : (Res.err e : Res α).Calm := ⟨by simp, by simp⟩

theorem calm_ite {α : Type} {c : Prop} [Decidable c] {a b : Res α} (ha : a.Calm) (hb : b.Calm) :
    (if c then a else b).Calm := by
  split
  · exact ha
  · exact hb

end Res

open Res

namespace Sx

variable {F : Type} [Flt F]

theorem string_calm (e : Sexp) : (string e).Calm := by
  cases e <;> first | exact calm_ok _ | exact calm_err _

theorem int_calm (e : Sexp) : (int e).Calm := by
  unfold int
  repeat' split
  all_goals first | exact calm_ok _ | exact calm_err _

theorem flt_calm (e : Sexp) : (flt e : Res F).Calm := by
  unfold flt
  repeat' split
  all_goals first | exact calm_ok _ | exact calm_err _

theorem list_calm (e : Sexp) : (list e).Calm := by
  cases e <;> first | exact calm_ok _ | exact calm_err _

theorem listName_calm (e : Sexp) : (listName e).Calm := by
  unfold listName
  split
  all_goals first | exact calm_ok _ | exact calm_err _

theorem iter_calm (n : Str) (e : Sexp) : (iter n e).Calm := by
  unfold iter
  repeat' split
  all_goals first | exact calm_ok _ | exact calm_err _

theorem namedValue_calm (n : Str) (e : Sexp) : (namedValue n e).Calm := by
  unfold namedValue
  repeat' split
  all_goals first | exact calm_ok _ | exact calm_err _

theorem literal_calm (n : Str) (e : Sexp) : (literal n e).Calm := by
  unfold literal
  repeat' split
  all_goals first | exact calm_ok _ | exact calm_err _

theorem eat_calm {α : Type} {dec : Sexp → Res α} (h : ∀ e, (dec e).Calm) (l : List Sexp) : (eat dec l).Calm := by
  cases l with
  | nil => exact calm_err _
  | cons x r => exact calm_bind (h x) fun _ _ => calm_ok _

theorem maybe_calm {α : Type} {dec : Sexp → Res α} (h : ∀ e, (dec e).Calm) (l : List Sexp) :
    (maybe dec l).Calm := by
  cases l with
  | nil => exact calm_ok _
  | cons x r =>
    have := h x
    cases hd : dec x with
    | ok a => simp only [maybe, hd]; exact calm_ok _
    | err e => simp only [maybe, hd]; exact calm_ok _
    | panic => rw [hd] at this; exact absurd rfl this.1
    | diverge => rw [hd] at this; exact absurd rfl this.2

theorem inList_calm {α : Type} {dec : Sexp → Res α} (h : ∀ e, (dec e).Calm) (n : Str) (e : Sexp) :
    (inList n dec e).Calm := calm_bind (namedValue_calm _ _) fun _ _ => h _

theorem vec_calm {α : Type} {dec : Sexp → Res α} (l : List Sexp) (h : ∀ e ∈ l, (dec e).Calm) :
    (vec dec l).Calm := by
  induction l with
  | nil => exact calm_ok _
  | cons x r ih =>
    rw [List.forall_mem_cons] at h
    exact calm_bind h.1 fun _ _ => calm_bind (ih h.2) fun _ _ => calm_ok _

theorem close_calm {α : Type} (l : List Sexp) (a : α) : (close l a).Calm := by
  cases l <;> first | exact calm_ok _ | exact calm_err _

end Sx

open Sx

namespace Fp

variable {F : Type} [Flt F]

theorem LayerSide.fromString_calm (s : Str) : (LayerSide.fromString s).Calm := by
  unfold LayerSide.fromString
  repeat' with_reducible first | exact calm_ok _ | exact calm_err _ | apply calm_ite

theorem Layer.fromString_calm (s : Str) : (Layer.fromString s).Calm := by
  unfold Layer.fromString
  split
  · exact calm_bind (LayerSide.fromString_calm _) fun _ _ => calm_ok _
  · exact calm_ok _
  · rename_i h
    exact absurd h (splitPred_ne_nil _ _)

/-- Show that a straight-line reader returns, from the readers it calls. -/
syntax "calm" ("[" term,* "]")? : tactic
macro_rules
  | `(tactic| calm) => `(tactic| calm [])
  | `(tactic| calm [$ts,*]) => do
    let alts ← ts.getElems.mapM fun t => `(tactic| with_reducible exact $t)
    `(tactic|
      repeat' with_reducible first
        | exact calm_ok _ | exact calm_err _
        | exact iter_calm _ _ | exact listName_calm _ | exact list_calm _ | exact string_calm _
        | exact int_calm _ | exact flt_calm _ | exact literal_calm _ _ | exact close_calm _ _
        | exact namedValue_calm _ _ | exact Layer.fromString_calm _
        | first $[| $alts:tactic]* | fail
        | exact eat_calm string_calm _ | exact eat_calm int_calm _ | exact eat_calm flt_calm _
        | exact maybe_calm string_calm _ | exact maybe_calm int_calm _ | exact maybe_calm flt_calm _
        | exact maybe_calm (literal_calm _) _
        | exact eat_calm (inList_calm string_calm _) _ | exact eat_calm (inList_calm int_calm _) _
        | exact eat_calm (inList_calm flt_calm _) _
        | exact maybe_calm (inList_calm string_calm _) _ | exact maybe_calm (inList_calm int_calm _) _
        | exact maybe_calm (inList_calm flt_calm _) _
        | apply calm_ite
        | apply calm_map
        | (refine calm_bind ?_ fun _ _ => ?_))

theorem Offset.de_calm (s : Sexp) : (Offset.de s : Res (F × F)).Calm := by unfold Offset.de; calm
theorem At.de_calm (s : Sexp) : (At.de s : Res (At F)).Calm := by unfold At.de; calm
theorem Layer.de_calm (s : Sexp) : (Layer.de s).Calm := by unfold Layer.de; calm
theorem Xy.de_calm (s : Sexp) : (Xy.de s : Res (Xy F)).Calm := by unfold Xy.de; calm
theorem Font.de_calm (s : Sexp) : (Font.de s : Res (Font F)).Calm := by
  unfold Font.de; calm [maybe_calm Xy.de_calm _]
theorem Justify.de_calm (s : Sexp) : (Justify.de s).Calm := by unfold Justify.de; calm
theorem Effects.de_calm (s : Sexp) : (Effects.de s : Res (Effects F)).Calm := by
  unfold Effects.de; calm [eat_calm Font.de_calm _, maybe_calm Justify.de_calm _]
theorem Layers.de_calm (s : Sexp) : (Layers.de s).Calm := by
  unfold Layers.de
  refine calm_bind (iter_calm _ _) fun _ _ => vec_calm _ fun _ _ => ?_
  calm
theorem Pts.de_calm (s : Sexp) : (Pts.de s : Res (List (Xy F))).Calm := by
  unfold Pts.de
  exact calm_bind (iter_calm _ _) fun _ _ => vec_calm _ fun _ _ => Xy.de_calm _
theorem Xyz.de_calm (s : Sexp) : (Xyz.de s : Res (Xyz F)).Calm := by unfold Xyz.de; calm
theorem Net.de_calm (s : Sexp) : (Net.de s).Calm := by unfold Net.de; calm
theorem Drill.de_calm (s : Sexp) : (Drill.de s : Res (Drill F)).Calm := by
  unfold Drill.de; calm [maybe_calm Offset.de_calm _]
theorem second_calm (s : Sexp) : (second s).Calm := by
  unfold second
  refine calm_bind (list_calm _) fun _ _ => ?_
  split
  · exact calm_ok _
  · exact calm_err _
theorem Part.de_calm (s : Sexp) : (Part.de s : Res (Part F)).Calm := by
  unfold Part.de; calm [second_calm _, Net.de_calm _]
theorem FpText.de_calm (s : Sexp) : (FpText.de s : Res (FpText F)).Calm := by
  unfold FpText.de; calm [maybe_calm At.de_calm _, maybe_calm Layer.de_calm _, maybe_calm Effects.de_calm _]
theorem PadType.fromString_calm (s : Str) : (PadType.fromString s).Calm := by unfold PadType.fromString; calm
theorem PadShape.fromString_calm (s : Str) : (PadShape.fromString s).Calm := by unfold PadShape.fromString; calm
theorem Pad.addParts_calm (l : List (Part F)) : ∀ p : Pad F, (Pad.addParts p l).Calm := by
  induction l with
  | nil => intro p; exact calm_ok _
  | cons x r ih =>
    intro p
    cases x <;> first | exact ih _ | exact calm_err _
theorem Pad.de_calm (s : Sexp) : (Pad.de s : Res (Pad F)).Calm := by
  unfold Pad.de
  calm [PadType.fromString_calm _, PadShape.fromString_calm _, maybe_calm At.de_calm _, maybe_calm Xy.de_calm _,
    maybe_calm Drill.de_calm _, maybe_calm Layers.de_calm _, vec_calm _ fun _ _ => Part.de_calm _,
    Pad.addParts_calm _ _]
theorem FpPoly.de_calm (s : Sexp) : (FpPoly.de s : Res (FpPoly F)).Calm := by
  unfold FpPoly.de; calm [maybe_calm Pts.de_calm _, maybe_calm Layer.de_calm _]
theorem FpLine.de_calm (s : Sexp) : (FpLine.de s : Res (FpLine F)).Calm := by
  unfold FpLine.de; calm [maybe_calm Xy.de_calm _, maybe_calm Layer.de_calm _]
theorem FpCircle.de_calm (s : Sexp) : (FpCircle.de s : Res (FpCircle F)).Calm := by
  unfold FpCircle.de; calm [maybe_calm Xy.de_calm _, maybe_calm Layer.de_calm _]
theorem FpArc.de_calm (s : Sexp) : (FpArc.de s : Res (FpArc F)).Calm := by
  unfold FpArc.de; calm [maybe_calm Xy.de_calm _, maybe_calm Layer.de_calm _]
theorem Model.de_calm (s : Sexp) : (Model.de s : Res (Model F)).Calm := by
  unfold Model.de; calm [eat_calm (inList_calm Xyz.de_calm _) _]
theorem firstValue_calm {α : Type} {dec : Sexp → Res α} (h : ∀ e, (dec e).Calm) (s : Sexp) :
    (firstValue dec s).Calm := by
  unfold firstValue; calm [eat_calm h _]
theorem stamp_calm (s : Sexp) : (stamp s).Calm := by
  unfold stamp
  refine calm_bind (firstValue_calm string_calm _) fun _ _ => ?_
  split
  · exact calm_ok _
  · exact calm_err _

theorem Elem.de_calm (s : Sexp) (h : s ≠ .empty) : (Elem.de s : Res (Elem F)).Calm := by
  unfold Elem.de
  split
  · calm
  · exact absurd rfl h
  · calm [firstValue_calm string_calm _, firstValue_calm flt_calm _, Layer.de_calm _, FpText.de_calm _, Pad.de_calm _,
      FpPoly.de_calm _, FpLine.de_calm _, FpCircle.de_calm _, FpArc.de_calm _, stamp_calm _, At.de_calm _,
      Model.de_calm _]

theorem iter_mem {n : Str} {s : Sexp} {l : List Sexp} (h : iter n s = .ok l) (hs : s.Full) : ∀ x ∈ l, x.Full := by
  unfold iter at h
  split at h
  · split at h
    · cases h
      cases hs with
      | list _ hl => exact fun x hx => hl x (List.mem_cons_of_mem _ hx)
    · cases h
  · cases h

theorem eat_mem {α : Type} {dec : Sexp → Res α} {l r : List Sexp} {a : α} (h : eat dec l = .ok (a, r)) :
    ∀ x ∈ r, x ∈ l := by
  cases l with
  | nil => cases h
  | cons y l =>
    obtain ⟨b, _, h⟩ := bind_eq_ok.1 h
    cases h
    exact fun x hx => List.mem_cons_of_mem _ hx

theorem Module.de_calm (s : Sexp) (h : s.Full) : (Module.de s : Res (Module F)).Calm := by
  unfold Module.de
  refine calm_bind (iter_calm _ _) fun i hi => ?_
  refine calm_bind (eat_calm string_calm _) ?_
  rintro ⟨name, r⟩ hr
  refine calm_bind (vec_calm _ fun e he => Elem.de_calm e ?_) fun _ _ => calm_ok _
  have := iter_mem hi h e (eat_mem hr e he)
  rintro rfl
  cases this

end Fp

namespace Lay

variable {F : Type} [Flt F]

theorem single_calm {α : Type} {dec : Sexp → Res α} (h : ∀ e, (dec e).Calm) (n : Str) (s : Sexp) :
    (single n dec s).Calm := by
  unfold single; calm [eat_calm h _]
theorem Host.de_calm (s : Sexp) : (Host.de s).Calm := by unfold Host.de; calm
theorem Area.de_calm (s : Sexp) : (Area.de s : Res (Area F)).Calm := by unfold Area.de; calm
theorem General.de_calm (s : Sexp) : (General.de s : Res (General F)).Calm := by
  unfold General.de; calm [eat_calm Area.de_calm _]
theorem LayerType.de_calm (s : Sexp) : (LayerType.de s).Calm := by unfold LayerType.de; calm
theorem Layer.de_calm (s : Sexp) : (Layer.de s).Calm := by
  unfold Layer.de; calm [eat_calm LayerType.de_calm _]
theorem LayerVec.de_calm (s : Sexp) : (LayerVec.de s).Calm := by
  unfold LayerVec.de
  exact calm_bind (iter_calm _ _) fun _ _ => vec_calm _ fun _ _ => Layer.de_calm _
theorem SetupElement.de_calm (s : Sexp) : (SetupElement.de s).Calm := by unfold SetupElement.de; calm
theorem Setup.fill_calm (l : List Sexp) : ∀ st : Setup, (Setup.fill st l).Calm := by
  induction l with
  | nil => intro st; exact calm_ok _
  | cons v r ih =>
    intro st
    rw [Setup.fill]
    calm [vec_calm _ fun _ _ => SetupElement.de_calm _, SetupElement.de_calm _, ih _]
theorem Setup.de_calm (s : Sexp) : (Setup.de s).Calm := by
  unfold Setup.de; calm [Setup.fill_calm _ _]
theorem NetClass.fill_calm (l : List Sexp) : ∀ nc : NetClass F, (NetClass.fill nc l).Calm := by
  induction l with
  | nil => intro st; exact calm_ok _
  | cons v r ih =>
    intro st
    rw [NetClass.fill]
    calm [single_calm flt_calm _ _, ih _]
theorem NetClass.de_calm (s : Sexp) : (NetClass.de s : Res (NetClass F)).Calm := by
  unfold NetClass.de; calm [NetClass.fill_calm _ _]
theorem GrText.de_calm (s : Sexp) : (GrText.de s : Res (GrText F)).Calm := by
  unfold GrText.de
  calm [eat_calm Fp.At.de_calm _, eat_calm Fp.Layer.de_calm _, eat_calm Fp.Effects.de_calm _]
theorem GrLine.de_calm (s : Sexp) : (GrLine.de s : Res (GrLine F)).Calm := by
  unfold GrLine.de; calm [eat_calm Fp.Xy.de_calm _, eat_calm Fp.Layer.de_calm _]
theorem GrArc.de_calm (s : Sexp) : (GrArc.de s : Res (GrArc F)).Calm := by
  unfold GrArc.de; calm [eat_calm Fp.Xy.de_calm _, eat_calm Fp.Layer.de_calm _]
theorem GrCircle.de_calm (s : Sexp) : (GrCircle.de s : Res (GrCircle F)).Calm := by
  unfold GrCircle.de; calm [eat_calm Fp.Xy.de_calm _, eat_calm Fp.Layer.de_calm _]
theorem Dimension.de_calm (s : Sexp) : (Dimension.de s : Res (Dimension F)).Calm := by
  unfold Dimension.de
  calm [eat_calm GrText.de_calm _, eat_calm Fp.Layer.de_calm _, eat_calm (inList_calm Fp.Pts.de_calm _) _]
theorem Hatch.de_calm (s : Sexp) : (Hatch.de s : Res (Hatch F)).Calm := by unfold Hatch.de; calm
theorem ConnectPads.de_calm (s : Sexp) : (ConnectPads.de s : Res (ConnectPads F)).Calm := by
  unfold ConnectPads.de; calm
theorem Keepout.de_calm (s : Sexp) : (Keepout.de s).Calm := by unfold Keepout.de; calm
theorem Fill.de_calm (s : Sexp) : (Fill.de s : Res (Fill F)).Calm := by unfold Fill.de; calm
theorem Zone.de_calm (s : Sexp) : (Zone.de s : Res (Zone F)).Calm := by
  unfold Zone.de
  calm [eat_calm Fp.Layer.de_calm _, eat_calm Hatch.de_calm _, eat_calm ConnectPads.de_calm _,
    maybe_calm Keepout.de_calm _, eat_calm Fill.de_calm _]
theorem Segment.de_calm (s : Sexp) : (Segment.de s : Res (Segment F)).Calm := by
  unfold Segment.de; calm [eat_calm Fp.Xy.de_calm _, eat_calm Fp.Layer.de_calm _]
theorem Via.de_calm (s : Sexp) : (Via.de s : Res (Via F)).Calm := by
  unfold Via.de; calm [eat_calm Fp.At.de_calm _, eat_calm Fp.Layers.de_calm _]

theorem Layout.step_calm (l : Layout F) (e : Sexp) (h : e.Full) : (l.step e).Calm := by
  unfold Layout.step
  calm [single_calm int_calm _ _, Host.de_calm _, General.de_calm _, single_calm string_calm _ _, LayerVec.de_calm _,
    Fp.Module.de_calm _ h, Fp.Net.de_calm _, NetClass.de_calm _, GrText.de_calm _, GrLine.de_calm _, GrArc.de_calm _,
    GrCircle.de_calm _, Dimension.de_calm _, Zone.de_calm _, Segment.de_calm _, Via.de_calm _, Setup.de_calm _]

theorem Layout.fill_calm (r : List Sexp) (h : ∀ x ∈ r, x.Full) : ∀ l : Layout F, (Layout.fill l r).Calm := by
  induction r with
  | nil => intro l; exact calm_ok _
  | cons e r ih =>
    intro l
    rw [List.forall_mem_cons] at h
    exact calm_bind (Layout.step_calm l e h.1) fun _ _ => ih h.2 _

theorem Layout.de_calm (s : Sexp) (h : s.Full) : (Layout.de s : Res (Layout F)).Calm := by
  unfold Layout.de
  exact calm_bind (iter_calm _ _) fun i hi => Layout.fill_calm _ (Fp.iter_mem hi h) _

end Lay

namespace Tbl

theorem Lib.de_calm (s : Sexp) : (Lib.de s).Calm := by unfold Lib.de; calm
theorem FpLibTable.de_calm (s : Sexp) : (FpLibTable.de s).Calm := by
  unfold FpLibTable.de
  calm [vec_calm _ fun _ _ => Lib.de_calm _]

end Tbl

/-! ### Texts -/

theorem parseToks_full : ∀ (ts : List Tok) (st : List (List Sexp)), (∀ l ∈ st, ∀ x ∈ l, x.Full) →
    (parseToks st ts).Calm ∧ ∀ e, parseToks st ts = .ok e → e.Full ∨ e = .empty := by
  intro ts
  induction ts with
  | nil =>
    intro st h
    cases st with
    | nil => exact ⟨calm_ok _, by intro e he; cases he; exact Or.inr rfl⟩
    | cons l st => exact ⟨calm_err _, by intro e he; cases he⟩
  | cons t ts ih =>
    intro st h
    have hfin : ∀ e : Sexp, e.Full → (finishParse e ts).Calm ∧
        ∀ x, finishParse e ts = .ok x → x.Full ∨ x = .empty := by
      intro e he
      cases ts with
      | nil => exact ⟨calm_ok _, by intro x hx; cases hx; exact Or.inl he⟩
      | cons _ _ => exact ⟨calm_err _, by intro x hx; cases hx⟩
    cases st with
    | nil =>
      cases t with
      | op => exact ih [[]] (by simp)
      | cl => exact ⟨calm_err _, by intro e he; cases he⟩
      | atom a => exact hfin (.str a) (.str a)
    | cons l st =>
      rw [List.forall_mem_cons] at h
      cases t with
      | op => exact ih ([] :: l :: st) (by simpa using h)
      | atom a =>
        refine ih ((.str a :: l) :: st) ?_
        rw [List.forall_mem_cons, List.forall_mem_cons]
        exact ⟨⟨.str a, h.1⟩, h.2⟩
      | cl =>
        have hl : (Sexp.list l.reverse).Full := .list _ (by simpa using h.1)
        cases st with
        | nil => exact hfin _ hl
        | cons l' st =>
          refine ih ((.list l.reverse :: l') :: st) ?_
          rw [List.forall_mem_cons] at h
          rw [List.forall_mem_cons, List.forall_mem_cons]
          exact ⟨⟨hl, h.2.1⟩, h.2.2⟩

theorem parseSexp_calm (s : Str) : (parseSexp s).Calm := by
  unfold parseSexp
  split
  · exact (parseToks_full _ [] (by simp)).1
  · exact calm_err _

theorem parseSexp_full (s : Str) (e : Sexp) (h : parseSexp s = .ok e) : e.Full ∨ e = .empty := by
  unfold parseSexp at h
  split at h
  · exact (parseToks_full _ [] (by simp)).2 e h
  · cases h

theorem Fp.parse_calm {F : Type} [Flt F] (s : Str) : (Fp.parse s : Res (Fp.Module F)).Calm := by
  unfold Fp.parse
  refine calm_bind (parseSexp_calm s) fun e he => ?_
  rcases parseSexp_full s e he with h | rfl
  · exact Fp.Module.de_calm e h
  · exact calm_err _

theorem Lay.parse_calm {F : Type} [Flt F] (s : Str) : (Lay.parse s : Res (Lay.Layout F)).Calm := by
  unfold Lay.parse
  refine calm_bind (parseSexp_calm s) fun e he => ?_
  rcases parseSexp_full s e he with h | rfl
  · exact Lay.Layout.de_calm e h
  · exact calm_err _

theorem Tbl.parse_calm (s : Str) : (Tbl.parse s).Calm := by
  unfold Tbl.parse
  exact calm_bind (parseSexp_calm s) fun e he => Tbl.FpLibTable.de_calm e

end Verif
