import Verif.Model.Files
import Verif.Lemmas.SplitPred
/-!
# Lemmas: the kind of error a reader gives
-/

set_option linter.unusedSectionVars false

namespace Verif
open Flt

/-- A call whose only error is of the given kind. -/
def Res.Fails (k : Err) {α : Type} (x : Res α) : Prop := ∀ e, x = .err e → e = k

namespace Res

variable {k : Err}

theorem fails_bind {α β : Type} {x : Res α} {f : α → Res β} (h : x.Fails k)
    (hf : ∀ a, x = .ok a → (f a).Fails k) : (x >>= f).Fails k := by
  cases x with
  | ok a => exact hf a rfl
  | err e => intro e' he; cases he; exact h e rfl
  | panic => intro e he; cases he
  | diverge => intro e he; cases he

theorem fails_ok {α : Type} (a : α) : (Res.ok a).Fails k := fun _ h => by cases h
theorem fails_err {α : Type} (k : Err) : (Res.err k : Res α).Fails k := fun _ h => by cases h; rfl
theorem fails_panic {α : Type} : (Res.panic : Res α).Fails k := fun _ h => by cases h
theorem fails_diverge {α : Type} : (Res.diverge : Res α).Fails k := fun _ h => by cases h

theorem fails_map {α β : Type} {x : Res α} {f : α → β} (h : x.Fails k) : (f <$> x).Fails k :=
  fails_bind h fun _ _ => fails_ok _

theorem fails_ite {α : Type} {c : Prop} [Decidable c] {a b : Res α} (ha : a.Fails k) (hb : b.Fails k) :
    (if c then a else b).Fails k := by
  split
  · exact ha
  · exact hb

end Res

open Res

namespace Sx

variable {F : Type} [Flt F]

theorem string_fails (e : Sexp) : (string e).Fails .sexp := by
  cases e <;> first | exact fails_ok _ | exact fails_err _

theorem int_fails (e : Sexp) : (int e).Fails .sexp := by
  unfold int
  repeat' split
  all_goals first | exact fails_ok _ | exact fails_err _

theorem flt_fails (e : Sexp) : (flt e : Res F).Fails .sexp := by
  unfold flt
  repeat' split
  all_goals first | exact fails_ok _ | exact fails_err _

theorem list_fails (e : Sexp) : (list e).Fails .sexp := by
  cases e <;> first | exact fails_ok _ | exact fails_err _

theorem listName_fails (e : Sexp) : (listName e).Fails .sexp := by
  unfold listName
  split
  all_goals first | exact fails_ok _ | exact fails_err _

theorem iter_fails (n : Str) (e : Sexp) : (iter n e).Fails .sexp := by
  unfold iter
  repeat' split
  all_goals first | exact fails_ok _ | exact fails_err _

theorem namedValue_fails (n : Str) (e : Sexp) : (namedValue n e).Fails .sexp := by
  unfold namedValue
  repeat' split
  all_goals first | exact fails_ok _ | exact fails_err _

theorem literal_fails (n : Str) (e : Sexp) : (literal n e).Fails .sexp := by
  unfold literal
  repeat' split
  all_goals first | exact fails_ok _ | exact fails_err _

theorem eat_fails {α : Type} {dec : Sexp → Res α} (h : ∀ e, (dec e).Fails .sexp) (l : List Sexp) : (eat dec l).Fails .sexp := by
  cases l with
  | nil => exact fails_err _
  | cons x r => exact fails_bind (h x) fun _ _ => fails_ok _

theorem maybe_fails {α : Type} {dec : Sexp → Res α} (h : ∀ e, (dec e).Fails .sexp) (l : List Sexp) :
    (maybe dec l).Fails .sexp := by
  cases l with
  | nil => exact fails_ok _
  | cons x r =>
    have := h x
    cases hd : dec x with
    | ok a => simp only [maybe, hd]; exact fails_ok _
    | err e => simp only [maybe, hd]; exact fails_ok _
    | panic => simp only [maybe, hd]; exact fails_panic
    | diverge => simp only [maybe, hd]; exact fails_diverge

theorem inList_fails {α : Type} {dec : Sexp → Res α} (h : ∀ e, (dec e).Fails .sexp) (n : Str) (e : Sexp) :
    (inList n dec e).Fails .sexp := fails_bind (namedValue_fails _ _) fun _ _ => h _

theorem vec_fails {α : Type} {dec : Sexp → Res α} (l : List Sexp) (h : ∀ e ∈ l, (dec e).Fails .sexp) :
    (vec dec l).Fails .sexp := by
  induction l with
  | nil => exact fails_ok _
  | cons x r ih =>
    rw [List.forall_mem_cons] at h
    exact fails_bind h.1 fun _ _ => fails_bind (ih h.2) fun _ _ => fails_ok _

theorem close_fails {α : Type} (l : List Sexp) (a : α) : (close l a).Fails .sexp := by
  cases l <;> first | exact fails_ok _ | exact fails_err _

end Sx

open Sx

namespace Fp

variable {F : Type} [Flt F]

theorem LayerSide.fromString_fails (s : Str) : (LayerSide.fromString s).Fails .sexp := by
  unfold LayerSide.fromString
  repeat' with_reducible first | exact fails_ok _ | exact fails_err _ | apply fails_ite

theorem Layer.fromString_fails (s : Str) : (Layer.fromString s).Fails .sexp := by
  unfold Layer.fromString
  split
  · exact fails_bind (LayerSide.fromString_fails _) fun _ _ => fails_ok _
  · exact fails_ok _
  · rename_i h
    exact absurd h (splitPred_ne_nil _ _)

/-- Show that a straight-line reader returns, from the readers it calls. -/
syntax "fails_by" ("[" term,* "]")? : tactic
macro_rules
  | `(tactic| fails_by) => `(tactic| fails_by [])
  | `(tactic| fails_by [$ts,*]) => do
    let alts ← ts.getElems.mapM fun t => `(tactic| with_reducible exact $t)
    `(tactic|
      repeat' with_reducible first
        | exact fails_ok _ | exact fails_err _
        | exact iter_fails _ _ | exact listName_fails _ | exact list_fails _ | exact string_fails _
        | exact int_fails _ | exact flt_fails _ | exact literal_fails _ _ | exact close_fails _ _
        | exact namedValue_fails _ _ | exact Layer.fromString_fails _
        | first $[| $alts:tactic]* | fail
        | exact eat_fails string_fails _ | exact eat_fails int_fails _ | exact eat_fails flt_fails _
        | exact maybe_fails string_fails _ | exact maybe_fails int_fails _ | exact maybe_fails flt_fails _
        | exact maybe_fails (literal_fails _) _
        | exact eat_fails (inList_fails string_fails _) _ | exact eat_fails (inList_fails int_fails _) _
        | exact eat_fails (inList_fails flt_fails _) _
        | exact maybe_fails (inList_fails string_fails _) _ | exact maybe_fails (inList_fails int_fails _) _
        | exact maybe_fails (inList_fails flt_fails _) _
        | apply fails_ite
        | apply fails_map
        | (refine fails_bind ?_ fun _ _ => ?_))

theorem Offset.de_fails (s : Sexp) : (Offset.de s : Res (F × F)).Fails .sexp := by unfold Offset.de; fails_by
theorem At.de_fails (s : Sexp) : (At.de s : Res (At F)).Fails .sexp := by unfold At.de; fails_by
theorem Layer.de_fails (s : Sexp) : (Layer.de s).Fails .sexp := by unfold Layer.de; fails_by
theorem Xy.de_fails (s : Sexp) : (Xy.de s : Res (Xy F)).Fails .sexp := by unfold Xy.de; fails_by
theorem Font.de_fails (s : Sexp) : (Font.de s : Res (Font F)).Fails .sexp := by
  unfold Font.de; fails_by [maybe_fails Xy.de_fails _]
theorem Justify.de_fails (s : Sexp) : (Justify.de s).Fails .sexp := by unfold Justify.de; fails_by
theorem Effects.de_fails (s : Sexp) : (Effects.de s : Res (Effects F)).Fails .sexp := by
  unfold Effects.de; fails_by [eat_fails Font.de_fails _, maybe_fails Justify.de_fails _]
theorem Layers.de_fails (s : Sexp) : (Layers.de s).Fails .sexp := by
  unfold Layers.de
  refine fails_bind (iter_fails _ _) fun _ _ => vec_fails _ fun _ _ => ?_
  fails_by
theorem Pts.de_fails (s : Sexp) : (Pts.de s : Res (List (Xy F))).Fails .sexp := by
  unfold Pts.de
  exact fails_bind (iter_fails _ _) fun _ _ => vec_fails _ fun _ _ => Xy.de_fails _
theorem Xyz.de_fails (s : Sexp) : (Xyz.de s : Res (Xyz F)).Fails .sexp := by unfold Xyz.de; fails_by
theorem Net.de_fails (s : Sexp) : (Net.de s).Fails .sexp := by unfold Net.de; fails_by
theorem Drill.de_fails (s : Sexp) : (Drill.de s : Res (Drill F)).Fails .sexp := by
  unfold Drill.de; fails_by [maybe_fails Offset.de_fails _]
theorem second_fails (s : Sexp) : (second s).Fails .sexp := by
  unfold second
  refine fails_bind (list_fails _) fun _ _ => ?_
  split
  · exact fails_ok _
  · exact fails_err _
theorem Part.de_fails (s : Sexp) : (Part.de s : Res (Part F)).Fails .sexp := by
  unfold Part.de; fails_by [second_fails _, Net.de_fails _]
theorem FpText.de_fails (s : Sexp) : (FpText.de s : Res (FpText F)).Fails .sexp := by
  unfold FpText.de; fails_by [maybe_fails At.de_fails _, maybe_fails Layer.de_fails _, maybe_fails Effects.de_fails _]
theorem PadType.fromString_fails (s : Str) : (PadType.fromString s).Fails .sexp := by unfold PadType.fromString; fails_by
theorem PadShape.fromString_fails (s : Str) : (PadShape.fromString s).Fails .sexp := by unfold PadShape.fromString; fails_by
theorem Pad.addParts_fails (l : List (Part F)) : ∀ p : Pad F, (Pad.addParts p l).Fails .sexp := by
  induction l with
  | nil => intro p; exact fails_ok _
  | cons x r ih =>
    intro p
    cases x <;> first | exact ih _ | exact fails_err _
theorem Pad.de_fails (s : Sexp) : (Pad.de s : Res (Pad F)).Fails .sexp := by
  unfold Pad.de
  fails_by [PadType.fromString_fails _, PadShape.fromString_fails _, maybe_fails At.de_fails _, maybe_fails Xy.de_fails _,
    maybe_fails Drill.de_fails _, maybe_fails Layers.de_fails _, vec_fails _ fun _ _ => Part.de_fails _,
    Pad.addParts_fails _ _]
theorem FpPoly.de_fails (s : Sexp) : (FpPoly.de s : Res (FpPoly F)).Fails .sexp := by
  unfold FpPoly.de; fails_by [maybe_fails Pts.de_fails _, maybe_fails Layer.de_fails _]
theorem FpLine.de_fails (s : Sexp) : (FpLine.de s : Res (FpLine F)).Fails .sexp := by
  unfold FpLine.de; fails_by [maybe_fails Xy.de_fails _, maybe_fails Layer.de_fails _]
theorem FpCircle.de_fails (s : Sexp) : (FpCircle.de s : Res (FpCircle F)).Fails .sexp := by
  unfold FpCircle.de; fails_by [maybe_fails Xy.de_fails _, maybe_fails Layer.de_fails _]
theorem FpArc.de_fails (s : Sexp) : (FpArc.de s : Res (FpArc F)).Fails .sexp := by
  unfold FpArc.de; fails_by [maybe_fails Xy.de_fails _, maybe_fails Layer.de_fails _]
theorem Model.de_fails (s : Sexp) : (Model.de s : Res (Model F)).Fails .sexp := by
  unfold Model.de; fails_by [eat_fails (inList_fails Xyz.de_fails _) _]
theorem firstValue_fails {α : Type} {dec : Sexp → Res α} (h : ∀ e, (dec e).Fails .sexp) (s : Sexp) :
    (firstValue dec s).Fails .sexp := by
  unfold firstValue; fails_by [eat_fails h _]
theorem stamp_fails (s : Sexp) : (stamp s).Fails .sexp := by
  unfold stamp
  refine fails_bind (firstValue_fails string_fails _) fun _ _ => ?_
  split
  · exact fails_ok _
  · exact fails_err _

theorem Elem.de_fails (s : Sexp) : (Elem.de s : Res (Elem F)).Fails .sexp := by
  unfold Elem.de
  split
  · fails_by
  · exact fails_panic
  · fails_by [firstValue_fails string_fails _, firstValue_fails flt_fails _, Layer.de_fails _, FpText.de_fails _, Pad.de_fails _,
      FpPoly.de_fails _, FpLine.de_fails _, FpCircle.de_fails _, FpArc.de_fails _, stamp_fails _, At.de_fails _,
      Model.de_fails _]

theorem Module.de_fails (s : Sexp) : (Module.de s : Res (Module F)).Fails .sexp := by
  unfold Module.de
  fails_by [vec_fails _ fun _ _ => Elem.de_fails _]

end Fp

namespace Lay

variable {F : Type} [Flt F]

theorem single_fails {α : Type} {dec : Sexp → Res α} (h : ∀ e, (dec e).Fails .sexp) (n : Str) (s : Sexp) :
    (single n dec s).Fails .sexp := by
  unfold single; fails_by [eat_fails h _]
theorem Host.de_fails (s : Sexp) : (Host.de s).Fails .sexp := by unfold Host.de; fails_by
theorem Area.de_fails (s : Sexp) : (Area.de s : Res (Area F)).Fails .sexp := by unfold Area.de; fails_by
theorem General.de_fails (s : Sexp) : (General.de s : Res (General F)).Fails .sexp := by
  unfold General.de; fails_by [eat_fails Area.de_fails _]
theorem LayerType.de_fails (s : Sexp) : (LayerType.de s).Fails .sexp := by unfold LayerType.de; fails_by
theorem Layer.de_fails (s : Sexp) : (Layer.de s).Fails .sexp := by
  unfold Layer.de; fails_by [eat_fails LayerType.de_fails _]
theorem LayerVec.de_fails (s : Sexp) : (LayerVec.de s).Fails .sexp := by
  unfold LayerVec.de
  exact fails_bind (iter_fails _ _) fun _ _ => vec_fails _ fun _ _ => Layer.de_fails _
theorem SetupElement.de_fails (s : Sexp) : (SetupElement.de s).Fails .sexp := by unfold SetupElement.de; fails_by
theorem Setup.fill_fails (l : List Sexp) : ∀ st : Setup, (Setup.fill st l).Fails .sexp := by
  induction l with
  | nil => intro st; exact fails_ok _
  | cons v r ih =>
    intro st
    rw [Setup.fill]
    fails_by [vec_fails _ fun _ _ => SetupElement.de_fails _, SetupElement.de_fails _, ih _]
theorem Setup.de_fails (s : Sexp) : (Setup.de s).Fails .sexp := by
  unfold Setup.de; fails_by [Setup.fill_fails _ _]
theorem NetClass.fill_fails (l : List Sexp) : ∀ nc : NetClass F, (NetClass.fill nc l).Fails .sexp := by
  induction l with
  | nil => intro st; exact fails_ok _
  | cons v r ih =>
    intro st
    rw [NetClass.fill]
    fails_by [single_fails flt_fails _ _, ih _]
theorem NetClass.de_fails (s : Sexp) : (NetClass.de s : Res (NetClass F)).Fails .sexp := by
  unfold NetClass.de; fails_by [NetClass.fill_fails _ _]
theorem GrText.de_fails (s : Sexp) : (GrText.de s : Res (GrText F)).Fails .sexp := by
  unfold GrText.de
  fails_by [eat_fails Fp.At.de_fails _, eat_fails Fp.Layer.de_fails _, eat_fails Fp.Effects.de_fails _]
theorem GrLine.de_fails (s : Sexp) : (GrLine.de s : Res (GrLine F)).Fails .sexp := by
  unfold GrLine.de; fails_by [eat_fails Fp.Xy.de_fails _, eat_fails Fp.Layer.de_fails _]
theorem GrArc.de_fails (s : Sexp) : (GrArc.de s : Res (GrArc F)).Fails .sexp := by
  unfold GrArc.de; fails_by [eat_fails Fp.Xy.de_fails _, eat_fails Fp.Layer.de_fails _]
theorem GrCircle.de_fails (s : Sexp) : (GrCircle.de s : Res (GrCircle F)).Fails .sexp := by
  unfold GrCircle.de; fails_by [eat_fails Fp.Xy.de_fails _, eat_fails Fp.Layer.de_fails _]
theorem Dimension.de_fails (s : Sexp) : (Dimension.de s : Res (Dimension F)).Fails .sexp := by
  unfold Dimension.de
  fails_by [eat_fails GrText.de_fails _, eat_fails Fp.Layer.de_fails _, eat_fails (inList_fails Fp.Pts.de_fails _) _]
theorem Hatch.de_fails (s : Sexp) : (Hatch.de s : Res (Hatch F)).Fails .sexp := by unfold Hatch.de; fails_by
theorem ConnectPads.de_fails (s : Sexp) : (ConnectPads.de s : Res (ConnectPads F)).Fails .sexp := by
  unfold ConnectPads.de; fails_by
theorem Keepout.de_fails (s : Sexp) : (Keepout.de s).Fails .sexp := by unfold Keepout.de; fails_by
theorem Fill.de_fails (s : Sexp) : (Fill.de s : Res (Fill F)).Fails .sexp := by unfold Fill.de; fails_by
theorem Zone.de_fails (s : Sexp) : (Zone.de s : Res (Zone F)).Fails .sexp := by
  unfold Zone.de
  fails_by [eat_fails Fp.Layer.de_fails _, eat_fails Hatch.de_fails _, eat_fails ConnectPads.de_fails _,
    maybe_fails Keepout.de_fails _, eat_fails Fill.de_fails _]
theorem Segment.de_fails (s : Sexp) : (Segment.de s : Res (Segment F)).Fails .sexp := by
  unfold Segment.de; fails_by [eat_fails Fp.Xy.de_fails _, eat_fails Fp.Layer.de_fails _]
theorem Via.de_fails (s : Sexp) : (Via.de s : Res (Via F)).Fails .sexp := by
  unfold Via.de; fails_by [eat_fails Fp.At.de_fails _, eat_fails Fp.Layers.de_fails _]

theorem Layout.step_fails (l : Layout F) (e : Sexp) : (l.step e).Fails .sexp := by
  unfold Layout.step
  fails_by [single_fails int_fails _ _, Host.de_fails _, General.de_fails _, single_fails string_fails _ _, LayerVec.de_fails _,
    Fp.Module.de_fails _, Fp.Net.de_fails _, NetClass.de_fails _, GrText.de_fails _, GrLine.de_fails _, GrArc.de_fails _,
    GrCircle.de_fails _, Dimension.de_fails _, Zone.de_fails _, Segment.de_fails _, Via.de_fails _, Setup.de_fails _]

theorem Layout.fill_fails (r : List Sexp) : ∀ l : Layout F, (Layout.fill l r).Fails .sexp := by
  induction r with
  | nil => intro l; exact fails_ok _
  | cons e r ih => intro l; exact fails_bind (Layout.step_fails l e) fun _ _ => ih _

theorem Layout.de_fails (s : Sexp) : (Layout.de s : Res (Layout F)).Fails .sexp := by
  unfold Layout.de
  exact fails_bind (iter_fails _ _) fun _ _ => Layout.fill_fails _ _

end Lay

namespace Tbl

theorem Lib.de_fails (s : Sexp) : (Lib.de s).Fails .sexp := by unfold Lib.de; fails_by
theorem FpLibTable.de_fails (s : Sexp) : (FpLibTable.de s).Fails .sexp := by
  unfold FpLibTable.de
  fails_by [vec_fails _ fun _ _ => Lib.de_fails _]

end Tbl

/-! ### Texts -/

theorem parseToks_fails (ts : List Tok) : ∀ st : List (List Sexp), (parseToks st ts).Fails .sexp := by
  have fin : ∀ (e : Sexp) ts, (finishParse e ts).Fails .sexp := by
    intro e ts
    cases ts <;> first | exact fails_ok _ | exact fails_err _
  induction ts with
  | nil => intro st; cases st <;> first | exact fails_ok _ | exact fails_err _
  | cons t ts ih =>
    intro st
    match st, t with
    | [], .op => exact ih [[]]
    | [], .cl => exact fails_err _
    | [], .atom a => exact fin _ _
    | l :: st, .op => exact ih _
    | l :: st, .atom a => exact ih _
    | [l], .cl => exact fin _ _
    | l :: l' :: st, .cl => exact ih _

theorem parseSexp_fails (s : Str) : (parseSexp s).Fails .sexp := by
  unfold parseSexp
  split
  · exact parseToks_fails _ _
  · exact fails_err _

theorem Fp.parse_fails {F : Type} [Flt F] (s : Str) : (Fp.parse s : Res (Fp.Module F)).Fails .sexp :=
  fails_bind (parseSexp_fails s) fun _ _ => Fp.Module.de_fails _

theorem Lay.parse_fails {F : Type} [Flt F] (s : Str) : (Lay.parse s : Res (Lay.Layout F)).Fails .sexp :=
  fails_bind (parseSexp_fails s) fun _ _ => Lay.Layout.de_fails _

theorem Tbl.parse_fails (s : Str) : (Tbl.parse s).Fails .sexp :=
  fails_bind (parseSexp_fails s) fun _ _ => Tbl.FpLibTable.de_fails _

/-! ### Line formats -/

theorem splitInt_fails (n : Option Nat) (s : Str) : (splitInt n s).Fails .other := by
  unfold splitInt
  cases n with
  | none => exact fails_ok _
  | some k => exact fails_ite (fails_err _) (fails_ok _)

namespace Sch

variable {F : Type} [Flt F]

theorem splitN_fails (n : Nat) (s : Str) : (splitN n s).Fails .other := splitInt_fails _ s
theorem splitQ_fails (s : Str) : (splitQ s).Fails .other := splitInt_fails _ s

theorem idx_fails (v : List Str) (i : Nat) : (idx v i).Fails .other := by
  unfold idx; split <;> first | exact fails_ok _ | exact fails_panic
theorem charAt_fails (v : Str) (i : Nat) : (charAt v i).Fails .other := by
  unfold charAt; split <;> first | exact fails_ok _ | exact fails_panic
theorem here_fails (p : List Str) : (here p).Fails .other := by
  unfold here; split <;> first | exact fails_ok _ | exact fails_panic
theorem i64R_fails (s : Str) : (i64R s).Fails .other := by
  unfold i64R; split <;> first | exact fails_ok _ | exact fails_err _
theorem f64R_fails (s : Str) : (f64R s : Res F).Fails .other := by
  unfold f64R; split <;> first | exact fails_ok _ | exact fails_err _
theorem boolFrom_fails {α : Type} [DecidableEq α] (s t f : α) : (boolFrom s t f).Fails .other := by
  unfold boolFrom; repeat' first | exact fails_ok _ | exact fails_err _ | apply fails_ite
theorem assumeString_fails (a b : Str) : (assumeString a b).Fails .other := by
  unfold assumeString; repeat' first | exact fails_ok _ | exact fails_err _ | apply fails_ite
theorem assumeLine_fails (a : Str) (p : List Str) : (assumeLine a p).Fails .other := by
  unfold assumeLine; repeat' first | exact fails_ok _ | exact fails_err _ | apply fails_ite | split
theorem Orientation.new_fails (c : Char) : (Orientation.new c).Fails .other := by
  unfold Orientation.new; repeat' first | exact fails_ok _ | exact fails_err _ | apply fails_ite
theorem Justify.new_fails (c : Char) : (Justify.new c).Fails .other := by
  unfold Justify.new; repeat' first | exact fails_ok _ | exact fails_err _ | apply fails_ite

/-- Show of what kind the errors of a straight-line reader are, from the readers it calls. -/
syntax "line_fails" ("[" term,* "]")? : tactic
macro_rules
  | `(tactic| line_fails) => `(tactic| line_fails [])
  | `(tactic| line_fails [$ts,*]) => do
    let alts ← ts.getElems.mapM fun t => `(tactic| with_reducible exact $t)
    `(tactic|
      repeat' with_reducible first
        | exact fails_ok _ | exact fails_err _ | exact fails_panic | exact fails_diverge
        | exact idx_fails _ _ | exact charAt_fails _ _ | exact here_fails _ | exact i64R_fails _
        | exact f64R_fails _ | exact boolFrom_fails _ _ _ | exact assumeString_fails _ _
        | exact assumeLine_fails _ _ | exact Orientation.new_fails _ | exact Justify.new_fails _
        | exact splitN_fails _ _ | exact splitQ_fails _
        | first $[| $alts:tactic]* | fail
        | apply fails_ite
        | (refine fails_bind ?_ fun _ _ => ?_)
        | split)

theorem Field.new_fails (v : List Str) : (Field.new v : Res (Field F)).Fails .other := by
  unfold Field.new; line_fails
theorem wordAndQstring_fails (n s : Str) : (wordAndQstring n s).Fails .other := by
  unfold wordAndQstring; line_fails
theorem parseDescription_fails (p : List Str) : (parseDescription p).Fails .other := by
  unfold parseDescription; line_fails [wordAndQstring_fails _ _]
theorem parseComponentL_fails (s : Str) (d : Component F) : (parseComponentL s d).Fails .other := by
  unfold parseComponentL; line_fails
theorem parseComponentP_fails (s : Str) (d : Component F) : (parseComponentP s d).Fails .other := by
  unfold parseComponentP; line_fails
theorem parseComponentF_fails (s : Str) (d : Component F) : (parseComponentF s d).Fails .other := by
  unfold parseComponentF; line_fails [Field.new_fails _]
theorem parseRotation_fails (s : Str) : (parseRotation s).Fails .other := by
  unfold parseRotation; line_fails
theorem parseComponentLoop_fails (n : Nat) : ∀ (p : List Str) (_ : p.length ≤ n) (d : Component F),
    (parseComponentLoop d p).Fails .other := by
  induction n with
  | zero =>
    intro p h d
    have : p = [] := List.length_eq_zero_iff.1 (by omega)
    subst this
    exact fails_panic
  | succ n ih =>
    intro p h d
    match p, h with
    | [], _ => exact fails_panic
    | s :: rest, h =>
      have h1 : rest.length ≤ n := by simpa using h
      rw [parseComponentLoop.eq_def]
      dsimp only
      line_fails [ih rest h1 _, parseComponentL_fails _ _, parseComponentP_fails _ _, parseComponentF_fails _ _,
        parseRotation_fails _]
      exact ih _ (by simp only [List.length_cons] at h1; omega) _
theorem parseComponent_fails (p : List Str) : (parseComponent p : Res (Component F × List Str)).Fails .other :=
  parseComponentLoop_fails _ _ (Nat.le_refl _) _
theorem parseSheetS_fails (s : Str) (d : Sheet) : (parseSheetS s d).Fails .other := by
  unfold parseSheetS; line_fails
theorem parseSheetU_fails (s : Str) (d : Sheet) : (parseSheetU s d).Fails .other := by
  unfold parseSheetU; line_fails
theorem parseLabelForm_fails (s : Str) : (parseLabelForm s).Fails .other := by
  unfold parseLabelForm; line_fails
theorem parseLabelSide_fails (s : Str) : (parseLabelSide s).Fails .other := by
  unfold parseLabelSide; line_fails
theorem parseSheetLabel_fails (s : Str) : (parseSheetLabel s).Fails .other := by
  unfold parseSheetLabel; line_fails [parseLabelForm_fails _, parseLabelSide_fails _]
theorem parseSheetF_fails (l : Str) (d : Sheet) (f : Str) : (parseSheetF l d f).Fails .other := by
  unfold parseSheetF; line_fails [parseSheetLabel_fails _]
theorem parseSheetLoop_fails (p : List Str) : ∀ d : Sheet, (parseSheetLoop d p).Fails .other := by
  induction p with
  | nil => intro d; exact fails_panic
  | cons s rest ih =>
    intro d
    rw [parseSheetLoop]
    line_fails [ih _, parseSheetS_fails _ _, parseSheetU_fails _ _, parseSheetF_fails _ _ _]
theorem parseSheet_fails (p : List Str) : (parseSheet p).Fails .other := parseSheetLoop_fails _ _
theorem parseWire_fails (p : List Str) : (parseWire p).Fails .other := by
  unfold parseWire; line_fails
theorem parsePos_fails (s : Str) : (parsePos s).Fails .other := by
  unfold parsePos; line_fails
theorem parseTextType_fails (s : Str) : (parseTextType s).Fails .other := by
  unfold parseTextType; line_fails
theorem parseText_fails (p : List Str) : (parseText p).Fails .other := by
  unfold parseText; line_fails [parseTextType_fails _]
theorem parseItem_fails (s : Schematic F) (p : List Str) : (parseItem s p).Fails .other := by
  unfold parseItem
  line_fails [parseDescription_fails _, parseComponent_fails _, parseSheet_fails _, parseWire_fails _, parsePos_fails _,
    parseText_fails _]
theorem parseItems_fails (n : Nat) : ∀ (s : Schematic F) (p : List Str), (parseItems n s p).Fails .other := by
  induction n with
  | zero => intro s p; cases p <;> (rw [parseItems]; first | exact fails_ok _ | exact fails_diverge)
  | succ n ih =>
    intro s p
    cases p with
    | nil => rw [parseItems]; exact fails_ok _
    | cons l p =>
      rw [parseItems]
      · exact fails_bind (parseItem_fails _ _) fun _ _ => ih _ _
      · simp
theorem parse_fails (fn : Option Str) (s : Str) : (parse fn s : Res (Schematic F)).Fails .other := by
  unfold parse parseLines
  line_fails [parseItems_fails _ _ _]

end Sch

namespace Lib

variable {F : Type} [Flt F]
open Sch

theorem Fill.make_fails (s : Str) : (Fill.make s).Fails .other := by unfold Fill.make; line_fails
theorem PinOrientation.make_fails (s : Str) : (PinOrientation.make s).Fails .other := by
  unfold PinOrientation.make; line_fails
theorem PinType.make_fails (s : Str) : (PinType.make s).Fails .other := by unfold PinType.make; line_fails
theorem PinShape.make_fails (s : Str) : (PinShape.make s).Fails .other := by unfold PinShape.make; line_fails
theorem parseField_fails (s : Str) : (parseField s : Res (Field F)).Fails .other := by unfold parseField; line_fails
theorem parsePin_fails (s : Str) : (parsePin s).Fails .other := by
  unfold parsePin; line_fails [PinOrientation.make_fails _, PinType.make_fails _, PinShape.make_fails _]
theorem parseRect_fails (s : Str) : (parseRect s).Fails .other := by
  unfold parseRect; line_fails [Fill.make_fails _]
theorem parseFields_fails (p : List Str) : ∀ acc : List (Field F), (parseFields acc p).Fails .other := by
  induction p with
  | nil => intro acc; exact fails_panic
  | cons s rest ih => intro acc; rw [parseFields]; line_fails [parseField_fails _, ih _]
theorem parseDrawLine_fails (s : Str) : (parseDrawLine s).Fails .other := by
  unfold parseDrawLine; line_fails [parsePin_fails _, parseRect_fails _]
theorem parseDraws_fails (p : List Str) : ∀ acc : List Draw, (parseDraws acc p).Fails .other := by
  induction p with
  | nil => intro acc; exact fails_ok _
  | cons s rest ih => intro acc; rw [parseDraws]; line_fails [parseDrawLine_fails _, ih _]
theorem parseAliases_fails (p : List Str) : (parseAliases p).Fails .other := by unfold parseAliases; line_fails
theorem parseDef_fails (s : Str) : (parseDef s : Res (Symbol F)).Fails .other := by unfold parseDef; line_fails
theorem parseSymbol_fails (p : List Str) : (parseSymbol p : Res (Symbol F × List Str)).Fails .other := by
  unfold parseSymbol
  line_fails [parseDef_fails _, parseFields_fails _ _, parseAliases_fails _, parseDraws_fails _ _]
theorem parseSymbols_fails (n : Nat) : ∀ (acc : List (Symbol F)) (p : List Str), (parseSymbols n acc p).Fails .other := by
  induction n with
  | zero => intro acc p; cases p <;> (rw [parseSymbols]; first | exact fails_ok _ | exact fails_diverge)
  | succ n ih =>
    intro acc p
    cases p with
    | nil => rw [parseSymbols]; exact fails_ok _
    | cons l p => rw [parseSymbols]; line_fails [parseSymbol_fails _, ih _ _]
theorem parseStr_fails (s : Str) : (parseStr s : Res (SymbolLib F)).Fails .other := by
  unfold parseStr parseLines
  line_fails [parseSymbols_fails _ _ _]

end Lib

theorem Pro.parseStr_fails (s : Str) : (Pro.parseStr s).Fails .other := by
  unfold Pro.parseStr
  exact fails_ite (fails_err _) (fails_ok _)

end Verif
