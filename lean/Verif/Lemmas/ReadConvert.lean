import Verif.Spec.Convert
import Verif.Model.Layout.Codec
import Mathlib.Tactic.SplitIfs
/-!
# Reading is the same for all kinds of numbers

A reader of trees looks at a number only through the text it is written as, and makes numbers only
from text and literals.  If `f` takes the number one kind makes of a text to the number the other
kind makes of it, it takes what is read with the one to what is read with the other.
-/

namespace Verif

open Flt Sx

/-- `f` takes numbers of one kind to the numbers the other kind makes of the same text and the same
literal. -/
structure ReadsAs {C F : Type} [Flt C] [Flt F] (f : C → F) : Prop where
  text : ∀ s : Str, (ofStr s : Option F) = (ofStr s : Option C).map f
  lit : ∀ (m : Int) (k : Nat), (Flt.lit m k : F) = f (Flt.lit m k)

namespace Res

theorem map_bind {α β γ : Type} (x : Res α) (g : α → Res β) (k : β → γ) :
    (x >>= g).map k = x >>= fun a => (g a).map k := by
  cases x <;> rfl

theorem map_id' {α : Type} (x : Res α) : x.map (fun a => a) = x := by cases x <;> rfl

theorem map_map {α β γ : Type} (x : Res α) (g : α → β) (k : β → γ) : (x.map g).map k = x.map (fun a => k (g a)) := by
  cases x <;> rfl

/-- The same first step. -/
theorem bind_same {α β β' : Type} (x : Res α) {g' : α → Res β'} {g : α → Res β} {k : β → β'}
    (h : ∀ a, g' a = (g a).map k) : (x >>= g') = (x >>= g).map k := by
  cases x <;> first | rfl | exact h _

/-- First steps that correspond. -/
theorem bind_conv {α α' β β' : Type} {x' : Res α'} {x : Res α} {j : α → α'} (hx : x' = x.map j)
    {g' : α' → Res β'} {g : α → Res β} {k : β → β'} (h : ∀ a, g' (j a) = (g a).map k) :
    (x' >>= g') = (x >>= g).map k := by
  subst hx; cases x <;> first | rfl | exact h _

/-- The same choice. -/
theorem ite_conv {α β : Type} {c : Prop} [Decidable c] {a' b' : Res β} {a b : Res α} {k : α → β} (ha : a' = a.map k)
    (hb : b' = b.map k) : (if c then a' else b') = (if c then a else b).map k := by
  split <;> assumption

theorem fmap_eq {α β : Type} (g : α → β) (x : Res α) : g <$> x = x.map g := by cases x <;> rfl

end Res

namespace Sx
variable {α α' β β' : Type}

theorem eat_conv {dec' : Sexp → Res α'} {dec : Sexp → Res α} {j : α → α'} (h : ∀ s, dec' s = (dec s).map j)
    {g' : α' × List Sexp → Res β'} {g : α × List Sexp → Res β} {k : β → β'} (i : List Sexp)
    (hg : ∀ a i, g' (j a, i) = (g (a, i)).map k) : (eat dec' i >>= g') = (eat dec i >>= g).map k := by
  refine Res.bind_conv (j := fun p => (j p.1, p.2)) ?_ fun p => hg p.1 p.2
  cases i with
  | nil => rfl
  | cons x r => simp only [eat, h]; cases dec x <;> rfl

theorem eat_same {dec : Sexp → Res α}
    {g' : α × List Sexp → Res β'} {g : α × List Sexp → Res β} {k : β → β'} (i : List Sexp)
    (hg : ∀ a i, g' (a, i) = (g (a, i)).map k) : (eat dec i >>= g') = (eat dec i >>= g).map k :=
  Res.bind_same _ fun p => hg p.1 p.2

theorem maybe_conv {dec' : Sexp → Res α'} {dec : Sexp → Res α} {j : α → α'} (h : ∀ s, dec' s = (dec s).map j)
    {g' : Option α' × List Sexp → Res β'} {g : Option α × List Sexp → Res β} {k : β → β'} (i : List Sexp)
    (hg : ∀ a i, g' (a.map j, i) = (g (a, i)).map k) : (maybe dec' i >>= g') = (maybe dec i >>= g).map k := by
  refine Res.bind_conv (j := fun p => (p.1.map j, p.2)) ?_ fun p => hg p.1 p.2
  cases i with
  | nil => rfl
  | cons x r => simp only [maybe, h]; cases dec x <;> rfl

theorem maybe_same {dec : Sexp → Res α}
    {g' : Option α × List Sexp → Res β'} {g : Option α × List Sexp → Res β} {k : β → β'} (i : List Sexp)
    (hg : ∀ a i, g' (a, i) = (g (a, i)).map k) : (maybe dec i >>= g') = (maybe dec i >>= g).map k :=
  Res.bind_same _ fun p => hg p.1 p.2

theorem vec_conv {dec' : Sexp → Res α'} {dec : Sexp → Res α} {j : α → α'} (h : ∀ s, dec' s = (dec s).map j)
    (i : List Sexp) : vec dec' i = (vec dec i).map (List.map j) := by
  induction i with
  | nil => rfl
  | cons x r ih => simp only [vec, h, ih]; cases dec x <;> cases vec dec r <;> rfl

theorem close_conv (i : List Sexp) (a : α) (a' : α') {k : α → α'} (h : a' = k a) : close i a' = (close i a).map k := by
  subst h; cases i <;> rfl

theorem inList_conv (name : Str) {dec' : Sexp → Res α'} {dec : Sexp → Res α} {j : α → α'}
    (h : ∀ s, dec' s = (dec s).map j) (s : Sexp) : inList name dec' s = (inList name dec s).map j :=
  Res.bind_same _ h

end Sx

namespace ReadsAs
variable {C F : Type} [Flt C] [Flt F] {f : C → F} (h : ReadsAs f)
include h

theorem zero_eq : (zero : F) = f zero := h.lit 0 0

theorem flt (s : Sexp) : (Sx.flt s : Res F) = (Sx.flt s : Res C).map f := by
  cases s with
  | str s => simp only [Sx.flt, h.text s]; cases (ofStr s : Option C) <;> rfl
  | list l => rfl
  | empty => rfl

theorem fltIn (name : Str) (s : Sexp) :
    inList name (Sx.flt : Sexp → Res F) s = (inList name (Sx.flt : Sexp → Res C) s).map f :=
  inList_conv name h.flt s

end ReadsAs

/-! ## Footprints -/

namespace ReadsAs
open Fp
variable {C F : Type} [Flt C] [Flt F] {f : C → F} (h : ReadsAs f)
include h

theorem offset (s : Sexp) : (Offset.de s : Res (F × F)) = (Offset.de s : Res (C × C)).map (fun p => (f p.1, f p.2)) := by
  refine Res.bind_same _ fun i => eat_conv h.flt i fun x i => eat_conv h.flt i fun y _ => close_conv _ _ _ rfl

theorem at_ (s : Sexp) : (At.de s : Res (At F)) = (At.de s : Res (At C)).map (At.conv f) := by
  refine Res.bind_same _ fun i => eat_conv h.flt i fun x i => eat_conv h.flt i fun y i =>
    maybe_conv h.flt i fun r _ => close_conv _ _ _ ?_
  cases r <;> simp [At.conv, h.zero_eq]

theorem xy (s : Sexp) : (Xy.de s : Res (Xy F)) = (Xy.de s : Res (Xy C)).map (Xy.conv f) := by
  refine Res.bind_same _ fun n => Res.bind_same _ fun t => Res.bind_same _ fun i =>
    eat_conv h.flt i fun x i => eat_conv h.flt i fun y _ => close_conv _ _ _ rfl

theorem font (s : Sexp) : (Font.de s : Res (Font F)) = (Font.de s : Res (Font C)).map (Font.conv f) := by
  refine Res.bind_same _ fun i => maybe_conv h.xy i fun x i => maybe_conv (h.fltIn _) i fun t i =>
    maybe_same i fun l _ => close_conv _ _ _ ?_
  cases x <;> cases t <;> cases l <;> simp [Font.conv, Xy.conv, Font.dflt, Xy.newEmpty, h.zero_eq]

theorem effects (s : Sexp) : (Effects.de s : Res (Effects F)) = (Effects.de s : Res (Effects C)).map (Effects.conv f) :=
  Res.bind_same _ fun i => eat_conv h.font i fun _ i => maybe_same i fun _ _ => close_conv _ _ _ rfl

theorem pts (s : Sexp) : (Pts.de s : Res (List (Xy F))) = (Pts.de s : Res (List (Xy C))).map (List.map (Xy.conv f)) :=
  Res.bind_same _ fun i => vec_conv h.xy i

theorem xyz (s : Sexp) : (Xyz.de s : Res (Xyz F)) = (Xyz.de s : Res (Xyz C)).map (Xyz.conv f) :=
  Res.bind_same _ fun i => eat_conv h.flt i fun _ i => eat_conv h.flt i fun _ i => eat_conv h.flt i fun _ _ =>
    close_conv _ _ _ rfl

theorem drill (s : Sexp) : (Drill.de s : Res (Drill F)) = (Drill.de s : Res (Drill C)).map (Drill.conv f) := by
  refine Res.bind_same _ fun i => maybe_same i fun _ i => eat_conv h.flt i fun w i => maybe_conv h.flt i fun hh i =>
    maybe_conv h.offset i fun o _ => close_conv _ _ _ ?_
  cases hh <;> cases o <;> simp [Drill.conv, h.zero_eq]

end ReadsAs

namespace Fp

/-- A part of a pad with other numbers. -/
def Part.conv {C F : Type} (f : C → F) : Part C → Part F
  | .thickness x => .thickness (f x)
  | .net n => .net n
  | .solderPasteMargin x => .solderPasteMargin (f x)
  | .solderMaskMargin x => .solderMaskMargin (f x)
  | .clearance x => .clearance (f x)
  | .thermalGap x => .thermalGap (f x)
  | .zoneConnect i => .zoneConnect i

theorem Pad.addParts_conv {C F : Type} (f : C → F) (l : List (Part C)) (p : Pad C) :
    Pad.addParts (p.conv f) (l.map (Part.conv f)) = (Pad.addParts p l).map (Pad.conv f) := by
  induction l generalizing p with
  | nil => rfl
  | cons x r ih => cases x <;> simp only [List.map_cons, Part.conv, Pad.addParts] <;> first | rfl | (rw [← ih]; rfl)

end Fp

namespace ReadsAs
open Fp
variable {C F : Type} [Flt C] [Flt F] {f : C → F} (h : ReadsAs f)
include h

theorem part (s : Sexp) : (Part.de s : Res (Part F)) = (Part.de s : Res (Part C)).map (Part.conv f) := by
  refine Res.bind_same _ fun n => ?_
  have hf : ∀ (k : C → Part C) (k' : F → Part F), (∀ x, k' (f x) = (k x).conv f) →
      (do let x ← second s; let f ← Sx.flt x; Res.ok (k' f) : Res (Part F)) =
        (do let x ← second s; let f ← Sx.flt x; Res.ok (k f) : Res (Part C)).map (Part.conv f) :=
    fun k k' hk => Res.bind_same _ fun x => Res.bind_conv (h.flt x) fun y => by rw [hk]; rfl
  exact Res.ite_conv (hf _ _ fun _ => rfl) <| Res.ite_conv (Res.bind_same _ fun _ => rfl) <|
    Res.ite_conv (hf _ _ fun _ => rfl) <| Res.ite_conv (hf _ _ fun _ => rfl) <| Res.ite_conv (hf _ _ fun _ => rfl) <|
    Res.ite_conv (hf _ _ fun _ => rfl) <| Res.ite_conv (Res.bind_same _ fun _ => Res.bind_same _ fun _ => rfl) rfl

theorem fpText (s : Sexp) : (FpText.de s : Res (FpText F)) = (FpText.de s : Res (FpText C)).map (FpText.conv f) := by
  refine Res.bind_same _ fun i => eat_same i fun n i => eat_same i fun v i => maybe_conv h.at_ i fun a i =>
    maybe_same i fun l i => maybe_same i fun hd i => maybe_conv h.effects i fun e _ => close_conv _ _ _ ?_
  cases a <;> cases l <;> cases e <;> cases hd <;>
    simp [FpText.conv, FpText.new, At.conv, At.dflt, Effects.conv, Effects.dflt, Font.conv, Font.dflt, Xy.conv, Xy.newEmpty,
      h.zero_eq]

theorem pad (s : Sexp) : (Pad.de s : Res (Pad F)) = (Pad.de s : Res (Pad C)).map (Pad.conv f) := by
  refine Res.bind_same _ fun i => eat_same i fun n i => eat_same i fun v i => Res.bind_same _ fun t => eat_same i fun sh i =>
    Res.bind_same _ fun sh => maybe_conv h.at_ i fun a i => maybe_conv h.xy i fun x i => maybe_conv h.drill i fun d i =>
    maybe_same i fun l i => Res.bind_conv (vec_conv h.part i) fun ps => ?_
  rw [← Pad.addParts_conv]
  congr 1
  cases a <;> cases x <;> cases l <;> dsimp only [Option.map_some, Option.map_none, Xy.conv] <;> (try split_ifs) <;>
    simp [Pad.conv, Pad.new, At.conv, At.dflt, Xy.conv, Xy.newEmpty, h.zero_eq]

theorem fpPoly (s : Sexp) : (FpPoly.de s : Res (FpPoly F)) = (FpPoly.de s : Res (FpPoly C)).map (FpPoly.conv f) := by
  refine Res.bind_same _ fun i => maybe_conv h.pts i fun a i => maybe_same i fun l i => maybe_conv (h.fltIn _) i fun w _ =>
    close_conv _ _ _ ?_
  cases a <;> cases l <;> cases w <;> simp [FpPoly.conv, h.zero_eq]

theorem fpLine (s : Sexp) : (FpLine.de s : Res (FpLine F)) = (FpLine.de s : Res (FpLine C)).map (FpLine.conv f) := by
  refine Res.bind_same _ fun i => maybe_conv h.xy i fun a i => maybe_conv h.xy i fun b i => maybe_same i fun l i =>
    maybe_conv (h.fltIn _) i fun w _ => close_conv _ _ _ ?_
  cases a <;> cases b <;> cases l <;> cases w <;> dsimp only [Option.map_some, Option.map_none, Xy.conv] <;> (try split_ifs) <;>
    simp [FpLine.conv, FpLine.dflt, Xy.conv, Xy.newEmpty, h.zero_eq]

theorem fpCircle (s : Sexp) :
    (FpCircle.de s : Res (FpCircle F)) = (FpCircle.de s : Res (FpCircle C)).map (FpCircle.conv f) := by
  refine Res.bind_same _ fun i => maybe_conv h.xy i fun a i => maybe_conv h.xy i fun b i => maybe_same i fun l i =>
    maybe_conv (h.fltIn _) i fun w _ => close_conv _ _ _ ?_
  cases a <;> cases b <;> cases l <;> cases w <;> dsimp only [Option.map_some, Option.map_none, Xy.conv] <;> (try split_ifs) <;>
    simp [FpCircle.conv, FpCircle.dflt, Xy.conv, Xy.newEmpty, h.zero_eq]

theorem fpArc (s : Sexp) : (FpArc.de s : Res (FpArc F)) = (FpArc.de s : Res (FpArc C)).map (FpArc.conv f) := by
  refine Res.bind_same _ fun i => maybe_conv h.xy i fun a i => maybe_conv h.xy i fun b i =>
    maybe_conv (h.fltIn _) i fun g i => maybe_same i fun l i => maybe_conv (h.fltIn _) i fun w _ => close_conv _ _ _ ?_
  cases a <;> cases b <;> cases l <;> cases w <;> cases g <;> dsimp only [Option.map_some, Option.map_none, Xy.conv] <;> (try split_ifs) <;>
    simp [FpArc.conv, FpArc.dflt, Xy.conv, Xy.newEmpty, h.zero_eq]

theorem model (s : Sexp) : (Model.de s : Res (Model F)) = (Model.de s : Res (Model C)).map (Model.conv f) :=
  Res.bind_same _ fun i => eat_same i fun _ i => eat_conv (inList_conv _ h.xyz) i fun _ i =>
    eat_conv (inList_conv _ h.xyz) i fun _ i => eat_conv (inList_conv _ h.xyz) i fun _ _ => close_conv _ _ _ rfl

theorem firstFlt (s : Sexp) : (firstValue Sx.flt s : Res F) = (firstValue Sx.flt s : Res C).map f :=
  Res.bind_same _ fun _ => Res.bind_same _ fun i => eat_conv h.flt i fun _ _ => rfl

theorem fpElem (s : Sexp) : (Elem.de s : Res (Elem F)) = (Elem.de s : Res (Elem C)).map (Elem.conv f) := by
  cases s with
  | str a => unfold Elem.de; dsimp only; split_ifs <;> rfl
  | empty => rfl
  | list l =>
    refine Res.bind_same _ fun n => ?_
    repeat' refine Res.ite_conv ?_ ?_
    all_goals
      try simp only [Res.fmap_eq, Res.map_map, h.firstFlt, h.fpText, h.pad, h.fpPoly, h.fpLine, h.fpCircle, h.fpArc, h.at_,
        h.model]
      rfl

theorem module_ (s : Sexp) : (Module.de s : Res (Module F)) = (Module.de s : Res (Module C)).map (Module.conv f) :=
  Res.bind_same _ fun i => eat_same i fun _ i => Res.bind_conv (vec_conv h.fpElem i) fun _ => rfl

/-- Reading a footprint. -/
theorem footprint (s : Str) : (Fp.parse s : Res (Module F)) = (Fp.parse s : Res (Module C)).map (Module.conv f) :=
  Res.bind_same _ h.module_

end ReadsAs

/-! ## Layouts -/

theorem Sx.single_conv {α α' : Type} (name : Str) {dec' : Sexp → Res α'} {dec : Sexp → Res α} {j : α → α'}
    (h : ∀ s, dec' s = (dec s).map j) (s : Sexp) : Lay.single name dec' s = (Lay.single name dec s).map j :=
  Res.bind_same _ fun i => eat_conv h i fun _ _ => close_conv _ _ _ rfl

namespace ReadsAs
open Lay
variable {C F : Type} [Flt C] [Flt F] {f : C → F} (h : ReadsAs f)
include h

theorem area (s : Sexp) : (Area.de s : Res (Area F)) = (Area.de s : Res (Area C)).map (Area.conv f) :=
  Res.bind_same _ fun i => eat_conv h.flt i fun _ i => eat_conv h.flt i fun _ i => eat_conv h.flt i fun _ i =>
    eat_conv h.flt i fun _ _ => close_conv _ _ _ rfl

theorem general (s : Sexp) : (General.de s : Res (General F)) = (General.de s : Res (General C)).map (General.conv f) :=
  Res.bind_same _ fun i => eat_same i fun _ i => eat_same i fun _ i => eat_conv h.area i fun _ i =>
    eat_conv (h.fltIn _) i fun _ i => eat_same i fun _ i => eat_same i fun _ i => eat_same i fun _ i =>
    eat_same i fun _ i => eat_same i fun _ _ => close_conv _ _ _ rfl

theorem netClassFill (l : List Sexp) (n : NetClass C) :
    NetClass.fill (n.conv f) l = (NetClass.fill n l).map (NetClass.conv f) := by
  induction l generalizing n with
  | nil => rfl
  | cons x r ih =>
    simp only [NetClass.fill]
    refine Res.bind_same _ fun m => ?_
    have hf : ∀ (k : C → NetClass C) (k' : F → NetClass F), (∀ x, k' (f x) = (k x).conv f) →
        (do let g ← single m Sx.flt x; NetClass.fill (k' g) r : Res (NetClass F)) =
          (do let g ← single m Sx.flt x; NetClass.fill (k g) r : Res (NetClass C)).map (NetClass.conv f) :=
      fun k k' hk => Res.bind_conv (single_conv m h.flt x) fun y => by rw [hk]; exact ih _
    refine Res.ite_conv (Res.bind_same _ fun _ => Res.bind_same _ fun _ => ih { n with nets := n.nets ++ [_] }) ?_
    exact Res.ite_conv (hf _ _ fun _ => rfl) <| Res.ite_conv (hf _ _ fun _ => rfl) <|
      Res.ite_conv (hf _ _ fun _ => rfl) <| Res.ite_conv (hf _ _ fun _ => rfl) <| Res.ite_conv (hf _ _ fun _ => rfl) <|
      Res.ite_conv (hf _ _ fun _ => rfl) <| Res.ite_conv (hf _ _ fun _ => rfl) <| Res.ite_conv (hf _ _ fun _ => rfl) rfl

theorem netClass (s : Sexp) :
    (NetClass.de s : Res (NetClass F)) = (NetClass.de s : Res (NetClass C)).map (NetClass.conv f) := by
  refine Res.bind_same _ fun i => eat_same i fun _ i => eat_same i fun _ i => ?_
  rw [← h.netClassFill]
  simp only [NetClass.conv, h.lit, Option.map_none]

theorem grText (s : Sexp) : (GrText.de s : Res (GrText F)) = (GrText.de s : Res (GrText C)).map (GrText.conv f) :=
  Res.bind_same _ fun i => eat_same i fun _ i => eat_conv h.at_ i fun _ i => eat_same i fun _ i =>
    eat_conv h.effects i fun _ i => maybe_same i fun _ _ => close_conv _ _ _ rfl

theorem getD_zero (a : Option C) : (a.map f).getD zero = f (a.getD zero) := by
  cases a <;> simp [h.zero_eq]

theorem grLine (s : Sexp) : (GrLine.de s : Res (GrLine F)) = (GrLine.de s : Res (GrLine C)).map (GrLine.conv f) :=
  Res.bind_same _ fun i => eat_conv h.xy i fun _ i => eat_conv h.xy i fun _ i => maybe_conv (h.fltIn _) i fun _ i =>
    eat_same i fun _ i => maybe_conv (h.fltIn _) i fun _ i => maybe_same i fun _ _ => close_conv _ _ _ (by
      simp only [GrLine.conv, h.getD_zero])

theorem grArc (s : Sexp) : (GrArc.de s : Res (GrArc F)) = (GrArc.de s : Res (GrArc C)).map (GrArc.conv f) :=
  Res.bind_same _ fun i => eat_conv h.xy i fun _ i => eat_conv h.xy i fun _ i => eat_conv (h.fltIn _) i fun _ i =>
    eat_same i fun _ i => maybe_conv (h.fltIn _) i fun _ i => maybe_same i fun _ _ => close_conv _ _ _ (by
      simp only [GrArc.conv, h.getD_zero])

theorem grCircle (s : Sexp) :
    (GrCircle.de s : Res (GrCircle F)) = (GrCircle.de s : Res (GrCircle C)).map (GrCircle.conv f) :=
  Res.bind_same _ fun i => eat_conv h.xy i fun _ i => eat_conv h.xy i fun _ i =>
    eat_same i fun _ i => maybe_conv (h.fltIn _) i fun _ i => maybe_same i fun _ _ => close_conv _ _ _ (by
      simp only [GrCircle.conv, h.getD_zero])

theorem ptsIn (name : Str) (s : Sexp) : inList name (Fp.Pts.de : Sexp → Res (List (Fp.Xy F))) s =
    (inList name (Fp.Pts.de : Sexp → Res (List (Fp.Xy C))) s).map (convPts f) := inList_conv name h.pts s

theorem dimension (s : Sexp) :
    (Dimension.de s : Res (Dimension F)) = (Dimension.de s : Res (Dimension C)).map (Dimension.conv f) :=
  Res.bind_same _ fun i => eat_same i fun _ i => eat_conv (h.fltIn _) i fun _ i => eat_same i fun _ i =>
    maybe_same i fun _ i => eat_conv h.grText i fun _ i => eat_conv (h.ptsIn _) i fun _ i => eat_conv (h.ptsIn _) i fun _ i =>
    eat_conv (h.ptsIn _) i fun _ i => eat_conv (h.ptsIn _) i fun _ i => eat_conv (h.ptsIn _) i fun _ i =>
    eat_conv (h.ptsIn _) i fun _ i => eat_conv (h.ptsIn _) i fun _ _ => close_conv _ _ _ rfl

theorem hatch (s : Sexp) : (Hatch.de s : Res (Hatch F)) = (Hatch.de s : Res (Hatch C)).map (Hatch.conv f) :=
  Res.bind_same _ fun i => eat_same i fun _ i => eat_conv h.flt i fun _ _ => close_conv _ _ _ rfl

theorem connectPads (s : Sexp) :
    (ConnectPads.de s : Res (ConnectPads F)) = (ConnectPads.de s : Res (ConnectPads C)).map (ConnectPads.conv f) :=
  Res.bind_same _ fun i => maybe_same i fun _ i => eat_conv (h.fltIn _) i fun _ _ => close_conv _ _ _ rfl

theorem zfill (s : Sexp) : (Lay.Fill.de s : Res (Lay.Fill F)) = (Lay.Fill.de s : Res (Lay.Fill C)).map (Lay.Fill.conv f) :=
  Res.bind_same _ fun i => maybe_same i fun _ i => maybe_same i fun _ i => eat_same i fun _ i =>
    eat_conv (h.fltIn _) i fun _ i => eat_conv (h.fltIn _) i fun _ i => maybe_same i fun _ i =>
    maybe_conv (h.fltIn _) i fun _ _ => close_conv _ _ _ (by simp only [Fill.conv, h.getD_zero])

theorem zoneFill (l : List Sexp) (z : Zone C) : Zone.fillRest (z.conv f) l = (Zone.fillRest z l).conv f := by
  induction l generalizing z with
  | nil => rfl
  | cons x r ih =>
    have hs : ∀ n, single n (Fp.Pts.de (F := F)) x = (single n (Fp.Pts.de (F := C)) x).map (convPts f) :=
      fun n => single_conv n h.pts x
    simp only [Zone.fillRest, hs]
    cases single (str! "polygon") (Fp.Pts.de (F := C)) x
    case ok => dsimp only [Res.map]; rw [← ih]; simp only [Zone.conv, List.map_append, List.map_cons, List.map_nil]
    all_goals
      cases single (str! "filled_polygon") (Fp.Pts.de (F := C)) x
      case ok => dsimp only [Res.map]; rw [← ih]; simp only [Zone.conv, List.map_append, List.map_cons, List.map_nil]
      all_goals cases single (str! "fill_segments") (Fp.Pts.de (F := C)) x <;> dsimp only [Res.map] <;> (rw [← ih]; rfl)

theorem zone (s : Sexp) : (Zone.de s : Res (Zone F)) = (Zone.de s : Res (Zone C)).map (Zone.conv f) :=
  Res.bind_same _ fun i => eat_same i fun _ i => eat_same i fun _ i => eat_same i fun _ i => eat_same i fun _ i =>
    eat_conv h.hatch i fun _ i => maybe_same i fun _ i => eat_conv h.connectPads i fun _ i =>
    eat_conv (h.fltIn _) i fun _ i => maybe_same i fun _ i => eat_conv h.zfill i fun _ i => by
      simp only [Res.map]; rw [← h.zoneFill]; rfl

theorem segment (s : Sexp) : (Segment.de s : Res (Segment F)) = (Segment.de s : Res (Segment C)).map (Segment.conv f) :=
  Res.bind_same _ fun i => eat_conv h.xy i fun _ i => eat_conv h.xy i fun _ i => eat_conv (h.fltIn _) i fun _ i =>
    eat_same i fun _ i => eat_same i fun _ i => maybe_same i fun _ i => maybe_same i fun _ _ => close_conv _ _ _ rfl

theorem via (s : Sexp) : (Via.de s : Res (Via F)) = (Via.de s : Res (Via C)).map (Via.conv f) :=
  Res.bind_same _ fun i => maybe_same i fun _ i => maybe_same i fun _ i => eat_conv h.at_ i fun _ i =>
    eat_conv (h.fltIn _) i fun _ i => maybe_conv (h.fltIn _) i fun _ i => eat_same i fun _ i => maybe_same i fun _ _ =>
    close_conv _ _ _ (by simp only [Via.conv, h.getD_zero])

theorem layoutStep (l : Layout C) (e : Sexp) : (l.conv f).step e = (l.step e).map (Layout.conv f) := by
  refine Res.bind_same _ fun n => ?_
  dsimp only
  have hp : ∀ {α α' : Type} {x' : Res α'} {x : Res α} {j : α → α'} (_ : x' = x.map j) (k : α → Elem C) (k' : α' → Elem F),
      (∀ a, k' (j a) = (k a).conv f) →
      (do let v ← x'; Res.ok { l.conv f with elements := (l.conv f).elements ++ [k' v] } : Res (Layout F)) =
        (do let v ← x; Res.ok { l with elements := l.elements ++ [k v] } : Res (Layout C)).map (Layout.conv f) :=
    fun hx k k' hk => Res.bind_conv hx fun a => by
      simp only [Res.map, Layout.conv, List.map_append, List.map_cons, List.map_nil, hk]
  exact Res.ite_conv (Res.bind_same _ fun _ => rfl) <| Res.ite_conv (Res.bind_same _ fun _ => rfl) <|
    Res.ite_conv (Res.bind_conv (h.general e) fun _ => rfl) <| Res.ite_conv (Res.bind_same _ fun _ => rfl) <|
    Res.ite_conv (Res.bind_same _ fun _ => rfl) <| Res.ite_conv (hp (h.module_ e) _ _ fun _ => rfl) <|
    Res.ite_conv (hp (Res.map_id' _).symm _ _ fun _ => rfl) <| Res.ite_conv (hp (h.netClass e) _ _ fun _ => rfl) <|
    Res.ite_conv (hp (h.grText e) _ _ fun _ => rfl) <| Res.ite_conv (hp (h.grLine e) _ _ fun _ => rfl) <|
    Res.ite_conv (hp (h.grArc e) _ _ fun _ => rfl) <| Res.ite_conv (hp (h.grCircle e) _ _ fun _ => rfl) <|
    Res.ite_conv (hp (h.dimension e) _ _ fun _ => rfl) <| Res.ite_conv (hp (h.zone e) _ _ fun _ => rfl) <|
    Res.ite_conv (hp (h.segment e) _ _ fun _ => rfl) <| Res.ite_conv (hp (h.via e) _ _ fun _ => rfl) <|
    Res.ite_conv (Res.bind_same _ fun _ => rfl) (by
      simp only [Res.map, Layout.conv, List.map_append, List.map_cons, List.map_nil, Elem.conv])

theorem layoutFill (r : List Sexp) (l : Layout C) : Layout.fill (l.conv f) r = (Layout.fill l r).map (Layout.conv f) := by
  induction r generalizing l with
  | nil => rfl
  | cons e r ih => exact Res.bind_conv (h.layoutStep l e) fun _ => ih _

/-- Reading a layout. -/
theorem layout (s : Str) : (Lay.parse s : Res (Layout F)) = (Lay.parse s : Res (Layout C)).map (Layout.conv f) := by
  refine Res.bind_same _ fun t => Res.bind_same _ fun i => ?_
  rw [← h.layoutFill]
  congr 1
  simp [Layout.dflt, Layout.conv, General.dflt, General.conv, Area.conv, h.lit, h.zero_eq]

end ReadsAs

/-! ## Schematics -/

namespace ReadsAs
open Sch
variable {C F : Type} [Flt C] [Flt F] {f : C → F} (h : ReadsAs f)
include h

theorem f64R (s : Str) : (Sch.f64R s : Res F) = (Sch.f64R s : Res C).map f := by
  simp only [Sch.f64R, h.text s]; cases (ofStr s : Option C) <;> rfl

theorem schField (v : List Str) : (Field.new v : Res (Field F)) = (Field.new v : Res (Field C)).map (Field.conv f) := by
  refine Res.ite_conv rfl ?_
  dsimp only
  repeat' first
    | refine Res.ite_conv ?_ ?_
    | refine Res.bind_same _ fun _ => ?_
    | refine Res.bind_conv (h.f64R _) fun _ => ?_
    | rfl

omit h [Flt C] [Flt F] in
theorem schL (s : Str) (d : Component C) : parseComponentL s (d.conv f) = (parseComponentL s d).map (Component.conv f) :=
  Res.bind_same _ fun _ => Res.bind_same _ fun _ => Res.bind_same _ fun _ => rfl

omit h [Flt C] [Flt F] in
theorem schP (s : Str) (d : Component C) : parseComponentP s (d.conv f) = (parseComponentP s d).map (Component.conv f) :=
  Res.bind_same _ fun _ => Res.bind_same _ fun _ => Res.bind_same _ fun _ => Res.bind_same _ fun _ =>
    Res.bind_same _ fun _ => rfl

theorem schF (s : Str) (d : Component C) :
    parseComponentF s (d.conv f) = (parseComponentF s d).map (Component.conv f) := by
  refine Res.bind_same _ fun v => Res.bind_conv (h.schField v) fun x => ?_
  simp only [Res.map, Component.conv, List.map_append, List.map_cons, List.map_nil]

theorem schComponent (n : Nat) : ∀ (p : List Str) (_ : p.length ≤ n) (d : Component C), parseComponentLoop (d.conv f) p =
    (parseComponentLoop d p).map (fun x => (x.1.conv f, x.2)) := by
  induction n with
  | zero =>
    intro p hp d
    cases p with
    | nil => rfl
    | cons _ _ => simp at hp
  | succ n ih =>
    intro p hp d
    cases p with
    | nil => rfl
    | cons s rest =>
      have hr : rest.length ≤ n := by simpa using hp
      unfold parseComponentLoop
      refine Res.ite_conv rfl ?_
      dsimp only
      refine Res.ite_conv (Res.bind_conv (schL s d) fun d => ih _ hr d) ?_
      refine Res.ite_conv (ih _ hr { d with u := s }) ?_
      refine Res.ite_conv (Res.bind_conv (schP s d) fun d => ih _ hr d) ?_
      refine Res.ite_conv (Res.bind_conv (h.schF s d) fun d => ih _ hr d) ?_
      refine Res.ite_conv ?_ (Res.ite_conv (ih _ hr { d with arPath := d.arPath ++ [s] }) (ih _ hr d))
      cases rest with
      | nil => rfl
      | cons s2 rest2 =>
        exact Res.bind_same _ fun r => ih rest2 (by simp at hr; omega) { d with rotation := r }

theorem schItem (sch : Schematic C) (p : List Str) :
    parseItem (sch.conv f) p = (parseItem sch p).map (fun x => (x.1.conv f, x.2)) := by
  refine Res.bind_same _ fun s => ?_
  cases firstWord s with
  | none => rfl
  | some w =>
    have he : ∀ (x : Element C) (x' : Element F), x' = x.conv f →
        ({ sch.conv f with elements := (sch.conv f).elements ++ [x'] } : Schematic F) =
          ({ sch with elements := sch.elements ++ [x] } : Schematic C).conv f := by
      rintro x _ rfl
      simp only [Schematic.conv, List.map_append, List.map_cons, List.map_nil]
    dsimp only
    refine Res.ite_conv (Res.bind_same _ fun _ => rfl) ?_
    refine Res.ite_conv (Res.bind_conv (h.schComponent _ _ (Nat.le_refl _) .dflt) fun x => ?_) ?_
    · exact congrArg (fun y => Res.ok (y, x.2)) (he (.component x.1) _ rfl)
    refine Res.ite_conv (Res.bind_same _ fun _ => rfl) ?_
    refine Res.ite_conv rfl ?_
    refine Res.ite_conv (Res.bind_same _ fun x => congrArg (fun y => Res.ok (y, x.2)) (he (.wire x.1) _ rfl)) ?_
    refine Res.ite_conv (Res.bind_same _ fun x => congrArg (fun y => Res.ok (y, p)) (he (.connection x) _ rfl)) ?_
    refine Res.ite_conv (Res.bind_same _ fun x => congrArg (fun y => Res.ok (y, p)) (he (.noConnect x) _ rfl)) ?_
    refine Res.ite_conv (Res.bind_same _ fun x => congrArg (fun y => Res.ok (y, x.2)) (he (.text x.1) _ rfl)) ?_
    exact congrArg (fun y => Res.ok (y, p)) (he (.other s) _ rfl)

theorem schItems (n : Nat) (sch : Schematic C) (p : List Str) :
    parseItems n (sch.conv f) p = (parseItems n sch p).map (Schematic.conv f) := by
  induction n generalizing sch p with
  | zero => cases p <;> rfl
  | succ n ih =>
    cases p with
    | nil => rfl
    | cons l r => exact Res.bind_conv (h.schItem sch (l :: r)) fun x => ih x.1 _

omit h [Flt C] [Flt F] in
theorem schLibs (p : List Str) (sch : Schematic C) :
    parseLibs (sch.conv f) p = ((parseLibs sch p).1.conv f, (parseLibs sch p).2) := by
  induction p generalizing sch with
  | nil => rfl
  | cons l r ih =>
    unfold parseLibs
    split
    · exact ih { sch with libraries := sch.libraries ++ [l.drop 5] }
    · rfl

/-- Reading a schematic. -/
theorem schematic (name : Option Str) (s : Str) :
    (Sch.parse name s : Res (Schematic F)) = (Sch.parse name s : Res (Schematic C)).map (Schematic.conv f) := by
  refine Res.bind_same _ fun p => ?_
  have hd : ({ Schematic.dflt with filename := name } : Schematic F) =
      ({ Schematic.dflt with filename := name } : Schematic C).conv f := rfl
  rw [hd, schLibs]
  dsimp only
  exact Res.bind_same _ fun s => Res.ite_conv rfl (Res.bind_same _ fun p => h.schItems _ { (_ : Schematic C) with eelayer := s } _)

end ReadsAs

/-! ## Symbol libraries -/

namespace ReadsAs
open Lib
variable {C F : Type} [Flt C] [Flt F] {f : C → F} (h : ReadsAs f)
include h

theorem libField (l : Str) : (parseField l : Res (Field F)) = (parseField l : Res (Field C)).map (Field.conv f) := by
  refine Res.bind_same _ fun v => ?_
  dsimp only
  repeat' first
    | refine Res.ite_conv ?_ ?_
    | refine Res.bind_same _ fun _ => ?_
    | refine Res.bind_conv (h.f64R _) fun _ => ?_
    | rfl

theorem libFields (p : List Str) (acc : List (Field C)) : parseFields (acc.map (Field.conv f)) p =
    (parseFields acc p).map (fun x => (x.1.map (Field.conv f), x.2)) := by
  induction p generalizing acc with
  | nil => rfl
  | cons s r ih =>
    refine Res.bind_same _ fun c => Res.ite_conv (Res.bind_conv (h.libField s) fun x => ?_) rfl
    rw [← ih, List.map_append]; rfl

theorem libDef (l : Str) : (parseDef l : Res (Symbol F)) = (parseDef l : Res (Symbol C)).map (Symbol.conv f) := by
  refine Res.bind_same _ fun v => ?_
  dsimp only
  repeat' first
    | refine Res.ite_conv ?_ ?_
    | refine Res.bind_same _ fun _ => ?_
    | refine Res.bind_conv (h.f64R _) fun _ => ?_
    | rfl

theorem libSymbol (p : List Str) : (parseSymbol p : Res (Symbol F × List Str)) =
    (parseSymbol p : Res (Symbol C × List Str)).map (fun x => (x.1.conv f, x.2)) :=
  Res.bind_same _ fun _ => Res.bind_same _ fun l => Res.bind_conv (h.libDef l) fun _ =>
    Res.bind_conv (h.libFields _ []) fun _ => Res.bind_same _ fun _ => Res.bind_same _ fun _ => Res.bind_same _ fun _ =>
    Res.bind_same _ fun _ => Res.bind_same _ fun _ => Res.bind_same _ fun _ => rfl

theorem libSymbols (n : Nat) (acc : List (Symbol C)) (p : List Str) :
    parseSymbols n (acc.map (Symbol.conv f)) p = (parseSymbols n acc p).map (List.map (Symbol.conv f)) := by
  induction n generalizing acc p with
  | zero => cases p <;> rfl
  | succ n ih =>
    cases p with
    | nil => rfl
    | cons l r =>
      refine Res.ite_conv rfl (Res.bind_conv (h.libSymbol (l :: r)) fun x => ?_)
      rw [← ih, List.map_append]; rfl

/-- Reading a symbol library. -/
theorem symbolLib (s : Str) :
    (Lib.parseStr s : Res (SymbolLib F)) = (Lib.parseStr s : Res (SymbolLib C)).map (SymbolLib.conv f) :=
  Res.bind_same _ fun _ => Res.bind_same _ fun _ => Res.bind_same _ fun p =>
    Res.bind_conv (h.libSymbols _ [] p) fun _ => rfl

end ReadsAs

end Verif
