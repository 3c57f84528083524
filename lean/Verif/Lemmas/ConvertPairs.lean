import Verif.Spec.Convert
import Mathlib.Tactic.CasesM
/-!
# Boards with corresponding numbers

If two boards are the same after replacing the numbers of each, then they correspond number by number.
-/

namespace Verif
variable {A B D E : Type} {f : A → D} {g : B → D} {f' : A → E} {g' : B → E}

theorem map_pairs {X Y Z W : Type} {u : X → Z} {v : Y → Z} {u' : X → W} {v' : Y → W}
    (K : ∀ a b, u a = v b → u' a = v' b) : ∀ {l : List X} {l' : List Y}, l.map u = l'.map v → l.map u' = l'.map v'
  | [], [], _ => rfl
  | [], _ :: _, h => nomatch h
  | _ :: _, [], h => nomatch h
  | a :: l, b :: l', h => by
    simp only [List.map_cons, List.cons.injEq] at h ⊢
    exact ⟨K _ _ h.1, map_pairs K h.2⟩

theorem option_pairs {X Y Z W : Type} {u : X → Z} {v : Y → Z} {u' : X → W} {v' : Y → W}
    (K : ∀ a b, u a = v b → u' a = v' b) : ∀ {l : Option X} {l' : Option Y}, l.map u = l'.map v → l.map u' = l'.map v'
  | none, none, _ => rfl
  | none, some _, h => nomatch h
  | some _, none, h => nomatch h
  | some a, some b, h => by
    simp only [Option.map_some, Option.some.injEq] at h ⊢
    exact K _ _ h

variable (H : ∀ a b, f a = g b → f' a = g' b)
include H

namespace Fp

theorem Xy.pairs {x : Xy A} {y : Xy B} (h : x.conv f = y.conv g) : x.conv f' = y.conv g' := by
  simp only [Xy.conv, Xy.mk.injEq] at h ⊢
  exact ⟨H _ _ h.1, H _ _ h.2.1, h.2.2⟩

theorem At.pairs {x : At A} {y : At B} (h : x.conv f = y.conv g) : x.conv f' = y.conv g' := by
  simp only [At.conv, At.mk.injEq] at h ⊢
  exact ⟨H _ _ h.1, H _ _ h.2.1, H _ _ h.2.2⟩

theorem Xyz.pairs {x : Xyz A} {y : Xyz B} (h : x.conv f = y.conv g) : x.conv f' = y.conv g' := by
  simp only [Xyz.conv, Xyz.mk.injEq] at h ⊢
  exact ⟨H _ _ h.1, H _ _ h.2.1, H _ _ h.2.2⟩

theorem Font.pairs {x : Font A} {y : Font B} (h : x.conv f = y.conv g) : x.conv f' = y.conv g' := by
  simp only [Font.conv, Font.mk.injEq] at h ⊢
  exact ⟨Xy.pairs H h.1, H _ _ h.2.1, h.2.2⟩

theorem Effects.pairs {x : Effects A} {y : Effects B} (h : x.conv f = y.conv g) : x.conv f' = y.conv g' := by
  simp only [Effects.conv, Effects.mk.injEq] at h ⊢
  exact ⟨Font.pairs H h.1, h.2⟩

theorem Drill.pairs {x : Drill A} {y : Drill B} (h : x.conv f = y.conv g) : x.conv f' = y.conv g' := by
  simp only [Drill.conv, Drill.mk.injEq] at h ⊢
  exact ⟨h.1, H _ _ h.2.1, H _ _ h.2.2.1, H _ _ h.2.2.2.1, H _ _ h.2.2.2.2⟩

theorem FpText.pairs {x : FpText A} {y : FpText B} (h : x.conv f = y.conv g) : x.conv f' = y.conv g' := by
  simp only [FpText.conv, FpText.mk.injEq] at h ⊢
  casesm* _ ∧ _
  constructorm* _ ∧ _ <;> first | assumption | (apply At.pairs H; assumption) | (apply Effects.pairs H; assumption)

theorem Pad.pairs {x : Pad A} {y : Pad B} (h : x.conv f = y.conv g) : x.conv f' = y.conv g' := by
  simp only [Pad.conv, Pad.mk.injEq] at h ⊢
  casesm* _ ∧ _
  constructorm* _ ∧ _ <;> first
    | assumption
    | (apply At.pairs H; assumption)
    | (apply Xy.pairs H; assumption)
    | (apply option_pairs H; assumption)
    | (apply option_pairs (fun _ _ => Xy.pairs H); assumption)
    | (apply option_pairs (fun _ _ => Drill.pairs H); assumption)

theorem FpPoly.pairs {x : FpPoly A} {y : FpPoly B} (h : x.conv f = y.conv g) : x.conv f' = y.conv g' := by
  simp only [FpPoly.conv, FpPoly.mk.injEq] at h ⊢
  exact ⟨map_pairs (fun _ _ => Xy.pairs H) h.1, H _ _ h.2.1, h.2.2⟩

theorem FpLine.pairs {x : FpLine A} {y : FpLine B} (h : x.conv f = y.conv g) : x.conv f' = y.conv g' := by
  simp only [FpLine.conv, FpLine.mk.injEq] at h ⊢
  exact ⟨Xy.pairs H h.1, Xy.pairs H h.2.1, h.2.2.1, H _ _ h.2.2.2⟩

theorem FpCircle.pairs {x : FpCircle A} {y : FpCircle B} (h : x.conv f = y.conv g) : x.conv f' = y.conv g' := by
  simp only [FpCircle.conv, FpCircle.mk.injEq] at h ⊢
  exact ⟨Xy.pairs H h.1, Xy.pairs H h.2.1, h.2.2.1, H _ _ h.2.2.2⟩

theorem FpArc.pairs {x : FpArc A} {y : FpArc B} (h : x.conv f = y.conv g) : x.conv f' = y.conv g' := by
  simp only [FpArc.conv, FpArc.mk.injEq] at h ⊢
  exact ⟨Xy.pairs H h.1, Xy.pairs H h.2.1, H _ _ h.2.2.1, h.2.2.2.1, H _ _ h.2.2.2.2⟩

theorem Model.pairs {x : Model A} {y : Model B} (h : x.conv f = y.conv g) : x.conv f' = y.conv g' := by
  simp only [Model.conv, Model.mk.injEq] at h ⊢
  exact ⟨h.1, Xyz.pairs H h.2.1, Xyz.pairs H h.2.2.1, Xyz.pairs H h.2.2.2⟩

theorem Elem.pairs {x : Elem A} {y : Elem B} (h : x.conv f = y.conv g) : x.conv f' = y.conv g' := by
  cases x <;> cases y <;> first | (simp only [Elem.conv, reduceCtorEq] at h; done) | skip
  case locked.locked => rfl
  all_goals simp only [Elem.conv, Elem.solderMaskMargin.injEq, Elem.layer.injEq, Elem.descr.injEq, Elem.tags.injEq,
    Elem.attr.injEq, Elem.text.injEq, Elem.pad.injEq, Elem.poly.injEq, Elem.line.injEq, Elem.circle.injEq, Elem.arc.injEq,
    Elem.tedit.injEq, Elem.tstamp.injEq, Elem.path.injEq, Elem.at_.injEq, Elem.model.injEq, Elem.clearance.injEq] at h ⊢
  all_goals first
    | exact h
    | exact H _ _ h
    | exact FpText.pairs H h
    | exact Pad.pairs H h
    | exact FpPoly.pairs H h
    | exact FpLine.pairs H h
    | exact FpCircle.pairs H h
    | exact FpArc.pairs H h
    | exact At.pairs H h
    | exact Model.pairs H h

theorem Module.pairs {x : Module A} {y : Module B} (h : x.conv f = y.conv g) : x.conv f' = y.conv g' := by
  simp only [Module.conv, Module.mk.injEq] at h ⊢
  exact ⟨h.1, map_pairs (fun _ _ => Elem.pairs H) h.2⟩

end Fp

namespace Lay

theorem pairsPts {x : List (Fp.Xy A)} {y : List (Fp.Xy B)} (h : convPts f x = convPts g y) : convPts f' x = convPts g' y :=
  map_pairs (fun _ _ => Fp.Xy.pairs H) h

theorem Hatch.pairs {x : Hatch A} {y : Hatch B} (h : x.conv f = y.conv g) : x.conv f' = y.conv g' := by
  simp only [Hatch.conv, Hatch.mk.injEq] at h ⊢
  exact ⟨h.1, H _ _ h.2⟩

theorem ConnectPads.pairs {x : ConnectPads A} {y : ConnectPads B} (h : x.conv f = y.conv g) : x.conv f' = y.conv g' := by
  simp only [ConnectPads.conv, ConnectPads.mk.injEq] at h ⊢
  exact ⟨h.1, H _ _ h.2⟩

theorem Fill.pairs {x : Fill A} {y : Fill B} (h : x.conv f = y.conv g) : x.conv f' = y.conv g' := by
  simp only [Fill.conv, Fill.mk.injEq] at h ⊢
  casesm* _ ∧ _
  constructorm* _ ∧ _ <;> first | assumption | (apply H; assumption)

theorem Zone.pairs {x : Zone A} {y : Zone B} (h : x.conv f = y.conv g) : x.conv f' = y.conv g' := by
  simp only [Zone.conv, Zone.mk.injEq] at h ⊢
  casesm* _ ∧ _
  constructorm* _ ∧ _ <;> first
    | assumption
    | (apply H; assumption)
    | (apply Hatch.pairs H; assumption)
    | (apply ConnectPads.pairs H; assumption)
    | (apply Fill.pairs H; assumption)
    | (apply map_pairs (fun _ _ => pairsPts H); assumption)
    | (apply option_pairs (fun _ _ => pairsPts H); assumption)

theorem Area.pairs {x : Area A} {y : Area B} (h : x.conv f = y.conv g) : x.conv f' = y.conv g' := by
  simp only [Area.conv, Area.mk.injEq] at h ⊢
  exact ⟨H _ _ h.1, H _ _ h.2.1, H _ _ h.2.2.1, H _ _ h.2.2.2⟩

theorem General.pairs {x : General A} {y : General B} (h : x.conv f = y.conv g) : x.conv f' = y.conv g' := by
  simp only [General.conv, General.mk.injEq] at h ⊢
  casesm* _ ∧ _
  constructorm* _ ∧ _ <;> first | assumption | (apply H; assumption) | (apply Area.pairs H; assumption)

theorem NetClass.pairs {x : NetClass A} {y : NetClass B} (h : x.conv f = y.conv g) : x.conv f' = y.conv g' := by
  simp only [NetClass.conv, NetClass.mk.injEq] at h ⊢
  casesm* _ ∧ _
  constructorm* _ ∧ _ <;> first | assumption | (apply H; assumption) | (apply option_pairs H; assumption)

theorem GrText.pairs {x : GrText A} {y : GrText B} (h : x.conv f = y.conv g) : x.conv f' = y.conv g' := by
  simp only [GrText.conv, GrText.mk.injEq] at h ⊢
  exact ⟨h.1, Fp.At.pairs H h.2.1, h.2.2.1, Fp.Effects.pairs H h.2.2.2.1, h.2.2.2.2⟩

theorem Elem.pairs {x : Elem A} {y : Elem B} (h : x.conv f = y.conv g) : x.conv f' = y.conv g' := by
  cases x <;> cases y <;> first | (simp only [Elem.conv, reduceCtorEq] at h; done) | skip
  all_goals simp only [Elem.conv, Elem.module_.injEq, Elem.net.injEq, Elem.netClass.injEq, Elem.grText.injEq, Elem.grLine.injEq,
    Elem.grArc.injEq, Elem.grCircle.injEq, Elem.dimension.injEq, Elem.segment.injEq, Elem.via.injEq, Elem.zone.injEq,
    Elem.other.injEq] at h ⊢
  case module_.module_ => exact Fp.Module.pairs H h
  case net.net => exact h
  case netClass.netClass => exact NetClass.pairs H h
  case grText.grText => exact GrText.pairs H h
  case zone.zone => exact Zone.pairs H h
  case other.other => exact h
  all_goals
    simp only [GrLine.conv, GrLine.mk.injEq, GrArc.conv, GrArc.mk.injEq, GrCircle.conv, GrCircle.mk.injEq, Dimension.conv,
      Dimension.mk.injEq, Segment.conv, Segment.mk.injEq, Via.conv, Via.mk.injEq] at h ⊢
    casesm* _ ∧ _
    constructorm* _ ∧ _ <;> first
      | assumption
      | (apply H; assumption)
      | (apply Fp.Xy.pairs H; assumption)
      | (apply Fp.At.pairs H; assumption)
      | (apply pairsPts H; assumption)
      | (apply GrText.pairs H; assumption)

/-- Boards that are the same after replacing numbers correspond number by number. -/
theorem Layout.pairs {x : Layout A} {y : Layout B} (h : x.conv f = y.conv g) : x.conv f' = y.conv g' := by
  simp only [Layout.conv, Layout.mk.injEq] at h ⊢
  casesm* _ ∧ _
  constructorm* _ ∧ _ <;> first
    | assumption
    | (apply General.pairs H; assumption)
    | (apply map_pairs (fun _ _ => Elem.pairs H); assumption)

end Lay

end Verif
