import Verif.Spec.Session
import Verif.Props.C60
import Verif.Props.C61
import Verif.Props.C87
import Verif.Props.C110
/-!
# C113: saving along the way makes no difference

C59 and C60 say so for footprints and boards that can be saved exactly.  Here it is said for
whatever was read from a file and can be saved at all: the file at the end is the same, character
for character, however often the file was saved and read on the way.
-/

namespace Verif
open Flt Spec

namespace Spec

variable {F : Type} [Flt F]

theorem settleFont_good (f : Fp.Font F) (h : GoodFont f) : settleFont f = f := by
  obtain ⟨_, h⟩ := h
  unfold settleFont
  split
  · rfl
  · rename_i hn
    rw [not_or] at hn
    obtain ⟨h1, h2⟩ := (h.resolve_left hn.1).resolve_left hn.2
    obtain ⟨⟨x, y, t⟩, th, it⟩ := f
    dsimp only at h1 h2
    rw [h1, h2]

theorem settleDrill_good (d : Fp.Drill F) (h : GoodDrill d) : settleDrill d = d := by
  obtain ⟨_, hw, h⟩ := h
  unfold settleDrill
  rw [if_pos hw]
  split
  · rfl
  · rename_i hn
    have := h.resolve_right hn
    obtain ⟨s, w, hh, ox, oy⟩ := d
    dsimp only at this
    rw [this]

theorem settleElem_good (e : Fp.Elem F) (h : GoodElem e) : settleElem e = e := by
  cases e with
  | text t => simp only [settleElem, settleFont_good _ h.2]
  | pad p =>
    have : p.drill.map settleDrill = p.drill := by
      cases hd : p.drill with
      | none => rfl
      | some d => rw [Option.map_some, settleDrill_good d (h.2.2.2.2.2 d hd)]
    simp only [settleElem, this]
  | _ => rfl

theorem settle_good (m : Fp.Module F) (h : ∀ e ∈ m.elements, GoodElem e) : settle m = m := by
  have : m.elements.map settleElem = m.elements := by
    conv_rhs => rw [← List.map_id m.elements]
    exact List.map_congr_left fun e he => settleElem_good e (h e he)
  rw [settle, this]

theorem settleBoardElem_good (e : Lay.Elem F) (h : GoodBoardElem e) : settleBoardElem e = e := by
  cases e with
  | module_ m => simp only [settleBoardElem, settle_good m h]
  | grText t => simp only [settleBoardElem, settleText, settleFont_good _ h.2]
  | dimension d => simp only [settleBoardElem, settleText, settleFont_good _ h.2.2]
  | _ => rfl

theorem strings_settle (e : Fp.Elem F) : strings (settleElem e) = strings e := by
  cases e <;> rfl

theorem boardStrings_settle (e : Lay.Elem F) : boardStrings (settleBoardElem e) = boardStrings e := by
  cases e with
  | module_ m =>
    simp only [settleBoardElem, settle, boardStrings, List.flatMap_map, strings_settle]
  | _ => rfl

theorem boardTrees_settle (e : Lay.Elem F) : boardTrees (settleBoardElem e) = boardTrees e := by
  cases e <;> rfl

/-! ## Edits of a footprint -/

theorem settle_map (f : Fp.Elem F → Fp.Elem F) (hf : ∀ e, settleElem (f e) = f (settleElem e))
    (es : List (Fp.Elem F)) : (es.map settleElem).map f = (es.map f).map settleElem := by
  rw [List.map_map, List.map_map]
  exact List.map_congr_left fun e _ => (hf e).symm

theorem settle_flip (e : Fp.Elem F) : settleElem e.flip = (settleElem e).flip := by
  cases e <;> rfl

theorem settle_rotate (r : F) (e : Fp.Elem F) : settleElem (e.rotate r) = (settleElem e).rotate r := by
  cases e <;> rfl

theorem settle_adjust (x y : F) (e : Fp.Elem F) :
    settleElem (Fp.Module.adjustElem x y e) = Fp.Module.adjustElem x y (settleElem e) := by
  cases e <;> rfl

theorem settle_setReference (a b : Str) (e : Fp.Elem F) :
    settleElem (Fp.Module.setReferenceElem a b e) = Fp.Module.setReferenceElem a b (settleElem e) := by
  cases e with
  | text t =>
    simp only [Fp.Module.setReferenceElem, settleElem]
    split_ifs <;> rfl
  | _ => rfl

theorem settle_renameNet (a b : Str) (e : Fp.Elem F) :
    settleElem (Fp.Module.renameNetElem a b e) = Fp.Module.renameNetElem a b (settleElem e) := by
  cases e <;> rfl

theorem settle_fixText (cfg : Config F) (hc : lt zero cfg.fontSize = true) (v : Str) (l : Fp.LayerType)
    (t : Fp.FpText F) :
    settleElem (.text (Fp.fixText cfg v l t)) = .text (Fp.fixText cfg v l t) ∧
    (match settleElem (.text t) with
      | .text t' => Fp.fixText cfg v l t' = Fp.fixText cfg v l t ∧ t'.name = t.name
      | _ => False) := by
  constructor
  · simp only [settleElem, Fp.fixText, settleFont, hc, true_or, if_true]
  · refine ⟨?_, rfl⟩
    simp only [Fp.fixText, settleFont]
    split_ifs <;> rfl

theorem settle_modText (cfg : Config F) (hc : lt zero cfg.fontSize = true) (w v : Str) (l : Fp.LayerType)
    (es : List (Fp.Elem F)) :
    Fp.Module.modText w (Fp.fixText cfg v l) (es.map settleElem) =
      (Fp.Module.modText w (Fp.fixText cfg v l) es).map settleElem := by
  induction es with
  | nil => rfl
  | cons e es ih =>
    cases e with
    | text t =>
      obtain ⟨h1, h2⟩ := settle_fixText cfg hc v l t
      obtain ⟨t', ht'⟩ : ∃ t', settleElem (.text t) = .text t' := ⟨_, rfl⟩
      rw [ht'] at h2
      dsimp only at h2
      simp only [List.map_cons, ht', Fp.Module.modText, h2.2]
      split
      · rw [List.map_cons, h1, h2.1]
      · rw [List.map_cons, ht', ih]
    | _ =>
      simp only [List.map_cons, settleElem, Fp.Module.modText, ih]

theorem settle_getText (m : Fp.Module F) (w : Str) :
    ((settle m).getText w).isNone = (m.getText w).isNone := by
  obtain ⟨n, es⟩ := m
  simp only [settle, Fp.Module.getText]
  induction es with
  | nil => rfl
  | cons e es ih =>
    cases e with
    | text t =>
      simp only [List.map_cons, settleElem, List.findSome?_cons]
      split_ifs
      · rfl
      · exact ih
    | _ => simpa only [List.map_cons, settleElem, List.findSome?_cons] using ih

theorem settle_firstAt (es : List (Fp.Elem F)) :
    Fp.Module.firstAt (es.map settleElem) = Fp.Module.firstAt es := by
  induction es with
  | nil => rfl
  | cons e es ih =>
    cases e <;> first | rfl | exact ih

theorem settle_bound (m : Fp.Module F) : (settle m).bound = m.bound := by
  obtain ⟨n, es⟩ := m
  simp only [Fp.Module.bound, Fp.Module.at_, settle, settle_firstAt, List.foldl_map]
  have : ∀ (x y : F), (fun b e => Fp.Module.boundStep x y b (settleElem e)) = Fp.Module.boundStep x y := by
    intro x y
    funext b e
    cases e <;> rfl
  simp only [this]

theorem settle_lines (m : Fp.Module F) : (settle m).lines = m.lines := by
  simp only [settle, Fp.Module.lines, List.filterMap_map]
  congr 1
  funext e
  cases e <;> rfl

theorem settle_padTypes (m : Fp.Module F) (t : Fp.PadType) :
    ((settle m).pads.filter fun p => p.t = t).length = (m.pads.filter fun p => p.t = t).length := by
  obtain ⟨n, es⟩ := m
  simp only [settle, Fp.Module.pads]
  induction es with
  | nil => rfl
  | cons e es ih =>
    cases e with
    | pad p =>
      simp only [List.map_cons, settleElem, List.filterMap_cons, List.filter_cons]
      split
      · simp only [List.length_cons, ih]
      · exact ih
    | _ => simpa only [List.map_cons, settleElem, List.filterMap_cons] using ih

theorem settle_hasSmdAttr (m : Fp.Module F) : (settle m).hasSmdAttr = m.hasSmdAttr := by
  simp only [settle, Fp.Module.hasSmdAttr, List.any_map]
  congr 1
  funext e
  cases e <;> rfl

theorem settle_append (m : Fp.Module F) (es : List (Fp.Elem F)) (h : ∀ e ∈ es, settleElem e = e) :
    ({ settle m with elements := (settle m).elements ++ es } : Fp.Module F) =
      settle { m with elements := m.elements ++ es } := by
  have : es.map settleElem = es := by
    conv_rhs => rw [← List.map_id es]
    exact List.map_congr_left h
  simp only [settle, List.map_append, this]

theorem settle_fixTexts (cfg : Config F) (hc : lt zero cfg.fontSize = true) (m : Fp.Module F) :
    Fp.fixTexts cfg (settle m) = settle (Fp.fixTexts cfg m) := by
  obtain ⟨n, es⟩ := m
  simp only [Fp.fixTexts, settle, settle_modText cfg hc]
  have h := settle_getText (⟨n, Fp.Module.modText (str! "value") (Fp.fixText cfg n .fab)
    (Fp.Module.modText (str! "reference") (Fp.fixText cfg (str! "REF**") .silkS) es)⟩ : Fp.Module F) (str! "user")
  simp only [settle] at h
  rw [h]
  split_ifs
  · have hn : settleElem (Fp.Elem.text (Fp.newReference2 cfg)) = Fp.Elem.text (Fp.newReference2 cfg) := by
      simp only [settleElem, Fp.newReference2, settleFont, hc, true_or, if_true]
    have ha : ∀ es : List (Fp.Elem F), es.map settleElem ++ [Fp.Elem.text (Fp.newReference2 cfg)] =
        (es ++ [Fp.Elem.text (Fp.newReference2 cfg)]).map settleElem := by
      intro es
      rw [List.map_append, List.map_cons, List.map_nil, hn]
    rw [ha, settle_modText cfg hc]
  · rw [settle_modText cfg hc]

theorem settle_fixPlacement (m : Fp.Module F) : Fp.fixPlacement (settle m) = settle (Fp.fixPlacement m) := by
  have h1 : Fp.pthCount (settle m) = Fp.pthCount m := settle_padTypes m _
  have h2 : Fp.smdCount (settle m) = Fp.smdCount m := settle_padTypes m _
  by_cases h : Fp.pthCount m = 0 ∧ Fp.smdCount m > 0
  · rw [Fp.fixPlacement, Fp.fixPlacement, if_pos h, if_pos (by rw [h1, h2]; exact h), settle_hasSmdAttr]
    cases m.hasSmdAttr
    · exact settle_append m [_] (by simp [settleElem])
    · rfl
  · rw [Fp.fixPlacement, Fp.fixPlacement, if_neg h, if_neg (by rw [h1, h2]; exact h)]

theorem settle_fixCourtyard (m : Fp.Module F) : Fp.fixCourtyard (settle m) = settle (Fp.fixCourtyard m) := by
  have hl : Fp.courtyardLines (settle m) = Fp.courtyardLines m := by
    have ha : (settle m).at_ = m.at_ := by
      simp only [Fp.Module.at_, settle, settle_firstAt]
    have ho : Fp.courtyardOffset (settle m) = Fp.courtyardOffset m := by
      simp only [Fp.courtyardOffset, settle_bound]
      rfl
    simp only [Fp.courtyardLines, Fp.courtyardBox, settle_bound, ha, ho]
  have h1 : Fp.courtyardCount (settle m) = Fp.courtyardCount m := by
    simp only [Fp.courtyardCount, settle_lines]
  by_cases h : Fp.courtyardCount m < 4
  · rw [Fp.fixCourtyard, Fp.fixCourtyard, if_pos h, if_pos (by rw [h1]; exact h), hl]
    refine settle_append m _ fun e he => ?_
    simp only [Fp.courtyardLines, List.mem_cons, List.not_mem_nil, or_false] at he
    rcases he with rfl | rfl | rfl | rfl <;> rfl
  · rw [Fp.fixCourtyard, Fp.fixCourtyard, if_neg h, if_neg (by rw [h1]; exact h)]

/-- Edits and saving can be exchanged. -/
theorem settle_run (e : FpEdit F) (he : e.Fits) (m : Fp.Module F) : e.run (settle m) = settle (e.run m) := by
  have via : ∀ f : Fp.Elem F → Fp.Elem F, (∀ e, settleElem (f e) = f (settleElem e)) →
      ({ settle m with elements := (settle m).elements.map f } : Fp.Module F) =
        settle { m with elements := m.elements.map f } := by
    intro f hf
    simp only [settle, settle_map f hf]
  cases e with
  | flip => exact via _ settle_flip
  | rotate r => exact via _ (settle_rotate r)
  | move x y => exact via _ (settle_adjust x y)
  | setReference a b => exact via _ (settle_setReference a b)
  | renameNet a b => exact via _ (settle_renameNet a b)
  | append e =>
    exact settle_append m [e] (by simpa using settleElem_good e he.1)
  | fix cfg =>
    simp only [FpEdit.run, Fp.Module.fix, settle_fixTexts cfg he, settle_fixPlacement,
      settle_fixCourtyard]

theorem settle_runFp (es : List (FpEdit F)) (he : ∀ e ∈ es, e.Fits) (m : Fp.Module F) :
    runFp es (settle m) = settle (runFp es m) := by
  induction es generalizing m with
  | nil => rfl
  | cons e es ih =>
    rw [List.forall_mem_cons] at he
    simp only [runFp, List.foldl_cons, settle_run e he.1]
    exact ih he.2 _

theorem reads_good (e : Fp.Elem F) (h : GoodElem e) : ReadsBack e := by
  cases e with
  | pad p => exact ⟨h.2.1, fun d hd => .inl (h.2.2.2.2.2 d hd).2.1⟩
  | tedit i => exact h.1
  | tstamp i => exact h.1
  | _ => trivial

theorem reads_modText (w : Str) (f : Fp.FpText F → Fp.FpText F) (es : List (Fp.Elem F))
    (h : ∀ e ∈ es, ReadsBack e) : ∀ e ∈ Fp.Module.modText w f es, ReadsBack e := by
  induction es with
  | nil => simp [Fp.Module.modText]
  | cons e es ih =>
    rw [List.forall_mem_cons] at h
    cases e with
    | text t =>
      simp only [Fp.Module.modText]
      split_ifs
      · exact List.forall_mem_cons.2 ⟨trivial, h.2⟩
      · exact List.forall_mem_cons.2 ⟨trivial, ih h.2⟩
    | _ => exact List.forall_mem_cons.2 ⟨h.1, ih h.2⟩

theorem reads_run (e : FpEdit F) (he : e.Fits) (m : Fp.Module F) (h : ∀ x ∈ m.elements, ReadsBack x) :
    ∀ x ∈ (e.run m).elements, ReadsBack x := by
  have via : ∀ f : Fp.Elem F → Fp.Elem F, (∀ e, ReadsBack e → ReadsBack (f e)) →
      ∀ x ∈ m.elements.map f, ReadsBack x := by
    intro f hf e he
    obtain ⟨e', h', rfl⟩ := List.mem_map.1 he
    exact hf e' (h e' h')
  cases e with
  | flip => exact via _ fun e h => by cases e <;> exact h
  | rotate r => exact via _ fun e h => by cases e <;> exact h
  | move x y => exact via _ fun e h => by cases e <;> exact h
  | setReference a b =>
    refine via _ fun e h => ?_
    cases e with
    | text t => simp only [Fp.Module.setReferenceElem]; split_ifs <;> trivial
    | _ => exact h
  | renameNet a b => exact via _ fun e h => by cases e <;> exact h
  | append e =>
    intro x hx
    rcases List.mem_append.1 hx with hx | hx
    · exact h x hx
    · rw [List.mem_singleton] at hx; subst hx; exact reads_good _ he.1
  | fix cfg =>
    simp only [FpEdit.run, Fp.fix_eq, List.mem_append]
    rintro x (((hx | hx) | hx) | hx)
    · exact reads_modText _ _ _ (reads_modText _ _ _ (reads_modText _ _ _ h)) x hx
    · simp only [Fp.addedText] at hx
      split at hx
      · rw [List.mem_singleton] at hx; subst hx; trivial
      · simp at hx
    · simp only [Fp.addedAttr] at hx
      split at hx
      · rw [List.mem_singleton] at hx; subst hx; trivial
      · simp at hx
    · simp only [Fp.addedLines, Fp.courtyardLines] at hx
      split at hx
      · simp only [List.mem_cons, List.not_mem_nil, or_false] at hx
        rcases hx with rfl | rfl | rfl | rfl <;> trivial
      · simp at hx

theorem reads_runFp (es : List (FpEdit F)) (he : ∀ e ∈ es, e.Fits) (m : Fp.Module F)
    (h : ∀ x ∈ m.elements, ReadsBack x) : ∀ x ∈ (runFp es m).elements, ReadsBack x := by
  induction es generalizing m with
  | nil => exact h
  | cons e es ih =>
    rw [List.forall_mem_cons] at he
    exact ih he.2 _ (reads_run e he.1 m h)

/-! ## Edits of a board -/

theorem settleBoard_adjust (x y : F) (e : Lay.Elem F) :
    settleBoardElem (e.adjust x y) = (settleBoardElem e).adjust x y := by
  cases e with
  | module_ m =>
    have := settle_run (.move x y) trivial m
    exact congrArg Lay.Elem.module_ this.symm
  | _ => rfl

theorem settleBoard_renamed (a b : Str) (e : Lay.Elem F) :
    settleBoardElem (Lay.renamed a b e) = Lay.renamed a b (settleBoardElem e) := by
  cases e with
  | module_ m =>
    have : (settle m).renameNet a b = settle (m.renameNet a b) := by
      simp only [settle, Fp.Module.renameNet, settle_map _ (settle_renameNet a b)]
    exact congrArg Lay.Elem.module_ this.symm
  | _ => rfl

theorem settle_isReference (m : Fp.Module F) (r : Str) :
    (settle m).isReferenceWithName r = m.isReferenceWithName r := by
  simp only [settle, Fp.Module.isReferenceWithName, List.any_map]
  congr 1
  funext e
  cases e <;> rfl

theorem settle_modifyModuleIn (r : Str) (f : Fp.Module F → Fp.Module F)
    (hf : ∀ m, f (settle m) = settle (f m)) (es : List (Lay.Elem F)) :
    Lay.modifyModuleIn r f (es.map settleBoardElem) =
      (Lay.modifyModuleIn r f es).map (List.map settleBoardElem) := by
  induction es with
  | nil => rfl
  | cons e es ih =>
    have skip : ∀ x : Lay.Elem F, (Lay.modifyModuleIn r f (es.map settleBoardElem)).map (settleBoardElem x :: ·) =
        ((Lay.modifyModuleIn r f es).map (x :: ·)).map (List.map settleBoardElem) := by
      intro x
      rw [ih]
      cases Lay.modifyModuleIn r f es <;> rfl
    cases e with
    | module_ m =>
      have e1 : settleBoardElem (.module_ m) = .module_ (settle m) := rfl
      rw [List.map_cons, e1, Lay.modifyModuleIn, Lay.modifyModuleIn, settle_isReference]
      split_ifs
      · rw [Option.map_some, List.map_cons, hf]; rfl
      · exact skip (.module_ m)
    | _ => exact skip _

theorem settleBoard_map (f : Lay.Elem F → Lay.Elem F)
    (hf : ∀ e, settleBoardElem (f e) = f (settleBoardElem e)) (l : Lay.Layout F) :
    ({ settleBoard l with elements := (settleBoard l).elements.map f } : Lay.Layout F) =
      settleBoard { l with elements := l.elements.map f } := by
  have : (l.elements.map settleBoardElem).map f = (l.elements.map f).map settleBoardElem := by
    rw [List.map_map, List.map_map]
    exact List.map_congr_left fun e _ => (hf e).symm
  simp only [settleBoard, this]

theorem settleBoard_append (l : Lay.Layout F) (e : Lay.Elem F) (h : settleBoardElem e = e) :
    ({ settleBoard l with elements := (settleBoard l).elements ++ [e] } : Lay.Layout F) =
      settleBoard { l with elements := l.elements ++ [e] } := by
  simp only [settleBoard, List.map_append, List.map_cons, List.map_nil, h]

/-- The outcome of an edit, saved. -/
def settledOut : Res (Lay.Layout F) → Res (Lay.Layout F)
  | .ok l => .ok (settleBoard l)
  | .err e => .err e
  | .panic => .panic
  | .diverge => .diverge

theorem settleBoard_run (e : BoardEdit F) (he : e.Fits) (l : Lay.Layout F) :
    e.run (settleBoard l) = settledOut (e.run l) := by
  cases e with
  | move x y => exact congrArg Res.ok (settleBoard_map _ (settleBoard_adjust x y) l)
  | renameNet a b =>
    simp only [BoardEdit.run, Lay.changeNetName_eq, settledOut]
    exact congrArg Res.ok (settleBoard_map _ (settleBoard_renamed a b) l)
  | addNet n name => exact congrArg Res.ok (settleBoard_append l _ rfl)
  | addNetclass nc => exact congrArg Res.ok (settleBoard_append l _ rfl)
  | setSetup n v => rfl
  | append e => exact congrArg Res.ok (settleBoard_append l e (settleBoardElem_good e he.1))
  | editModule r es =>
    have h1 : (settleBoard l).elements = l.elements.map settleBoardElem := rfl
    simp only [BoardEdit.run, Lay.Layout.modifyModule, h1,
      settle_modifyModuleIn r _ (settle_runFp es he)]
    cases Lay.modifyModuleIn r (runFp es) l.elements <;> rfl

theorem readsBoard_good (e : Lay.Elem F) (h : GoodBoardElem e) : ReadsBackBoard e := by
  cases e with
  | module_ m => exact fun e he => reads_good e (h e he)
  | zone z => exact h.2.2.1
  | _ => trivial

theorem readsBoard_run (e : BoardEdit F) (he : e.Fits) (l l' : Lay.Layout F)
    (h : ∀ x ∈ l.elements, ReadsBackBoard x) (hr : e.run l = .ok l') :
    ∀ x ∈ l'.elements, ReadsBackBoard x := by
  have snoc : ∀ e : Lay.Elem F, ReadsBackBoard e → ∀ x ∈ l.elements ++ [e], ReadsBackBoard x := by
    intro e he x hx
    rcases List.mem_append.1 hx with hx | hx
    · exact h x hx
    · rw [List.mem_singleton] at hx; subst hx; exact he
  have via : ∀ f : Lay.Elem F → Lay.Elem F, (∀ e, ReadsBackBoard e → ReadsBackBoard (f e)) →
      ∀ x ∈ l.elements.map f, ReadsBackBoard x := by
    intro f hf e he
    obtain ⟨e', h', rfl⟩ := List.mem_map.1 he
    exact hf e' (h e' h')
  cases e with
  | move x y =>
    cases hr
    refine via _ fun e h => ?_
    cases e with
    | module_ m => exact reads_run (.move x y) trivial m h
    | _ => exact h
  | renameNet a b =>
    simp only [BoardEdit.run, Lay.changeNetName_eq, Res.ok.injEq] at hr
    subst hr
    refine via _ fun e h => ?_
    cases e with
    | module_ m =>
      intro x hx
      obtain ⟨y, hy, rfl⟩ := List.mem_map.1 hx
      have := h y hy
      cases y <;> exact this
    | _ => exact h
  | addNet n name => cases hr; exact snoc _ trivial
  | addNetclass nc => cases hr; exact snoc _ trivial
  | setSetup n v => cases hr; exact h
  | append e => cases hr; exact snoc _ (readsBoard_good e he.1)
  | editModule r es =>
    simp only [BoardEdit.run, Lay.Layout.modifyModule] at hr
    split at hr
    · rename_i es' hes
      cases hr
      intro x hx
      rcases Lay.modifyModuleIn_mem r _ _ _ hes x hx with hx | ⟨m, hm, rfl⟩
      · exact h x hx
      · exact reads_runFp es he m (h _ hm)
    · simp at hr

end Spec

variable {F : Type} [Flt F] [TextLaws F] [ZeroLaws F] [SelfLaws F]

omit [SelfLaws F] in
theorem Spec.settle_savable {t : Str} {m : Fp.Module F} (hr : Fp.parse t = .ok m) (hn : Clean m.name)
    (hs : ∀ e ∈ m.elements, ∀ s ∈ strings e, Clean s) (hb : ∀ e ∈ m.elements, ReadsBack e) :
    GoodModule (settle m) := by
  simp only [Fp.parse, Res.bind_eq_ok] at hr
  obtain ⟨tree, _, hr⟩ := hr
  refine ⟨hn, fun e he => ?_⟩
  obtain ⟨e', he', rfl⟩ := List.mem_map.1 he
  obtain ⟨x, hx⟩ := Fp.Module.elements_of_de hr e' he'
  exact ⟨Fp.Elem.good_settle hx (hb e' he'), by rw [strings_settle]; exact hs e' he'⟩

theorem Spec.fpSession_ends (q : Str → Bool) (hq : QuotesWhenNeeded q) (level : Int)
    (steps : List (Step (FpEdit F))) (hf : ∀ e ∈ editsOf steps, e.Fits) (x y : Fp.Module F)
    (hg : GoodModule (settle y)) (hb : ∀ e ∈ y.elements, ReadsBack e) (hx : x = y ∨ x = settle y) :
    ∃ r, fpSession q level steps x = .ok r ∧
      (r = runFp (editsOf steps) y ∨ r = settle (runFp (editsOf steps) y)) ∧
      ((x = settle y ∨ Step.saveAndRead ∈ steps) → r = settle (runFp (editsOf steps) y)) := by
  induction steps generalizing x y with
  | nil => exact ⟨x, rfl, hx, fun h => h.elim id fun h => by cases h⟩
  | cons s steps ih =>
    cases s with
    | edit e =>
      simp only [editsOf, List.forall_mem_cons] at hf
      have hg' : GoodModule (settle (e.run y)) := by
        rw [← settle_run e hf.1]; exact Fp.run_good e hf.1 _ hg
      obtain ⟨r, h1, h2, h3⟩ := ih hf.2 (e.run x) (e.run y) hg' (reads_run e hf.1 y hb)
        (hx.imp (fun h => by rw [h]) fun h => by rw [h, settle_run e hf.1])
      refine ⟨r, h1, h2, fun h => h3 ?_⟩
      refine h.imp (fun h => by rw [h, settle_run e hf.1]) fun h => ?_
      simpa using h
    | saveAndRead =>
      have ht : Fp.toText q level x = Fp.toText q level (settle y) := by
        rcases hx with rfl | rfl
        · rw [Fp.toText, Fp.toText, Fp.Module.ser_settle x hb]
        · rfl
      have hp := C19_footprint_roundtrip q hq level _ hg [] Sexp.Text.blank_nil
      rw [List.append_nil] at hp
      obtain ⟨r, h1, h2, h3⟩ := ih hf (settle y) y hg hb (.inr rfl)
      refine ⟨r, ?_, h2, fun _ => h3 (.inl rfl)⟩
      simp only [fpSession, ht, hp, Res.bind_ok]
      exact h1

/-- A footprint was read from a file, and saving it gives a file that can be read.  Then any session
of edits, with any number of "save and read again" anywhere in it, succeeds, and the file it ends
with is character for character the one that the edits alone end with. -/
theorem C113_footprint (q : Str → Bool) (hq : QuotesWhenNeeded q) (level : Int) (t : Str)
    (m m' : Fp.Module F) (hr : Fp.parse t = .ok m) (hn : Clean m.name)
    (hs : ∀ e ∈ m.elements, ∀ s ∈ strings e, Clean s)
    (hw : Fp.parse (Fp.toText q level m) = .ok m')
    (steps : List (Step (FpEdit F))) (hf : ∀ e ∈ editsOf steps, e.Fits) :
    ∃ r, fpSession q level steps m = .ok r ∧
      Fp.toText q level r = Fp.toText q level (runFp (editsOf steps) m) ∧
      Fp.parse (Fp.toText q level r) = .ok (settle r) ∧
      (Step.saveAndRead ∈ steps → settle r = r) := by
  have hb := ((C110_footprint q hq level t m m' hr hn hs).1 hw).1
  have hg := settle_savable hr hn hs hb
  obtain ⟨r, h1, h2, h3⟩ := fpSession_ends q hq level steps hf m m hg hb (.inl rfl)
  have hg' : GoodModule (settle (runFp (editsOf steps) m)) := by
    rw [← settle_runFp _ hf]; exact C59_edits_keep_savable _ hf _ hg
  have hb' := reads_runFp _ hf m hb
  have hss : settle (settle (runFp (editsOf steps) m)) = settle (runFp (editsOf steps) m) :=
    settle_good _ fun e he => (hg'.2 e he).1
  have hsr : settle r = settle (runFp (editsOf steps) m) := by
    rcases h2 with h2 | h2
    · rw [h2]
    · rw [h2, hss]
  have hser : (settle (runFp (editsOf steps) m)).ser = (runFp (editsOf steps) m).ser :=
    Fp.Module.ser_settle _ hb'
  have ht : Fp.toText q level r = Fp.toText q level (runFp (editsOf steps) m) := by
    rcases h2 with h2 | h2
    · rw [h2]
    · rw [Fp.toText, Fp.toText, h2, hser]
  refine ⟨r, h1, ht, ?_, fun h => by rw [hsr, ← h3 (.inr h)]⟩
  rw [ht, hsr, Fp.toText, ← hser]
  have hp := C19_footprint_roundtrip q hq level _ hg' [] Sexp.Text.blank_nil
  rwa [List.append_nil] at hp

/-- What can be asked of a footprint is answered after saving as before: its name, position, side,
time stamps, designator, bounding box, drawn lines and kinds of pads. -/
theorem C113_same_answers (q : Str → Bool) (hq : QuotesWhenNeeded q) (level : Int) (t : Str)
    (m r : Fp.Module F) (hr : Fp.parse t = .ok m) (hn : Clean m.name)
    (hs : ∀ e ∈ m.elements, ∀ s ∈ strings e, Clean s)
    (hw : Fp.parse (Fp.toText q level m) = .ok r) :
    r.name = m.name ∧ r.at_ = m.at_ ∧ r.getRotation = m.getRotation ∧ r.isFront = m.isFront ∧
    r.getTstamp = m.getTstamp ∧ r.getTedit = m.getTedit ∧ r.bound = m.bound ∧ r.lines = m.lines ∧
    r.hasSmdAttr = m.hasSmdAttr ∧
    (∀ w, r.isReferenceWithName w = m.isReferenceWithName w) ∧
    (∀ w, (r.getText w).map (·.value) = (m.getText w).map (·.value)) ∧
    r.pads.map (fun p => (p.name, p.t, p.shape, p.at_, p.size)) =
      m.pads.map (fun p => (p.name, p.t, p.shape, p.at_, p.size)) := by
  obtain ⟨hb, rfl⟩ := (C110_footprint q hq level t m r hr hn hs).1 hw
  have one : ∀ {β : Type} (f : Fp.Elem F → Option β), (∀ e, f (settleElem e) = f e) →
      ∀ es : List (Fp.Elem F), (es.map settleElem).findSome? f = es.findSome? f := by
    intro β f hf es
    rw [List.findSome?_map]
    congr 1
    funext e
    exact hf e
  refine ⟨rfl, ?_, ?_, ?_, ?_, ?_, settle_bound m, settle_lines m, settle_hasSmdAttr m,
    settle_isReference m, fun w => ?_, ?_⟩
  · simp only [Fp.Module.at_, settle, settle_firstAt]
  · simp only [Fp.Module.getRotation, settle, settle_firstAt]
  · simp only [Fp.Module.isFront, settle]
    rw [one _ fun e => by cases e <;> rfl]
  · exact one _ (fun e => by cases e <;> rfl) _
  · exact one _ (fun e => by cases e <;> rfl) _
  · obtain ⟨n, es⟩ := m
    simp only [settle, Fp.Module.getText]
    clear hr hn hs hw hb
    induction es with
    | nil => rfl
    | cons e es ih =>
      cases e with
      | text t =>
        simp only [List.map_cons, settleElem, List.findSome?_cons]
        split_ifs
        · rfl
        · exact ih
      | _ => simpa only [List.map_cons, settleElem, List.findSome?_cons] using ih
  · obtain ⟨n, es⟩ := m
    simp only [settle, Fp.Module.pads]
    clear hr hn hs hw hb
    induction es with
    | nil => rfl
    | cons e es ih =>
      cases e with
      | pad p => simp only [List.map_cons, settleElem, List.filterMap_cons, ih]
      | _ => simpa only [List.map_cons, settleElem, List.filterMap_cons] using ih

/-- A size that is not positive is noticed by the check. -/
def Spec.Noticed (cfg : Config F) (x : F) : Prop := lt zero x = false → Fp.differs x cfg.fontSize = true

/-- The two findings about the proportions of letters. -/
def Spec.proportions (name : Str) : List CheckFixData :=
  [.new 7 3 name (str! "reference label font aspect ratio should be 1:1"),
   .new 7 4 name (str! "reference 2 label font aspect ratio should be 1:1")]

/-- What a text is after saving. -/
def Spec.settleFpText (t : Fp.FpText F) : Fp.FpText F :=
  { t with effects := { t.effects with font := settleFont t.effects.font } }

omit [TextLaws F] [ZeroLaws F] [SelfLaws F] in
theorem Spec.settle_getText_eq (m : Fp.Module F) (w : Str) :
    (settle m).getText w = (m.getText w).map settleFpText := by
  obtain ⟨n, es⟩ := m
  simp only [settle, Fp.Module.getText]
  induction es with
  | nil => rfl
  | cons e es ih =>
    cases e with
    | text t =>
      simp only [List.map_cons, settleElem, List.findSome?_cons]
      split_ifs
      · rfl
      · exact ih
    | _ => simpa only [List.map_cons, settleElem, List.findSome?_cons] using ih

omit [Flt F] [TextLaws F] [ZeroLaws F] [SelfLaws F] in
theorem Spec.getText_mem (m : Fp.Module F) (w : Str) (t : Fp.FpText F) (h : m.getText w = some t) :
    Fp.Elem.text t ∈ m.elements := by
  obtain ⟨e, he, h⟩ := List.exists_of_findSome?_eq_some h
  cases e with
  | text t' =>
    dsimp only at h
    split_ifs at h
    cases h
    exact he
  | _ => cases h

omit [TextLaws F] [ZeroLaws F] in
/-- The findings about the letters of a text: only the proportions may be forgotten. -/
theorem Spec.settleFont_findings (cfg : Config F) (h0 : Noticed cfg zero) (f : Fp.Font F)
    (hx : Noticed cfg f.size.x) (hy : Noticed cfg f.size.y) :
    Fp.differs (settleFont f).size.x cfg.fontSize = Fp.differs f.size.x cfg.fontSize ∧
    Fp.differs (settleFont f).size.y cfg.fontSize = Fp.differs f.size.y cfg.fontSize ∧
    (settleFont f).thickness = f.thickness ∧
    (Fp.differs (settleFont f).size.x (settleFont f).size.y = true → Fp.differs f.size.x f.size.y = true) := by
  unfold settleFont
  split
  · exact ⟨rfl, rfl, rfl, id⟩
  · rename_i h
    rw [not_or, Bool.not_eq_true, Bool.not_eq_true] at h
    have hz := h0 SelfLaws.lt_zero
    refine ⟨?_, ?_, rfl, fun hc => ?_⟩
    · dsimp only; rw [hz, hx h.1]
    · dsimp only; rw [hz, hy h.2]
    · dsimp only [Fp.differs] at hc
      rw [SelfLaws.gap_self] at hc
      cases hc

/-- What the style check reports about a footprint after saving is what it reported before, except
that findings about the proportions of letters may be forgotten (of letters that had no size). -/
theorem C113_findings (q : Str → Bool) (hq : QuotesWhenNeeded q) (level : Int) (t : Str)
    (m r : Fp.Module F) (hr : Fp.parse t = .ok m) (hn : Clean m.name)
    (hs : ∀ e ∈ m.elements, ∀ s ∈ strings e, Clean s)
    (hw : Fp.parse (Fp.toText q level m) = .ok r) (cfg : Config F) (h0 : Noticed cfg zero)
    (ht : ∀ t, Fp.Elem.text t ∈ m.elements →
      Noticed cfg t.effects.font.size.x ∧ Noticed cfg t.effects.font.size.y) :
    (r.check cfg).Sublist (m.check cfg) ∧
    ∀ d ∈ m.check cfg, d ∈ r.check cfg ∨ d ∈ proportions m.name := by
  obtain ⟨_, rfl⟩ := (C110_footprint q hq level t m r hr hn hs).1 hw
  clear hr hn hs hw
  have key : ∀ w t', m.getText w = some t' → _ := fun w t' h =>
    settleFont_findings cfg h0 t'.effects.font (ht t' (getText_mem m w t' h)).1 (ht t' (getText_mem m w t' h)).2
  have hc : Fp.courtyardCount (settle m) = Fp.courtyardCount m := by
    simp only [Fp.courtyardCount, settle_lines]
  have hp : Fp.checkPlacement (settle m) = Fp.checkPlacement m := by
    have h1 : Fp.pthCount (settle m) = Fp.pthCount m := settle_padTypes m _
    have h2 : Fp.smdCount (settle m) = Fp.smdCount m := settle_padTypes m _
    simp only [Fp.checkPlacement, h1, h2, settle_hasSmdAttr]
    rfl
  have hname : (settle m).name = m.name := rfl
  have one : ∀ (a b : Bool) (d : CheckFixData), (a = true → b = true) →
      (Fp.when_ a d).Sublist (Fp.when_ b d) ∧ ∀ x ∈ Fp.when_ b d, x ∈ Fp.when_ a d ∨ x = d := by
    intro a b d h
    cases a with
    | true => rw [h rfl]; exact ⟨.refl _, fun x hx => .inl hx⟩
    | false =>
      refine ⟨List.nil_sublist _, fun x hx => ?_⟩
      cases b with
      | true => exact .inr (List.mem_singleton.1 hx)
      | false => cases hx
  have hRef : (Fp.checkReference cfg m.name ((m.getText (str! "reference")).map settleFpText)).Sublist
      (Fp.checkReference cfg m.name (m.getText (str! "reference"))) ∧
      ∀ d ∈ Fp.checkReference cfg m.name (m.getText (str! "reference")),
        d ∈ Fp.checkReference cfg m.name ((m.getText (str! "reference")).map settleFpText) ∨
        d ∈ proportions m.name := by
    cases hg : m.getText (str! "reference") with
    | none => exact ⟨.refl _, fun d hd => .inl hd⟩
    | some t' =>
      obtain ⟨k1, k2, k3, k4⟩ := key _ t' hg
      obtain ⟨o1, o2⟩ := one _ _ (.new 7 3 m.name (str! "reference label font aspect ratio should be 1:1")) k4
      simp only [Option.map_some, Fp.checkReference, settleFpText, k1, k2, k3]
      refine ⟨((((List.Sublist.refl _).append o1).append_right _).append_right _).append_right _, ?_⟩
      intro d hd
      simp only [List.mem_append] at hd ⊢
      rcases hd with (((hd | hd) | hd) | hd) | hd
      · exact .inl (.inl (.inl (.inl (.inl hd))))
      · rcases o2 d hd with h | h
        · exact .inl (.inl (.inl (.inl (.inr h))))
        · exact .inr (by rw [h]; simp [proportions])
      · exact .inl (.inl (.inl (.inr hd)))
      · exact .inl (.inl (.inr hd))
      · exact .inl (.inr hd)
  have hVal : Fp.checkValue cfg m.name ((m.getText (str! "value")).map settleFpText) =
      Fp.checkValue cfg m.name (m.getText (str! "value")) := by
    cases hg : m.getText (str! "value") with
    | none => rfl
    | some t' =>
      obtain ⟨k1, k2, k3, k4⟩ := key _ t' hg
      simp only [Option.map_some, Fp.checkValue, settleFpText, k1, k2, k3]
  have hUsr : (Fp.checkReference2 cfg m.name ((m.getText (str! "user")).map settleFpText)).Sublist
      (Fp.checkReference2 cfg m.name (m.getText (str! "user"))) ∧
      ∀ d ∈ Fp.checkReference2 cfg m.name (m.getText (str! "user")),
        d ∈ Fp.checkReference2 cfg m.name ((m.getText (str! "user")).map settleFpText) ∨
        d ∈ proportions m.name := by
    cases hg : m.getText (str! "user") with
    | none => exact ⟨.refl _, fun d hd => .inl hd⟩
    | some t' =>
      obtain ⟨k1, k2, k3, k4⟩ := key _ t' hg
      obtain ⟨o1, o2⟩ := one _ _ (.new 7 4 m.name (str! "reference 2 label font aspect ratio should be 1:1")) k4
      simp only [Option.map_some, Fp.checkReference2, settleFpText, k1, k2, k3]
      refine ⟨((((List.Sublist.refl _).append o1).append_right _).append_right _).append_right _, ?_⟩
      intro d hd
      simp only [List.mem_append] at hd ⊢
      rcases hd with (((hd | hd) | hd) | hd) | hd
      · exact .inl (.inl (.inl (.inl (.inl hd))))
      · rcases o2 d hd with h | h
        · exact .inl (.inl (.inl (.inl (.inr h))))
        · exact .inr (by rw [h]; simp [proportions])
      · exact .inl (.inl (.inl (.inr hd)))
      · exact .inl (.inl (.inr hd))
      · exact .inl (.inr hd)
  simp only [Fp.Module.check, settle_getText_eq, hname, hc, hp, hVal]
  refine ⟨((((hRef.1.append_right _).append hUsr.1).append_right _).append_right _), ?_⟩
  intro d hd
  simp only [List.mem_append] at hd ⊢
  rcases hd with (((hd | hd) | hd) | hd) | hd
  · exact (hRef.2 d hd).imp_left fun h => .inl (.inl (.inl (.inl h)))
  · exact .inl (.inl (.inl (.inl (.inr hd))))
  · exact (hUsr.2 d hd).imp_left fun h => .inl (.inl (.inr h))
  · exact .inl (.inl (.inr hd))
  · exact .inl (.inr hd)

/-- They are indeed forgotten: a footprint that was read with a finding about proportions and is
saved and read without it. -/
theorem C113_finding_forgotten : ∃ (t : Str) (m r : Fp.Module Nm), Fp.parse t = .ok m ∧
    Fp.parse (Fp.toText Fm.stdQuote 0 m) = .ok r ∧
    (r.check Config.klc).length < (m.check Config.klc).length := by
  let t := str! "(module A (layer F.Cu) (fp_text reference REF** (at 0 0) (layer F.SilkS) (effects (font (size -1 0) (thickness 0.15)))))"
  have : (match (Fp.parse t : Res (Fp.Module Nm)) with
    | .ok m => (match (Fp.parse (Fp.toText Fm.stdQuote 0 m) : Res (Fp.Module Nm)) with
      | .ok r => decide ((r.check Config.klc).length < (m.check Config.klc).length)
      | _ => false)
    | _ => false) = true := by decide +kernel
  refine ⟨t, ?_⟩
  cases h1 : (Fp.parse t : Res (Fp.Module Nm)) with
  | ok m =>
    rw [h1] at this
    dsimp only at this
    cases h2 : (Fp.parse (Fp.toText Fm.stdQuote 0 m) : Res (Fp.Module Nm)) with
    | ok r => rw [h2] at this; exact ⟨m, r, rfl, h2, of_decide_eq_true this⟩
    | _ => rw [h2] at this; cases this
  | _ => rw [h1] at this; cases this

/-! ## Boards -/

/-- A board element that can be saved, as far as the reader is concerned. -/
def Lay.FineRead (e : Lay.Elem F) : Prop :=
  e.good ∧ (∀ s ∈ boardStrings e, Clean s) ∧ ∀ t ∈ boardTrees e, CleanTree t

omit [SelfLaws F] in
theorem Lay.FineRead.of {e : Lay.Elem F} (h : Lay.Fine e) : Lay.FineRead e := ⟨Lay.Elem.good_of h.1, h.2⟩

omit [SelfLaws F] in
theorem Lay.FineRead.adjust (x y : F) {e : Lay.Elem F} (h : Lay.FineRead e) : Lay.FineRead (e.adjust x y) := by
  cases e with
  | zone z => exact h
  | module_ m => exact .of (Lay.fine_adjust x y (e := .module_ m) h)
  | _ => exact h

omit [SelfLaws F] in
theorem Lay.FineRead.renamed (a b : Str) (hb : Clean b) {e : Lay.Elem F} (h : Lay.FineRead e) :
    Lay.FineRead (Lay.renamed a b e) := by
  cases e with
  | zone z =>
    obtain ⟨h1, h2, h3⟩ := h
    refine ⟨h1, ?_, h3⟩
    simp only [boardStrings, Lay.renamed, List.forall_mem_cons] at h2 ⊢
    exact ⟨Lay.clean_rename h2.1 hb, h2.2⟩
  | module_ m => exact .of (Lay.fine_renamed a b hb (e := .module_ m) h)
  | net n => exact .of (Lay.fine_renamed a b hb (e := .net n) h)
  | netClass n => exact .of (Lay.fine_renamed a b hb (e := .netClass n) h)
  | _ => exact h

/-- A board that can be saved, as far as the reader is concerned. -/
def Lay.Sound (l : Lay.Layout F) : Prop :=
  Lay.Ready { l with elements := [] } ∧ ∀ e ∈ l.elements, Lay.FineRead e

omit [SelfLaws F] in
theorem Lay.Sound.roundtrip (q : Str → Bool) (hq : QuotesWhenNeeded q) (level : Int)
    {l : Lay.Layout F} (h : Lay.Sound l) : Lay.parse (Lay.toText q level l) = .ok l := by
  obtain ⟨⟨⟨a1, a2, a3, a4, _⟩, ⟨b1, _⟩⟩, he⟩ := h
  have hc : CleanLayout l := ⟨b1, fun e h => (he e h).2⟩
  have hnl : Blank (str! "\n") := by unfold Blank; decide
  have hsh : ∀ e ∈ l.elements, ∀ m, e = .module_ m → ∀ e ∈ m.elements, ∀ p, e = Fp.Elem.pad p →
      ∀ d, p.drill = some d → d.shape = none ∨ d.shape = some (str! "oval") := by
    rintro e h m rfl e' h' p rfl d hd
    have hg : ∀ e ∈ m.elements, GoodElem e := (he _ h).1
    exact ((hg _ h').2.2.2.2.2 d hd).1
  rw [Lay.parse, Lay.toText, Sexp.Text.parse_toText_blank q level _ (Lay.Layout.ok_ser hq l hc hsh) _ hnl,
    Res.bind_ok]
  exact Lay.Layout.de_ser' l a1 a2 a3 a4 fun e h => (he e h).1

omit [SelfLaws F] in
theorem Lay.Sound.run (e : BoardEdit F) (he : e.Fits) (l l' : Lay.Layout F) (h : Lay.Sound l)
    (hr : e.run l = .ok l') : Lay.Sound l' := by
  obtain ⟨hh, fine⟩ := h
  have snoc : ∀ e : Lay.Elem F, Lay.Fine e → Lay.Sound { l with elements := l.elements ++ [e] } := by
    intro e he
    refine ⟨hh, fun x hx => ?_⟩
    rcases List.mem_append.1 hx with hx | hx
    · exact fine x hx
    · rw [List.mem_singleton] at hx; subst hx; exact .of he
  have via : ∀ f : Lay.Elem F → Lay.Elem F, (∀ e, Lay.FineRead e → Lay.FineRead (f e)) →
      Lay.Sound { l with elements := l.elements.map f } := by
    intro f hf
    refine ⟨hh, fun x hx => ?_⟩
    obtain ⟨e', h', rfl⟩ := List.mem_map.1 hx
    exact hf e' (fine e' h')
  cases e with
  | move x y => cases hr; exact via _ fun _ => .adjust x y
  | renameNet a b =>
    simp only [BoardEdit.run, Lay.changeNetName_eq, Res.ok.injEq] at hr
    subst hr
    exact via _ fun _ => .renamed a b he
  | addNet n name =>
    cases hr
    refine snoc _ ⟨he.1, ?_, by simp [boardTrees]⟩
    simpa [boardStrings] using he.2
  | addNetclass nc =>
    cases hr
    exact snoc _ ⟨trivial, he, by simp [boardTrees]⟩
  | setSetup n v => cases hr; exact ⟨Lay.ready_setup hh n v he.1 he.2.1 he.2.2, fine⟩
  | append e => cases hr; exact snoc _ he
  | editModule r es =>
    simp only [BoardEdit.run, Lay.Layout.modifyModule] at hr
    split at hr
    · rename_i es' hes
      cases hr
      refine ⟨hh, fun x hx => ?_⟩
      rcases Lay.modifyModuleIn_mem r _ _ _ hes x hx with hx | ⟨m, hm, rfl⟩
      · exact fine x hx
      · have hm' : Lay.Fine (.module_ m) := fine _ hm
        exact .of ((Lay.fine_module _).2 (C59_edits_keep_savable es he m ((Lay.fine_module m).1 hm')))
    · simp at hr

omit [SelfLaws F] in
theorem Spec.settleBoard_sound {t : Str} {l : Lay.Layout F} (hr : Lay.parse t = .ok l)
    (hc : CleanLayout l) (hb : ∀ e ∈ l.elements, ReadsBackBoard e) : Lay.Sound (settleBoard l) := by
  simp only [Lay.parse, Res.bind_eq_ok] at hr
  obtain ⟨tree, _, hr⟩ := hr
  obtain ⟨h1, h2, h3, h4⟩ := Lay.Layout.good_of_de hr
  obtain ⟨i, rfl, hes⟩ := Lay.Layout.elements_of_de hr
  refine ⟨⟨⟨h1, h2, h3, h4, by simp⟩, ⟨hc.1, by simp⟩⟩, fun e he => ?_⟩
  obtain ⟨e', he', rfl⟩ := List.mem_map.1 he
  obtain ⟨x, hx, h⟩ := Fp.vec_mem hes e' he'
  refine ⟨Lay.Elem.good_settle h (List.mem_filter.1 hx).2 (hb e' he'), ?_⟩
  rw [boardStrings_settle, boardTrees_settle]
  exact hc.2 e' he'

omit [TextLaws F] [ZeroLaws F] [SelfLaws F] in
theorem Spec.settleBoard_twice {l : Lay.Layout F} (h : Lay.Sound (settleBoard l)) :
    settleBoard (settleBoard l) = settleBoard l := by
  have : (settleBoard l).elements.map settleBoardElem = (settleBoard l).elements := by
    conv_rhs => rw [← List.map_id (settleBoard l).elements]
    refine List.map_congr_left fun e he => ?_
    have hg := (h.2 e he).1
    cases e with
    | zone z => rfl
    | module_ m => exact settleBoardElem_good (.module_ m) hg
    | grText m => exact settleBoardElem_good (.grText m) hg
    | dimension m => exact settleBoardElem_good (.dimension m) hg
    | _ => rfl
  rw [settleBoard, this]

theorem Spec.boardSession_ends (q : Str → Bool) (hq : QuotesWhenNeeded q) (level : Int)
    (steps : List (Step (BoardEdit F))) (hf : ∀ e ∈ editsOf steps, e.Fits) (x y : Lay.Layout F)
    (hg : Lay.Sound (settleBoard y)) (hb : ∀ e ∈ y.elements, ReadsBackBoard e)
    (hx : x = y ∨ x = settleBoard y) :
    ∃ r z, boardSession q level steps x = .ok r ∧ runBoard (editsOf steps) y = .ok z ∧
      Lay.Sound (settleBoard z) ∧ (∀ e ∈ z.elements, ReadsBackBoard e) ∧
      (r = z ∨ r = settleBoard z) ∧
      ((x = settleBoard y ∨ Step.saveAndRead ∈ steps) → r = settleBoard z) := by
  induction steps generalizing x y with
  | nil => exact ⟨x, y, rfl, rfl, hg, hb, hx, fun h => h.elim id fun h => by cases h⟩
  | cons s steps ih =>
    cases s with
    | edit e =>
      simp only [editsOf, List.forall_mem_cons] at hf
      have hrun : e.run x = e.run y ∨ e.run x = settledOut (e.run y) := by
        rcases hx with rfl | rfl
        · exact .inl rfl
        · exact .inr (settleBoard_run e hf.1 y)
      have hrun' : x = settleBoard y → e.run x = settledOut (e.run y) := by
        rintro rfl
        exact settleBoard_run e hf.1 y
      have mem : Step.saveAndRead ∈ Step.edit e :: steps ↔ Step.saveAndRead ∈ steps := by simp
      simp only [boardSession, editsOf, runBoard]
      cases hy : e.run y with
      | ok y' =>
        rw [hy] at hrun hrun'
        have hg' : Lay.Sound (settleBoard y') := by
          refine Lay.Sound.run e hf.1 (settleBoard y) _ hg ?_
          rw [settleBoard_run e hf.1, hy]; rfl
        have hb' := readsBoard_run e hf.1 y y' hb hy
        rcases hrun with h1 | h1
        · obtain ⟨r, z, k1, k2, k3, k4, k5, k6⟩ := ih hf.2 y' y' hg' hb' (.inl rfl)
          refine ⟨r, z, by rw [h1]; exact k1, k2, k3, k4, k5, fun h => k6 ?_⟩
          rw [mem] at h
          refine h.imp_left fun h => ?_
          have := hrun' h
          rw [h1] at this
          exact Res.ok.inj this
        · have h1' : e.run x = .ok (settleBoard y') := h1
          obtain ⟨r, z, k1, k2, k3, k4, k5, k6⟩ := ih hf.2 (settleBoard y') y' hg' hb' (.inr rfl)
          exact ⟨r, z, by rw [h1']; exact k1, k2, k3, k4, k5, fun _ => k6 (.inl rfl)⟩
      | err er =>
        rw [hy] at hrun
        have h1 : e.run x = .err er := by rcases hrun with h | h <;> exact h
        obtain ⟨r, z, k1, k2, k3, k4, k5, k6⟩ := ih hf.2 x y hg hb hx
        exact ⟨r, z, by rw [h1]; exact k1, k2, k3, k4, k5, fun h => k6 (h.imp_right mem.1)⟩
      | panic =>
        exfalso
        obtain ⟨z, hz⟩ := C60_edits_return [e] y
        simp only [runBoard, hy] at hz
        cases hz
      | diverge =>
        exfalso
        obtain ⟨z, hz⟩ := C60_edits_return [e] y
        simp only [runBoard, hy] at hz
        cases hz
    | saveAndRead =>
      have ht : Lay.toText q level x = Lay.toText q level (settleBoard y) := by
        rcases hx with rfl | rfl
        · rw [Lay.toText, Lay.toText, Lay.Layout.ser_settle x hb]
        · rfl
      have hp := hg.roundtrip q hq level
      obtain ⟨r, z, k1, k2, k3, k4, k5, k6⟩ := ih hf (settleBoard y) y hg hb (.inr rfl)
      refine ⟨r, z, ?_, k2, k3, k4, k5, fun _ => k6 (.inl rfl)⟩
      simp only [boardSession, ht, hp, Res.bind_ok]
      exact k1

/-- The same for boards: any session with saving in between ends with the file that the edits alone
end with. -/
theorem C113_board (q : Str → Bool) (hq : QuotesWhenNeeded q) (level : Int) (t : Str)
    (l l' : Lay.Layout F) (hr : Lay.parse t = .ok l) (hc : CleanLayout l)
    (hw : Lay.parse (Lay.toText q level l) = .ok l')
    (steps : List (Step (BoardEdit F))) (hf : ∀ e ∈ editsOf steps, e.Fits) :
    ∃ r z, boardSession q level steps l = .ok r ∧ runBoard (editsOf steps) l = .ok z ∧
      Lay.toText q level r = Lay.toText q level z ∧
      Lay.parse (Lay.toText q level r) = .ok (settleBoard r) ∧
      (Step.saveAndRead ∈ steps → settleBoard r = r) := by
  have hb := ((C110_board q hq level t l l' hr hc).1 hw).1
  have hg := settleBoard_sound hr hc hb
  obtain ⟨r, z, k1, k2, k3, k4, k5, k6⟩ := boardSession_ends q hq level steps hf l l hg hb (.inl rfl)
  have hss := settleBoard_twice k3
  have hsr : settleBoard r = settleBoard z := by
    rcases k5 with h2 | h2
    · rw [h2]
    · rw [h2, hss]
  have hser : (settleBoard z).ser = z.ser := Lay.Layout.ser_settle _ k4
  have ht : Lay.toText q level r = Lay.toText q level z := by
    rcases k5 with h2 | h2
    · rw [h2]
    · rw [Lay.toText, Lay.toText, h2, hser]
  refine ⟨r, z, k1, k2, ht, ?_, fun h => by rw [hsr, ← k6 (.inr h)]⟩
  rw [ht, hsr, Lay.toText, ← hser]
  exact k3.roundtrip q hq level

omit [TextLaws F] [ZeroLaws F] [SelfLaws F] in
theorem Spec.settleBoard_nets (l : Lay.Layout F) : (settleBoard l).nets = l.nets := by
  simp only [Lay.Layout.nets, settleBoard, List.filterMap_map]
  congr 1
  funext e
  cases e <;> rfl

omit [TextLaws F] [ZeroLaws F] [SelfLaws F] in
theorem Spec.settleBoard_netclasses (l : Lay.Layout F) : (settleBoard l).netclasses = l.netclasses := by
  simp only [Lay.Layout.netclasses, settleBoard, List.filterMap_map]
  congr 1
  funext e
  cases e <;> rfl

omit [TextLaws F] [ZeroLaws F] [SelfLaws F] in
theorem Spec.settleBoard_bound (l : Lay.Layout F) : (settleBoard l).bound = l.bound := by
  simp only [Lay.Layout.bound, settleBoard, List.foldl_map]
  have : (fun (b : Bound F) (e : Lay.Elem F) => b.update (settleBoardElem e).bound) =
      fun b e => b.update e.bound := by
    funext b e
    cases e with
    | module_ m => exact congrArg b.update (settle_bound m)
    | _ => rfl
  rw [this]

omit [TextLaws F] [ZeroLaws F] [SelfLaws F] in
theorem Spec.settleBoard_getModules (l : Lay.Layout F) : (settleBoard l).getModules = l.getModules.map settle := by
  obtain ⟨_, _, _, _, _, _, es⟩ := l
  simp only [Lay.Layout.getModules, settleBoard]
  induction es with
  | nil => rfl
  | cons e es ih =>
    cases e with
    | module_ m => simp only [List.map_cons, settleBoardElem, List.filterMap_cons, ih]
    | _ => simpa only [List.map_cons, settleBoardElem, List.filterMap_cons] using ih

omit [TextLaws F] [ZeroLaws F] [SelfLaws F] in
theorem Spec.settleBoard_getModule (l : Lay.Layout F) (w : Str) :
    (settleBoard l).getModule w = (l.getModule w).map settle := by
  obtain ⟨_, _, _, _, _, _, es⟩ := l
  simp only [Lay.Layout.getModule, settleBoard]
  induction es with
  | nil => rfl
  | cons e es ih =>
    cases e with
    | module_ m =>
      have e1 : settleBoardElem (.module_ m) = .module_ (settle m) := rfl
      rw [List.map_cons, e1, Lay.getModuleIn, Lay.getModuleIn, settle_isReference]
      split_ifs
      · rfl
      · exact ih
    | _ => exact ih

/-- What can be asked of a board is answered after saving as before: the header, the nets and net
classes, the setup entries, where the board lies, and which footprints it has. -/
theorem C113_same_board_answers (q : Str → Bool) (hq : QuotesWhenNeeded q) (level : Int) (t : Str)
    (l r : Lay.Layout F) (hr : Lay.parse t = .ok l) (hc : CleanLayout l)
    (hw : Lay.parse (Lay.toText q level l) = .ok r) :
    r.version = l.version ∧ r.host = l.host ∧ r.page = l.page ∧ r.layers = l.layers ∧
    r.nets = l.nets ∧ r.netclasses = l.netclasses ∧ (∀ n, r.setup.get n = l.setup.get n) ∧
    r.bound = l.bound ∧ r.getModules = l.getModules.map settle ∧
    (∀ w, r.getModule w = (l.getModule w).map settle) := by
  obtain ⟨hb, rfl⟩ := (C110_board q hq level t l r hr hc).1 hw
  exact ⟨rfl, rfl, rfl, rfl, settleBoard_nets l, settleBoard_netclasses l, fun _ => rfl, settleBoard_bound l,
    settleBoard_getModules l, settleBoard_getModule l⟩

/-! ## Schematics and symbol libraries -/

omit [Flt F] [TextLaws F] [ZeroLaws F] [SelfLaws F] in
theorem Spec.unnamed_run (e : SchEdit F) (x y : Sch.Schematic F) (h : unnamed x = unnamed y) :
    (do let r ← e.run x; .ok (unnamed r)) = (do let r ← e.run y; .ok (unnamed r)) := by
  obtain ⟨n, a, b, c, d, e'⟩ := x
  obtain ⟨n', a', b', c', d', e''⟩ := y
  simp only [unnamed, Sch.Schematic.mk.injEq, true_and] at h
  obtain ⟨rfl, rfl, rfl, rfl, rfl⟩ := h
  cases e with
  | editComponent r es =>
    simp only [SchEdit.run, Sch.Schematic.components]
    split
    · rfl
    · rename_i c _
      cases runComp es c <;> rfl
  | incrementSheetCount =>
    simp only [SchEdit.run, Sch.Schematic.incrementSheetCount]
    split_ifs <;> rfl
  | _ => rfl

omit [ZeroLaws F] [SelfLaws F] in
/-- The same for schematics that fit the file format: with saving in between the session has the
same outcome, and the same schematic at the end but for the name of the file (which is forgotten
when a schematic is read from a text). -/
theorem C113_schematic (steps : List (Step (SchEdit F))) (hf : ∀ e ∈ editsOf steps, e.Fits)
    (s : Sch.Schematic F) (h : FitsSchematic s) (hx : AllExtensible s) :
    (do let r ← schSession steps s; .ok (unnamed r)) = (do let r ← runSch (editsOf steps) s; .ok (unnamed r)) := by
  suffices H : ∀ x y : Sch.Schematic F, unnamed x = unnamed y → FitsSchematic y → AllExtensible y →
      (do let r ← schSession steps x; .ok (unnamed r)) =
        (do let r ← runSch (editsOf steps) y; .ok (unnamed r)) from H s s rfl h hx
  clear h hx s
  induction steps with
  | nil =>
    intro x y hxy _ _
    simp only [schSession, editsOf, runSch, Res.bind_ok, hxy]
  | cons st steps ih =>
    intro x y hxy hy hxt
    cases st with
    | edit e =>
      simp only [editsOf, List.forall_mem_cons] at hf
      have hrun := unnamed_run e x y hxy
      simp only [schSession, editsOf, runSch]
      cases h1 : e.run y with
      | ok y' =>
        rw [h1] at hrun
        cases h2 : e.run x with
        | ok x' =>
          rw [h2] at hrun
          simp only [Res.bind_ok, Res.ok.injEq] at hrun ⊢
          obtain ⟨k1, k2⟩ := Sch.schEdit_fits e hf.1 y y' hy hxt h1
          exact ih hf.2 x' y' hrun k1 k2
        | _ => rw [h2] at hrun; cases hrun
      | err er =>
        rw [h1] at hrun
        cases h2 : e.run x with
        | err er' => rw [h2] at hrun; exact hrun
        | _ => rw [h2] at hrun; cases hrun
      | panic =>
        rw [h1] at hrun
        cases h2 : e.run x with
        | panic => rfl
        | _ => rw [h2] at hrun; cases hrun
      | diverge =>
        rw [h1] at hrun
        cases h2 : e.run x with
        | diverge => rfl
        | _ => rw [h2] at hrun; cases hrun
    | saveAndRead =>
      have hs : x.show = y.show := by
        have h1 : x.show = (unnamed x).show := rfl
        have h2 : y.show = (unnamed y).show := rfl
        rw [h1, h2, hxy]
      simp only [schSession, editsOf, hs]
      rw [C01_roundtrip y hy, Res.bind_ok]
      exact ih hf (unnamed y) y rfl hy hxt

omit [ZeroLaws F] [SelfLaws F] in
/-- So the file at the end is the same. -/
theorem C113_schematic_file (steps : List (Step (SchEdit F))) (hf : ∀ e ∈ editsOf steps, e.Fits)
    (s z : Sch.Schematic F) (h : FitsSchematic s) (hx : AllExtensible s)
    (hz : runSch (editsOf steps) s = .ok z) :
    ∃ r, schSession steps s = .ok r ∧ r.show = z.show ∧ unnamed r = unnamed z := by
  have key := C113_schematic steps hf s h hx
  rw [hz, Res.bind_ok] at key
  obtain ⟨r, h1, h2⟩ := Res.bind_eq_ok.1 key
  rw [Res.ok.injEq] at h2
  refine ⟨r, h1, ?_, h2⟩
  have e1 : r.show = (unnamed r).show := rfl
  have e2 : z.show = (unnamed z).show := rfl
  rw [e1, e2, h2]

omit [ZeroLaws F] [SelfLaws F] in
/-- The same for symbol libraries: a session with saving in between ends as the edits alone do, or
panics at a save because a symbol lacks its two fields. -/
theorem C113_library (steps : List (Step (LibEdit F))) (hf : ∀ e ∈ editsOf steps, e.Fits)
    (l r : Lib.SymbolLib F) (hl : UnfinishedLib l) :
    (libSession steps l = .ok r → runLib (editsOf steps) l = .ok r) ∧
    (runLib (editsOf steps) l = .ok r → libSession steps l = .ok r ∨ libSession steps l = .panic) := by
  induction steps generalizing l with
  | nil => exact ⟨id, .inl⟩
  | cons st steps ih =>
    cases st with
    | edit e =>
      simp only [editsOf, List.forall_mem_cons] at hf
      simp only [libSession, editsOf, runLib]
      cases h1 : e.run l with
      | ok l' =>
        simp only [Res.bind_ok]
        exact ih hf.2 l' (Lib.runLib_keeps [e] (by simpa using hf.1) l l' hl (by simp [runLib, h1]))
      | _ => exact ⟨(nomatch ·), (nomatch ·)⟩
    | saveAndRead =>
      simp only [libSession, editsOf]
      rcases C87_session_saves [] (by simp) l l hl rfl with ⟨t, h1, h2⟩ | ⟨h1, _⟩
      · simp only [h1, h2, Res.bind_ok]
        exact ih hf l hl
      · rw [h1]
        exact ⟨(nomatch ·), fun _ => .inr rfl⟩

/-! The footprint of C110 with letters of no size and an odd hole, turned over, saved, moved, saved
twice, fixed: it ends as without the saving, and is not saved as it was read. -/

/-- The session. -/
def Spec.sampleSteps : List (Step (FpEdit Nm)) :=
  [.edit .flip, .saveAndRead, .edit (.move ⟨1⟩ ⟨-1⟩), .saveAndRead, .saveAndRead, .edit (.fix Config.klc)]

theorem Spec.sampleSteps_fit : ∀ e ∈ editsOf sampleSteps, e.Fits := by
  simp only [sampleSteps, editsOf, List.forall_mem_cons, FpEdit.Fits]
  refine ⟨trivial, trivial, by decide, by simp⟩

example : ∃ r, fpSession Fm.stdQuote 0 sampleSteps unsettled = .ok r ∧
    Fp.toText Fm.stdQuote 0 r = Fp.toText Fm.stdQuote 0 (runFp (editsOf sampleSteps) unsettled) ∧
    Fp.parse (Fp.toText Fm.stdQuote 0 r) = .ok (settle r) ∧
    (Step.saveAndRead ∈ sampleSteps → settle r = r) :=
  have h : Clean Spec.unsettled.name ∧ (∀ e ∈ Spec.unsettled.elements, ∀ s ∈ strings e, Clean s) := by
    decide +kernel
  C113_footprint _ stdQuote_quotes 0 _ _ _ unsettled_read h.1 h.2
    ((C110_footprint _ stdQuote_quotes 0 _ _ _ unsettled_read h.1 h.2).2 ⟨unsettled_reads, rfl⟩)
    sampleSteps sampleSteps_fit

/-- Its findings are found again after saving, but for its proportions. -/
example (r : Fp.Module Nm) (hw : Fp.parse (Fp.toText Fm.stdQuote 0 unsettled) = .ok r) :
    (r.check Config.klc).Sublist (unsettled.check Config.klc) ∧ unsettled.check Config.klc ≠ [] := by
  have h : Clean Spec.unsettled.name ∧ (∀ e ∈ Spec.unsettled.elements, ∀ s ∈ strings e, Clean s) := by
    decide +kernel
  have ht : ∀ e ∈ Spec.unsettled.elements, (match e with
      | .text t => Fp.differs t.effects.font.size.x (Config.klc : Config Nm).fontSize &&
          Fp.differs t.effects.font.size.y (Config.klc : Config Nm).fontSize
      | _ => true) = true := by decide +kernel
  refine ⟨(C113_findings _ stdQuote_quotes 0 _ _ _ unsettled_read h.1 h.2 hw _ (fun _ => by decide +kernel)
    fun t m => ?_).1, by decide +kernel⟩
  have := ht _ m
  rw [Bool.and_eq_true] at this
  exact ⟨fun _ => this.1, fun _ => this.2⟩

/-- Without the saving the session ends with another footprint in memory. -/
example : runFp (editsOf sampleSteps) unsettled ≠ settle (runFp (editsOf sampleSteps) unsettled) := by
  decide +kernel

/-- A schematic, edited and saved between the edits. -/
example : ∃ r z, schSession (sampleSchSession.flatMap fun e => [.saveAndRead, .edit e]) oneComponent = .ok r ∧
    runSch sampleSchSession oneComponent = .ok z ∧ r.show = z.show ∧ z ≠ oneComponent := by
  have h1 : FitsSchematic oneComponent := by decide +kernel
  have h2 : AllExtensible oneComponent := by
    intro c hc
    simp only [oneComponent, List.mem_cons, Sch.Element.component.injEq, reduceCtorEq, List.not_mem_nil, or_false] at hc
    subst hc; decide +kernel
  have h3 : editsOf (sampleSchSession.flatMap fun e => [.saveAndRead, .edit e]) = sampleSchSession := rfl
  have h4 : (match runSch sampleSchSession oneComponent with | .ok z => decide (z ≠ oneComponent) | _ => false) = true := by
    decide +kernel
  cases hz : runSch sampleSchSession oneComponent with
  | ok z =>
    rw [hz] at h4
    obtain ⟨r, k1, k2, _⟩ := C113_schematic_file (sampleSchSession.flatMap fun e => [.saveAndRead, .edit e])
      (by rw [h3]; exact sampleSchSession_fits) oneComponent z h1 h2 (by rw [h3]; exact hz)
    exact ⟨r, z, k1, rfl, k2, of_decide_eq_true h4⟩
  | _ => rw [hz] at h4; cases h4

/-- A new symbol has no fields: saved at once, the session panics, saved at the end, it does not. -/
example : (libSession [.edit (.addNew (str! "R") (str! "R")), .saveAndRead] (Lib.SymbolLib.dflt : Lib.SymbolLib Nm)) = .panic ∧
    (libSession (sampleLibSession.map .edit ++ [.saveAndRead]) (Lib.SymbolLib.dflt : Lib.SymbolLib Nm)) =
      runLib sampleLibSession Lib.SymbolLib.dflt := by
  refine ⟨by decide +kernel, by decide +kernel⟩

end Verif
