import Verif.Props.C27
import Verif.Model.Layout.Data
import Verif.Model.SymbolLib
/-!
# C124: what the style checks do not look at
-/

namespace Verif
open Flt Fp Spec

variable {F : Type}

/-! ## Specification -/

/-- What the style rules say something about in a text: what it shows, the kind of layer, whether it
is hidden, width, height and thickness of the characters. -/
def Spec.lookOf (t : FpText F) : Str × LayerType × Bool × F × F × F :=
  (t.value, t.layer.t, t.hide, t.effects.font.size.x, t.effects.font.size.y,
    t.effects.font.thickness)

/-- Two footprints agree on what the style rules are about: name, looks of the first text with each of
the three names, whether there are four lines on the courtyard, kinds of pads, marking. -/
structure Spec.SameStyle (m m' : Module F) : Prop where
  name : m'.name = m.name
  texts : ∀ w ∈ [str! "reference", str! "value", str! "user"],
    (textsNamed m' w).head?.map lookOf = (textsNamed m w).head?.map lookOf
  lines : (courtyard m').length < 4 ↔ (courtyard m).length < 4
  smd : HasPad m' .smd ↔ HasPad m .smd
  pth : HasPad m' .pth ↔ HasPad m .pth
  marked : MarkedSmd m' ↔ MarkedSmd m

/-- Two elements of a footprint agree on what the style rules are about. -/
def Spec.AlikeElem : Elem F → Elem F → Prop
  | .text t, .text t' => t'.name = t.name ∧ lookOf t' = lookOf t
  | .pad p, .pad p' => p'.t = p.t
  | .line l, .line l' => l'.layer.t = l.layer.t
  | .attr s, .attr s' => s' = s
  | .text _, _ | .pad _, _ | .line _, _ | .attr _, _ => False
  | _, .text _ | _, .pad _ | _, .line _ | _, .attr _ => False
  | _, _ => True

/-- Elements no style rule is about: neither text nor pad, no line of the courtyard, no marking as
surface-mount device. -/
def Spec.Unregulated : Elem F → Prop
  | .text _ | .pad _ => False
  | .line l => l.layer.t ≠ .crtYd
  | .attr s => s ≠ str! "smd"
  | _ => True

/-- The texts among elements, in order. -/
def Spec.textsIn (es : List (Elem F)) : List (FpText F) :=
  es.filterMap fun e => match e with | .text t => some t | _ => none

/-- A thing drawn in a symbol that some style rule is about. -/
def Spec.drawnRegulated : Lib.Draw → Bool
  | .other _ => false
  | _ => true

/-! ## Lemmas -/

namespace Blind

theorem textsNamed_eq (m : Module F) (w : Str) :
    textsNamed m w = (textsIn m.elements).filter fun t => t.name = w := by
  obtain ⟨n, es⟩ := m
  simp only [textsNamed, textsIn]
  induction es with
  | nil => rfl
  | cons e es ih =>
    cases e with
    | text t => by_cases h : t.name = w <;> simp [h, ih]
    | _ => simpa using ih

theorem pads_zero (m : Module F) (t : PadType) :
    (m.pads.filter fun p => p.t = t).length = 0 ↔ ¬ HasPad m t := by
  rw [← Fp.padCount_pos]; omega

theorem alike_refl (e : Elem F) : AlikeElem e e := by
  cases e <;> simp [AlikeElem]

theorem alike_texts {es es' : List (Elem F)} (h : List.Forall₂ AlikeElem es es') (w : Str) :
    ((textsIn es').filter fun t => t.name = w).map lookOf =
      ((textsIn es).filter fun t => t.name = w).map lookOf := by
  induction h with
  | nil => rfl
  | @cons e e' l l' hh _ ih =>
    cases e <;> cases e' <;> simp only [AlikeElem] at hh <;>
      first
        | exact ih
        | exact hh.elim
        | (rename_i t t'
           by_cases hw : t.name = w
           · have hw' : t'.name = w := hh.1.trans hw
             simp only [textsIn, List.filterMap_cons, List.filter_cons, hw, hw', decide_true, if_true,
               List.map_cons, hh.2] at ih ⊢
             rw [ih]
           · have hw' : ¬ t'.name = w := fun h => hw (hh.1.symm.trans h)
             simp only [textsIn, List.filterMap_cons, List.filter_cons, hw, hw', decide_false,
               Bool.false_eq_true, if_false] at ih ⊢
             exact ih)

theorem alike_courtyard {n n' : Str} {es es' : List (Elem F)} (h : List.Forall₂ AlikeElem es es') :
    (courtyard ⟨n', es'⟩).length = (courtyard ⟨n, es⟩).length := by
  simp only [courtyard]
  induction h with
  | nil => rfl
  | @cons e e' l l' hh _ ih =>
    cases e <;> cases e' <;> simp only [AlikeElem] at hh <;>
      first
        | exact hh.elim
        | (simpa using ih)
        | (rename_i t t'
           by_cases hw : t.layer.t = .crtYd
           · have hw' : t'.layer.t = .crtYd := hh.trans hw
             simpa [hw, hw'] using ih
           · have hw' : ¬ t'.layer.t = .crtYd := fun h => hw (hh.symm.trans h)
             simpa [hw, hw'] using ih)

theorem alike_pads {n n' : Str} {es es' : List (Elem F)} (h : List.Forall₂ AlikeElem es es')
    (t : PadType) : HasPad (Module.mk n' es') t ↔ HasPad (Module.mk n es) t := by
  simp only [HasPad]
  induction h with
  | nil => simp
  | @cons e e' l l' hh _ ih =>
    cases e <;> cases e' <;> simp only [AlikeElem] at hh <;>
      first
        | exact hh.elim
        | (simpa using ih)
        | (rename_i p p'
           simp only [List.mem_cons, Elem.pad.injEq, or_and_right, exists_or, exists_eq_left, hh, ih])

theorem alike_marked {n n' : Str} {es es' : List (Elem F)} (h : List.Forall₂ AlikeElem es es') :
    MarkedSmd (Module.mk n' es') ↔ MarkedSmd (Module.mk n es) := by
  simp only [MarkedSmd]
  induction h with
  | nil => simp
  | @cons e e' l l' hh _ ih =>
    cases e <;> cases e' <;> simp only [AlikeElem] at hh <;>
      first
        | exact hh.elim
        | (simpa using ih)
        | (simp only [List.mem_cons, Elem.attr.injEq, hh, ih])

theorem forall₂_map {f : Elem F → Elem F} (h : ∀ e, AlikeElem e (f e)) (es : List (Elem F)) :
    List.Forall₂ AlikeElem es (es.map f) := by
  induction es with
  | nil => exact .nil
  | cons e es ih => exact .cons (h e) ih

variable [Flt F]

theorem texts_alike (cfg : Config F) (name : Str) {a b : Option (FpText F)}
    (h : b.map lookOf = a.map lookOf) :
    checkReference cfg name b = checkReference cfg name a ∧
    checkValue cfg name b = checkValue cfg name a ∧
    checkReference2 cfg name b = checkReference2 cfg name a := by
  cases a with
  | none => cases b with
    | none => exact ⟨rfl, rfl, rfl⟩
    | some t => simp at h
  | some s => cases b with
    | none => simp at h
    | some t =>
      simp only [Option.map_some, Option.some.injEq, lookOf, Prod.mk.injEq] at h
      obtain ⟨h1, h2, h3, h4, h5, h6⟩ := h
      simp only [checkReference, checkValue, checkReference2, h1, h2, h3, h4, h5, h6, and_self]

/-! ### Fixing and renaming -/

omit [Flt F] in
theorem modText_rename (w : Str) (f : FpText F → FpText F) (old new : Str) (es : List (Elem F)) :
    Module.modText w f (es.map (Module.renameNetElem old new)) =
      (Module.modText w f es).map (Module.renameNetElem old new) := by
  induction es with
  | nil => rfl
  | cons e es ih =>
    cases e with
    | text t => by_cases h : t.name = w <;> simp [Module.modText, Module.renameNetElem, h, ih]
    | _ => simp [Module.modText, Module.renameNetElem, ih]

omit [Flt F] in
theorem firstAt_rename (old new : Str) (es : List (Elem F)) :
    Module.firstAt (es.map (Module.renameNetElem old new)) = Module.firstAt es := by
  induction es with
  | nil => rfl
  | cons e es ih => cases e <;> first | rfl | exact ih

theorem bound_rename (m : Module F) (old new : Str) : (m.renameNet old new).bound = m.bound := by
  have hb : ∀ (x y : F) (es : List (Elem F)) (b : Bound F),
      (es.map (Module.renameNetElem old new)).foldl (Module.boundStep x y) b =
        es.foldl (Module.boundStep x y) b := by
    intro x y es
    induction es with
    | nil => intro b; rfl
    | cons e es ih =>
      intro b
      rw [List.map_cons, List.foldl_cons, List.foldl_cons, ih]
      cases e <;> rfl
  simp only [Module.bound, Module.at_, Module.renameNet, firstAt_rename, hb]

theorem at_rename (m : Module F) (old new : Str) : (m.renameNet old new).at_ = m.at_ := by
  simp only [Module.at_, Module.renameNet, firstAt_rename]

end Blind

/-! ## Theorems -/

variable [Flt F]

/-- The findings about a footprint are settled by what the style rules are about: footprints that
agree on it have the same findings, in the same order, whatever the settings. -/
theorem C124_footprint (m m' : Module F) (h : SameStyle m m') (cfg : Config F) :
    m'.check cfg = m.check cfg := by
  have t1 := Blind.texts_alike cfg m.name (h.texts (str! "reference") (by simp))
  have t2 := Blind.texts_alike cfg m.name (h.texts (str! "value") (by simp))
  have t3 := Blind.texts_alike cfg m.name (h.texts (str! "user") (by simp))
  have hp : checkPlacement m' = checkPlacement m := by
    have s : smdCount m' = 0 ↔ smdCount m = 0 := by
      rw [smdCount, smdCount, Blind.pads_zero, Blind.pads_zero, h.smd]
    have p : pthCount m' = 0 ↔ pthCount m = 0 := by
      rw [pthCount, pthCount, Blind.pads_zero, Blind.pads_zero, h.pth]
    have a : m'.hasSmdAttr = m.hasSmdAttr := by
      rw [Bool.eq_iff_iff, Fp.hasSmdAttr_iff, Fp.hasSmdAttr_iff, h.marked]
    simp only [checkPlacement, gt_iff_lt, Nat.pos_iff_ne_zero, ne_eq, s, p, a, h.name]
  simp only [Module.check, h.name, Fp.getText_eq, t1.1, t2.2.1, t3.2.2, hp, Fp.courtyardCount_eq,
    h.lines]

/-- Replacing elements by ones the rules cannot tell from them changes no finding. -/
theorem C124_alike (n : Str) (es es' : List (Elem F)) (h : List.Forall₂ AlikeElem es es')
    (cfg : Config F) : (Module.mk n es').check cfg = (Module.mk n es).check cfg := by
  refine C124_footprint ⟨n, es⟩ ⟨n, es'⟩ ⟨rfl, fun w _ => ?_, ?_, ?_, ?_, ?_⟩ cfg
  · rw [← List.head?_map, ← List.head?_map, Blind.textsNamed_eq, Blind.textsNamed_eq]
    exact congrArg _ (Blind.alike_texts h w)
  · rw [Blind.alike_courtyard h]
  · exact Blind.alike_pads h .smd
  · exact Blind.alike_pads h .pth
  · exact Blind.alike_marked h

/-- Moving, turning and flipping a footprint and renaming nets changes no finding about it. -/
theorem C124_handling (m : Module F) (cfg : Config F) (x y rot : F) (old new : Str) :
    (m.adjust x y).check cfg = m.check cfg ∧
    (m.rotate rot).check cfg = m.check cfg ∧
    (m.flip).check cfg = m.check cfg ∧
    (m.renameNet old new).check cfg = m.check cfg := by
  refine ⟨C124_alike _ _ _ (Blind.forall₂_map (fun e => ?_) _) cfg,
    C124_alike _ _ _ (Blind.forall₂_map (fun e => ?_) _) cfg,
    C124_alike _ _ _ (Blind.forall₂_map (fun e => ?_) _) cfg,
    C124_alike _ _ _ (Blind.forall₂_map (fun e => ?_) _) cfg⟩
  · cases e <;> trivial
  · cases e <;> trivial
  · cases e <;> trivial
  · cases e <;> trivial

/-- Reordering the elements of a footprint changes no finding as long as its texts keep their
order. -/
theorem C124_order (n : Str) (es es' : List (Elem F)) (h : es'.Perm es)
    (ht : textsIn es' = textsIn es) (cfg : Config F) :
    (Module.mk n es').check cfg = (Module.mk n es).check cfg := by
  refine C124_footprint ⟨n, es⟩ ⟨n, es'⟩ ⟨rfl, fun w _ => ?_, ?_, ?_, ?_, ?_⟩ cfg
  · rw [Blind.textsNamed_eq, Blind.textsNamed_eq]
    exact congrArg (fun l => (List.head? (List.filter _ l)).map lookOf) ht
  · rw [courtyard, courtyard, (h.filter _).length_eq]
  · simp only [HasPad, h.mem_iff]
  · simp only [HasPad, h.mem_iff]
  · simp only [MarkedSmd, h.mem_iff]

/-- Elements no rule is about can be added or removed anywhere without changing a finding. -/
theorem C124_unregulated (n : Str) (es es' : List (Elem F)) (e : Elem F) (he : Unregulated e)
    (cfg : Config F) :
    (Module.mk n (es ++ e :: es')).check cfg = (Module.mk n (es ++ es')).check cfg := by
  have hc : (courtyard (Module.mk n (es ++ e :: es'))).length =
      (courtyard (Module.mk n (es ++ es'))).length := by
    cases e <;> simp_all [courtyard, Unregulated]
  have hp : ∀ t, HasPad (Module.mk n (es ++ e :: es')) t ↔ HasPad (Module.mk n (es ++ es')) t := by
    intro t
    cases e <;> simp_all [HasPad, Unregulated]
  refine C124_footprint ⟨n, es ++ es'⟩ ⟨n, es ++ e :: es'⟩ ⟨rfl, fun w _ => ?_, by rw [hc], hp _, hp _, ?_⟩ cfg
  · rw [Blind.textsNamed_eq, Blind.textsNamed_eq]
    have : textsIn (es ++ e :: es') = textsIn (es ++ es') := by
      cases e <;> simp_all [textsIn, Unregulated]
    exact congrArg (fun l => (List.head? (List.filter _ l)).map lookOf) this
  · cases e <;> simp_all [MarkedSmd, Unregulated]
    exact ⟨fun h => h.imp_right fun h => h.resolve_left fun h => he h.symm,
      fun h => h.imp_right Or.inr⟩

/-- Renaming a net before or after fixing a footprint makes no difference. -/
theorem C124_fix_rename (m : Module F) (cfg : Config F) (old new : Str) :
    (m.renameNet old new).fix cfg = (m.fix cfg).renameNet old new := by
  have hn : (m.renameNet old new).name = m.name := rfl
  have hk : keptElems cfg (m.renameNet old new) =
      (keptElems cfg m).map (Module.renameNetElem old new) := by
    simp only [keptElems, Module.renameNet, Blind.modText_rename]
  have al := Blind.forall₂_map (f := Module.renameNetElem old new) (fun e => by cases e <;> trivial)
    m.elements
  have ht : (m.renameNet old new).getText (str! "user") = m.getText (str! "user") := by
    obtain ⟨n, es⟩ := m
    simp only [Module.getText, Module.renameNet]
    clear al hk hn
    induction es with
    | nil => rfl
    | cons e es ih =>
      cases e <;> simp only [List.map_cons, Module.renameNetElem, List.findSome?_cons, ih]
  have hp : ∀ t, ((m.renameNet old new).pads.filter fun p => p.t = t).length = 0 ↔
      (m.pads.filter fun p => p.t = t).length = 0 := by
    intro t
    rw [Blind.pads_zero, Blind.pads_zero]
    exact not_congr (Blind.alike_pads al t)
  have hm : (m.renameNet old new).hasSmdAttr = m.hasSmdAttr := by
    rw [Bool.eq_iff_iff, Fp.hasSmdAttr_iff, Fp.hasSmdAttr_iff]
    exact Blind.alike_marked al
  have ha : addedAttr (m.renameNet old new) = addedAttr m := by
    have h1 := hp .pth
    have h2 := hp .smd
    simp only [addedAttr, pthCount, smdCount, gt_iff_lt, Nat.pos_iff_ne_zero, ne_eq, h1, h2, hm]
  have hl : addedLines (m.renameNet old new) = addedLines m := by
    have hc : courtyardCount (m.renameNet old new) = courtyardCount m := by
      rw [Fp.courtyardCount_eq, Fp.courtyardCount_eq]
      exact Blind.alike_courtyard al
    simp only [addedLines, hc, courtyardLines, courtyardBox, courtyardOffset, Blind.bound_rename,
      Blind.at_rename, hn]
  have hx : addedText cfg (m.renameNet old new) = addedText cfg m := by
    simp only [addedText, ht]
  have i1 : (addedText cfg m).map (Module.renameNetElem old new) = addedText cfg m := by
    simp only [addedText]; split <;> rfl
  have i2 : (addedAttr m).map (Module.renameNetElem old new) = addedAttr m := by
    simp only [addedAttr]; split <;> rfl
  have i3 : (addedLines m).map (Module.renameNetElem old new) = addedLines m := by
    simp only [addedLines]; split <;> rfl
  rw [fix_eq, fix_eq, hk, hx, ha, hl, hn]
  simp only [Module.renameNet, List.map_append, i1, i2, i3]

/-- Moving a board changes no finding about its footprints. -/
theorem C124_board (l : Lay.Layout F) (x y : F) (cfg : Config F) :
    (l.adjust x y).getModules.map (fun m => m.check cfg) =
      l.getModules.map (fun m => m.check cfg) := by
  obtain ⟨_, _, _, _, _, _, es⟩ := l
  simp only [Lay.Layout.adjust, Lay.Layout.getModules]
  induction es with
  | nil => rfl
  | cons e es ih =>
    cases e with
    | module_ m =>
      simp only [List.map_cons, Lay.Elem.adjust, List.filterMap_cons, (C124_handling m cfg x y x [] []).1]
      exact congrArg _ ih
    | _ => exact ih

/-- What the check says about a symbol is settled by its name, its reference prefix, its fields, and
the pins and rectangles drawn. -/
theorem C124_symbol (s s' : Lib.Symbol F) (h1 : s'.name = s.name) (h2 : s'.reference = s.reference)
    (h3 : s'.fields = s.fields) (h4 : s'.draw.filter drawnRegulated = s.draw.filter drawnRegulated) :
    s'.check = s.check := by
  have key : ∀ l : List Lib.Draw, (l.map fun d => Lib.pushMore (Lib.checkDraw d)).flatten =
      ((l.filter drawnRegulated).map fun d => Lib.pushMore (Lib.checkDraw d)).flatten := by
    intro l
    induction l with
    | nil => rfl
    | cons d l ih =>
      cases d with
      | other x =>
        rw [List.map_cons, List.flatten_cons, ih]
        rfl
      | _ => rw [List.map_cons, List.flatten_cons, ih]; rfl
  have pins : ∀ s : Lib.Symbol F, s.pins = (s.draw.filter drawnRegulated).filterMap
      fun d => match d with | .pin p => some p | _ => none := by
    intro s
    obtain ⟨_, _, _, _, _, _, _, _, _, _, ds⟩ := s
    simp only [Lib.Symbol.pins]
    induction ds with
    | nil => rfl
    | cons d l ih => cases d <;> simp_all [drawnRegulated, List.filter_cons]
  have hp : s'.pins = s.pins := by rw [pins, pins, h4]
  have hw : s'.isPowerSym = s.isPowerSym := by simp only [Lib.Symbol.isPowerSym, h2, hp]
  have hg : s'.isGraphics = s.isGraphics := by simp only [Lib.Symbol.isGraphics, h2, hp]
  have hf : ∀ f, Lib.checkField s' f = Lib.checkField s f := by
    intro f
    simp only [Lib.checkField, hw, hg, h1]
  simp only [Lib.Symbol.check, h1, h3, hw, hg, hf]
  rw [key s'.draw, key s.draw, h4]

/-- Drawing the same things in another order gives the same findings in another order. -/
theorem C124_symbol_order (s : Lib.Symbol F) (ds : List Lib.Draw) (h : ds.Perm s.draw) :
    ({ s with draw := ds } : Lib.Symbol F).check.Perm s.check := by
  have hp : ({ s with draw := ds } : Lib.Symbol F).pins.Perm s.pins := h.filterMap _
  have hw : ({ s with draw := ds } : Lib.Symbol F).isPowerSym = s.isPowerSym := by
    simp only [Lib.Symbol.isPowerSym, hp.length_eq]
  have hg : ({ s with draw := ds } : Lib.Symbol F).isGraphics = s.isGraphics := by
    simp only [Lib.Symbol.isGraphics]
    rw [show ({ s with draw := ds } : Lib.Symbol F).pins.isEmpty = s.pins.isEmpty by
      rw [Bool.eq_iff_iff, List.isEmpty_iff, List.isEmpty_iff, ← List.length_eq_zero_iff,
        ← List.length_eq_zero_iff, hp.length_eq]]
  have hf : ∀ f, Lib.checkField ({ s with draw := ds } : Lib.Symbol F) f = Lib.checkField s f := by
    intro f
    simp only [Lib.checkField, hw, hg]
  simp only [Lib.Symbol.check, hw, hg, hf]
  refine List.Perm.append_left _ ?_
  split
  · exact (h.map _).flatten
  · exact List.Perm.refl _

/-! ## Cases -/

/-- A footprint with several findings. -/
def Spec.carelessFootprint : Module Nm :=
  ⟨str! "R0805", [.text (FpText.new (str! "reference") (str! "R1")), .at_ ⟨⟨3⟩, ⟨4⟩, ⟨0⟩⟩,
    .text (FpText.new (str! "value") (str! "1k")),
    .pad { Pad.new (str! "1") .smd .rect with net := some ⟨7, str! "GND"⟩ }, .descr (str! "resistor")]⟩

/-- The findings survive every kind of handling, which changes the footprint. -/
example (x y : Nm) : (Spec.carelessFootprint.flip.adjust x y).check Config.klc =
      Spec.carelessFootprint.check Config.klc ∧ 8 ≤ (Spec.carelessFootprint.check Config.klc).length ∧
      Spec.carelessFootprint.flip ≠ Spec.carelessFootprint := by
  refine ⟨?_, by decide, by decide⟩
  rw [(C124_handling _ _ x y x [] []).1, (C124_handling _ _ x y x [] []).2.2.1]

/-- Texts must keep their order: of two references the first one counts. -/
example : ∃ (n : Str) (es es' : List (Elem Nm)), es'.Perm es ∧
    (Module.mk n es').check Config.klc ≠ (Module.mk n es).check Config.klc :=
  ⟨str! "R", [.text (FpText.new (str! "reference") (str! "R1")),
      .text (FpText.new (str! "reference") (str! "REF**"))],
    [.text (FpText.new (str! "reference") (str! "REF**")),
      .text (FpText.new (str! "reference") (str! "R1"))], List.Perm.swap _ _ _,
    fun h => absurd (congrArg List.length h) (by decide)⟩

/-- The rename in the theorem about fixing changes a footprint that is changed by fixing. -/
example : Spec.carelessFootprint.renameNet (str! "GND") (str! "VCC") ≠ Spec.carelessFootprint ∧
    Spec.carelessFootprint.fix Config.klc ≠ Spec.carelessFootprint := by
  decide

/-- A description can be added without a finding. -/
example : Unregulated (Elem.descr (str! "resistor") : Elem Nm) := trivial

/-- Two things drawn in a symbol, one of them with findings. -/
example : ∃ (s : Lib.Symbol Nm) (ds : List Lib.Draw), ds.Perm s.draw ∧ ds ≠ s.draw ∧ s.check ≠ [] :=
  ⟨⟨str! "U", str! "U", ⟨0⟩, true, true, 1, false, false, [], [],
    [.other (str! "A"), .rectangle ⟨0, 0, 10, 10, 1, 1, 0, .transparent⟩]⟩,
    [.rectangle ⟨0, 0, 10, 10, 1, 1, 0, .transparent⟩, .other (str! "A")], List.Perm.swap _ _ _,
    by decide, by decide⟩

end Verif
