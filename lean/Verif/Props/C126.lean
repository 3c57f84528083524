import Verif.Props.C25
import Verif.Props.C124
import Verif.Props.C125
/-!
# C126: what equal footprints have in common
-/

namespace Verif
open Flt Fp Spec

variable {F : Type} [Flt F]

/-! ## Specification -/

/-- Two footprints have the same name and their elements compare equal one by one (the comparison of
the library, under which nets, sides of the board, references and values do not count). -/
def Spec.Matching (m m' : Module F) : Prop :=
  m'.name = m.name ∧ List.Forall₂ (fun a b => Elem.eq a b = true) m.elements m'.elements

/-! ## Lemmas -/

namespace Match

omit [Flt F] in
theorem layer_iff (a b : Layer) : a.eq b = true ↔ a.t = b.t := by simp [Layer.eq]

variable [EqLaws F]

theorem text_iff (a b : FpText F) : a.eq b = true ↔
    a.name = b.name ∧ (isDesignator a ∨
      (a.value = b.value ∧ a.at_ = b.at_ ∧ a.layer.t = b.layer.t ∧ a.effects = b.effects ∧ a.hide = b.hide)) := by
  simp only [FpText.eq, isDesignator]
  by_cases h1 : a.name = str! "reference" ∧ b.name = str! "reference"
  · simp [h1]
  · by_cases h2 : a.name = str! "value" ∧ b.name = str! "value"
    · simp [h2]
    · rw [if_neg h1, if_neg h2]
      simp only [guard_not, guard_ne, at_eq_iff, effects_eq_iff, layer_iff, and_true]
      constructor
      · rintro ⟨h3, h4, h5, _, h6, h7, h8⟩
        exact ⟨h4, Or.inr ⟨h5, h3, h6, h7, h8⟩⟩
      · rintro ⟨h4, h | ⟨h5, h3, h6, h7, h8⟩⟩
        · rcases h with h | h
          · exact absurd ⟨h, h4 ▸ h⟩ h1
          · exact absurd ⟨h, h4 ▸ h⟩ h2
        · exact ⟨h3, h4, h5, h3, h6, h7, h8⟩

theorem pad_iff (a b : Pad F) : a.eq b = true ↔
    a.at_ = b.at_ ∧ a.name = b.name ∧ a.t = b.t ∧ a.shape = b.shape ∧ a.size = b.size ∧
    a.rectDelta = b.rectDelta ∧ a.layers.map (·.t) = b.layers.map (·.t) ∧ a.zoneConnect = b.zoneConnect ∧
    a.drill = b.drill ∧ a.solderPasteMargin = b.solderPasteMargin ∧
    a.solderMaskMargin = b.solderMaskMargin ∧ a.clearance = b.clearance ∧ a.thermalGap = b.thermalGap := by
  simp only [Pad.eq, guard_not, guard_ne, at_eq_iff, xy_eq_iff, optXy, optF, optDrill,
    listEq_iff (f := fun l : Layer => l.t) layer_iff, and_true]

/-- How two elements that compare equal can differ. -/
theorem elem_cases {a b : Elem F} (h : Elem.eq a b = true) :
    (∃ t u, a = .text t ∧ b = .text u ∧ t.eq u = true) ∨
    (∃ p q, a = .pad p ∧ b = .pad q ∧ p.eq q = true) ∨
    (∃ p l, a = .poly p ∧ b = .poly { p with layer := l } ∧ l.t = p.layer.t) ∨
    (∃ p l, a = .line p ∧ b = .line { p with layer := l } ∧ l.t = p.layer.t) ∨
    (∃ p l, a = .circle p ∧ b = .circle { p with layer := l } ∧ l.t = p.layer.t) ∨
    (∃ p l, a = .arc p ∧ b = .arc { p with layer := l } ∧ l.t = p.layer.t) ∨
    (∃ p l : Layer, a = .layer p ∧ b = .layer l ∧ l.t = p.t) ∨
    (a = b ∧ match a with
      | .text _ | .pad _ | .poly _ | .line _ | .circle _ | .arc _ | .layer _ => False
      | _ => True) := by
  cases a <;> cases b <;> simp only [Elem.eq, Bool.false_eq_true] at h
  case text.text t u => exact Or.inl ⟨t, u, rfl, rfl, h⟩
  case pad.pad t u => exact Or.inr (Or.inl ⟨t, u, rfl, rfl, h⟩)
  case poly.poly t u =>
    obtain ⟨t1, t2, t3⟩ := t
    obtain ⟨u1, u2, u3⟩ := u
    simp only [FpPoly.eq, Bool.and_eq_true, listXy, EqLaws.feq_iff, layer_iff] at h
    obtain ⟨⟨rfl, rfl⟩, hl⟩ := h
    exact Or.inr (Or.inr (Or.inl ⟨_, u3, rfl, rfl, hl.symm⟩))
  case line.line t u =>
    obtain ⟨t1, t2, t3, t4⟩ := t
    obtain ⟨u1, u2, u3, u4⟩ := u
    simp only [FpLine.eq, Bool.and_eq_true, xy_eq_iff, EqLaws.feq_iff, layer_iff] at h
    obtain ⟨⟨⟨rfl, rfl⟩, hl⟩, rfl⟩ := h
    exact Or.inr (Or.inr (Or.inr (Or.inl ⟨_, u3, rfl, rfl, hl.symm⟩)))
  case circle.circle t u =>
    obtain ⟨t1, t2, t3, t4⟩ := t
    obtain ⟨u1, u2, u3, u4⟩ := u
    simp only [FpCircle.eq, Bool.and_eq_true, xy_eq_iff, EqLaws.feq_iff, layer_iff] at h
    obtain ⟨⟨⟨rfl, rfl⟩, hl⟩, rfl⟩ := h
    exact Or.inr (Or.inr (Or.inr (Or.inr (Or.inl ⟨_, u3, rfl, rfl, hl.symm⟩))))
  case arc.arc t u =>
    obtain ⟨t1, t2, t3, t4, t5⟩ := t
    obtain ⟨u1, u2, u3, u4, u5⟩ := u
    simp only [FpArc.eq, Bool.and_eq_true, xy_eq_iff, EqLaws.feq_iff, layer_iff] at h
    obtain ⟨⟨⟨⟨rfl, rfl⟩, rfl⟩, hl⟩, rfl⟩ := h
    exact Or.inr (Or.inr (Or.inr (Or.inr (Or.inr (Or.inl ⟨_, u4, rfl, rfl, hl.symm⟩)))))
  case layer.layer t u =>
    rw [layer_iff] at h
    exact Or.inr (Or.inr (Or.inr (Or.inr (Or.inr (Or.inr (Or.inl ⟨t, u, rfl, rfl, h.symm⟩))))))
  all_goals
    refine Or.inr (Or.inr (Or.inr (Or.inr (Or.inr (Or.inr (Or.inr ⟨?_, trivial⟩))))))
  all_goals
    first
      | rfl
      | (simp only [decide_eq_true_eq] at h; rw [h])
      | (rw [EqLaws.feq_iff] at h; rw [h])
      | (rw [at_eq_iff] at h; rw [h])
      | (rw [model_eq_iff] at h; rw [h])

theorem refl (e : Elem F) : Elem.eq e e = true := (C25_eq_equivalence (F := F)).1 e

theorem forall_refl (es : List (Elem F)) : List.Forall₂ (fun a b => Elem.eq a b = true) es es := by
  induction es with
  | nil => exact .nil
  | cons e es ih => exact .cons (refl e) ih

omit [EqLaws F] in
theorem forall_map {es es' : List (Elem F)} (h : List.Forall₂ (fun a b => Elem.eq a b = true) es es')
    (f g : Elem F → Elem F) (hf : ∀ a b, Elem.eq a b = true → Elem.eq (f a) (g b) = true) :
    List.Forall₂ (fun a b => Elem.eq a b = true) (es.map f) (es'.map g) := by
  induction h with
  | nil => exact .nil
  | cons h _ ih => exact .cons (hf _ _ h) ih

/-! ### Handling keeps equality -/

theorem adjust (x y : F) {a b : Elem F} (h : Elem.eq a b = true) :
    Elem.eq (Module.adjustElem x y a) (Module.adjustElem x y b) = true := by
  rcases elem_cases h with ⟨t, u, rfl, rfl, _⟩ | ⟨p, q, rfl, rfl, _⟩ | ⟨p, l, rfl, rfl, _⟩ |
    ⟨p, l, rfl, rfl, _⟩ | ⟨p, l, rfl, rfl, _⟩ | ⟨p, l, rfl, rfl, _⟩ | ⟨p, l, rfl, rfl, _⟩ | ⟨rfl, _⟩
  · exact h
  · exact h
  · exact h
  · exact h
  · exact h
  · exact h
  · exact h
  · exact refl _

theorem rotate (rot : F) {a b : Elem F} (h : Elem.eq a b = true) :
    Elem.eq (a.rotate rot) (b.rotate rot) = true := by
  rcases elem_cases h with ⟨t, u, rfl, rfl, hh⟩ | ⟨p, q, rfl, rfl, hh⟩ | ⟨p, l, rfl, rfl, _⟩ |
    ⟨p, l, rfl, rfl, _⟩ | ⟨p, l, rfl, rfl, _⟩ | ⟨p, l, rfl, rfl, _⟩ | ⟨p, l, rfl, rfl, _⟩ | ⟨rfl, _⟩
  · rw [text_iff] at hh
    refine (text_iff _ _).2 ⟨hh.1, hh.2.imp id fun ⟨h1, h2, h3⟩ => ⟨h1, ?_, h3⟩⟩
    exact congrArg (fun a : At F => a.rotate rot) h2
  · rw [pad_iff] at hh
    exact (pad_iff _ _).2 ⟨congrArg (fun a : At F => a.rotate rot) hh.1, hh.2⟩
  · exact h
  · exact h
  · exact h
  · exact h
  · exact h
  · exact refl _

theorem flip {a b : Elem F} (h : Elem.eq a b = true) : Elem.eq a.flip b.flip = true := by
  rcases elem_cases h with ⟨t, u, rfl, rfl, hh⟩ | ⟨p, q, rfl, rfl, hh⟩ | ⟨p, l, rfl, rfl, hl⟩ |
    ⟨p, l, rfl, rfl, hl⟩ | ⟨p, l, rfl, rfl, hl⟩ | ⟨p, l, rfl, rfl, hl⟩ | ⟨p, l, rfl, rfl, hl⟩ | ⟨rfl, _⟩
  · rw [text_iff] at hh
    refine (text_iff _ _).2 ⟨hh.1, hh.2.imp id fun ⟨h1, h2, h3, h4, h5⟩ => ⟨h1, ?_, h3, ?_, h5⟩⟩
    · exact congrArg At.flip h2
    · exact congrArg Effects.flip h4
  · rw [pad_iff] at hh
    obtain ⟨h1, h2, h3, h4, h5, h6, h7, h8⟩ := hh
    refine (pad_iff _ _).2 ⟨congrArg At.flip h1, h2, h3, h4, h5, h6, ?_, h8⟩
    change (p.layers.map Layer.flip).map (·.t) = (q.layers.map Layer.flip).map (·.t)
    rw [List.map_map, List.map_map]
    exact h7
  all_goals first
    | exact refl _
    | (simp only [Elem.flip, Elem.eq, FpPoly.eq, FpLine.eq, FpCircle.eq, FpArc.eq, FpPoly.flip, FpLine.flip,
        FpCircle.flip, FpArc.flip, Layer.flip, Bool.and_eq_true, listXy, xy_eq_iff, EqLaws.feq_iff, layer_iff, hl,
        and_self])

theorem rename (old new old' new' : Str) {a b : Elem F} (h : Elem.eq a b = true) :
    Elem.eq (Module.renameNetElem old new a) (Module.renameNetElem old' new' b) = true := by
  rcases elem_cases h with ⟨t, u, rfl, rfl, _⟩ | ⟨p, q, rfl, rfl, hh⟩ | ⟨p, l, rfl, rfl, _⟩ |
    ⟨p, l, rfl, rfl, _⟩ | ⟨p, l, rfl, rfl, _⟩ | ⟨p, l, rfl, rfl, _⟩ | ⟨p, l, rfl, rfl, _⟩ | ⟨rfl, h2⟩
  · exact h
  · exact (pad_iff _ _).2 ((pad_iff _ _).1 hh)
  · exact h
  · exact h
  · exact h
  · exact h
  · exact h
  · cases a <;> first | exact h2.elim | exact refl _

omit [Flt F] [EqLaws F] in
theorem setRef_text (r s : Str) (t : FpText F) : ∃ u : FpText F, Module.setReferenceElem r s (.text t) = .text u ∧
    u.name = t.name ∧ (¬ isDesignator t → u = t) := by
  simp only [Module.setReferenceElem]
  split
  · rename_i hh
    exact ⟨_, rfl, rfl, fun hn => absurd (Or.inl hh.1) hn⟩
  · exact ⟨t, rfl, rfl, fun _ => rfl⟩

theorem setRef (r s r' s' : Str) {a b : Elem F} (h : Elem.eq a b = true) :
    Elem.eq (Module.setReferenceElem r s a) (Module.setReferenceElem r' s' b) = true := by
  rcases elem_cases h with ⟨t, u, rfl, rfl, hh⟩ | ⟨p, q, rfl, rfl, _⟩ | ⟨p, l, rfl, rfl, _⟩ |
    ⟨p, l, rfl, rfl, _⟩ | ⟨p, l, rfl, rfl, _⟩ | ⟨p, l, rfl, rfl, _⟩ | ⟨p, l, rfl, rfl, _⟩ | ⟨rfl, h2⟩
  · obtain ⟨t1, e1, n1, k1⟩ := setRef_text r s t
    obtain ⟨u1, e2, n2, k2⟩ := setRef_text r' s' u
    rw [e1, e2]
    rw [text_iff] at hh
    by_cases hd : isDesignator t
    · refine (text_iff _ _).2 ⟨by rw [n1, n2, hh.1], Or.inl ?_⟩
      simpa [isDesignator, n1] using hd
    · have hu : ¬ isDesignator u := by simpa [isDesignator, hh.1] using hd
      rw [k1 hd, k2 hu]
      exact (text_iff _ _).2 hh
  · exact h
  · exact h
  · exact h
  · exact h
  · exact h
  · exact h
  · cases a <;> first | exact h2.elim | exact refl _

/-! ### What equal lists of elements share -/

theorem firstAt_eq {es es' : List (Elem F)} (h : List.Forall₂ (fun a b => Elem.eq a b = true) es es') :
    Module.firstAt es' = Module.firstAt es := by
  induction h with
  | nil => rfl
  | @cons a b l l' h _ ih =>
    rcases elem_cases h with ⟨t, u, rfl, rfl, _⟩ | ⟨p, q, rfl, rfl, hh⟩ | ⟨p, l, rfl, rfl, _⟩ |
      ⟨p, l, rfl, rfl, _⟩ | ⟨p, l, rfl, rfl, _⟩ | ⟨p, l, rfl, rfl, _⟩ | ⟨p, l, rfl, rfl, _⟩ | ⟨rfl, h2⟩
    all_goals first | exact ih | skip
    cases a <;> first | rfl | exact ih

theorem room {a b : Elem F} (h : Elem.eq a b = true) (hc : Counts a) : SameRoom a b := by
  rcases elem_cases h with ⟨t, u, rfl, rfl, _⟩ | ⟨p, q, rfl, rfl, hh⟩ | ⟨p, l, rfl, rfl, hl⟩ |
    ⟨p, l, rfl, rfl, hl⟩ | ⟨p, l, rfl, rfl, hl⟩ | ⟨p, l, rfl, rfl, hl⟩ | ⟨p, l, rfl, rfl, _⟩ | ⟨rfl, _⟩
  · exact hc.elim
  · rw [pad_iff] at hh
    exact ⟨hh.1.symm, hh.2.2.2.2.1.symm⟩
  · exact ⟨rfl, hl⟩
  · exact ⟨rfl, rfl, hl⟩
  · exact ⟨rfl, rfl, hl⟩
  · exact ⟨rfl, rfl, hl⟩
  · exact hc.elim
  · exact Unite.room_refl _ hc

omit [EqLaws F] in
theorem forall_mem {es es' : List (Elem F)} (h : List.Forall₂ (fun a b => Elem.eq a b = true) es es') :
    (∀ e ∈ es, ∃ e' ∈ es', Elem.eq e e' = true) ∧ (∀ e' ∈ es', ∃ e ∈ es, Elem.eq e e' = true) := by
  induction h with
  | nil => exact ⟨fun e he => (by cases he), fun e he => (by cases he)⟩
  | @cons a b l l' h _ ih =>
    constructor
    · intro e he
      rcases List.mem_cons.1 he with rfl | he
      · exact ⟨b, by simp, h⟩
      · obtain ⟨e', h1, h2⟩ := ih.1 e he
        exact ⟨e', by simp [h1], h2⟩
    · intro e he
      rcases List.mem_cons.1 he with rfl | he
      · exact ⟨a, by simp, h⟩
      · obtain ⟨e', h1, h2⟩ := ih.2 e he
        exact ⟨e', by simp [h1], h2⟩

theorem spot {m m' : Module F} (h : Matching m m') : SameSpot m m' := by
  have hm := forall_mem h.2
  refine ⟨by simp only [Module.at_, firstAt_eq h.2], fun e he hc => ?_, fun e he hc => ?_⟩
  · obtain ⟨e', h1, h2⟩ := hm.1 e he
    exact ⟨e', h1, room h2 hc⟩
  · obtain ⟨e', h1, h2⟩ := hm.2 e he
    exact ⟨e', h1, room ((C25_eq_equivalence (F := F)).2.1 _ _ h2) hc⟩

theorem pads {m m' : Module F} (h : Matching m m') (t : PadType) : HasPad m' t ↔ HasPad m t := by
  have hm := forall_mem h.2
  constructor
  · rintro ⟨p, hp, ht⟩
    obtain ⟨e, h1, h2⟩ := hm.2 _ hp
    cases e <;> simp only [Elem.eq, Bool.false_eq_true] at h2
    exact ⟨_, h1, ((pad_iff _ _).1 h2).2.2.1.trans ht⟩
  · rintro ⟨p, hp, ht⟩
    obtain ⟨e, h1, h2⟩ := hm.1 _ hp
    cases e <;> simp only [Elem.eq, Bool.false_eq_true] at h2
    exact ⟨_, h1, ((pad_iff _ _).1 h2).2.2.1.symm.trans ht⟩

omit [EqLaws F] in
theorem marked {m m' : Module F} (h : Matching m m') : MarkedSmd m' ↔ MarkedSmd m := by
  have hm := forall_mem h.2
  constructor
  · intro hp
    obtain ⟨e, h1, h2⟩ := hm.2 _ hp
    cases e <;> simp only [Elem.eq, Bool.false_eq_true, decide_eq_true_eq] at h2
    subst h2
    exact h1
  · intro hp
    obtain ⟨e, h1, h2⟩ := hm.1 _ hp
    cases e <;> simp only [Elem.eq, Bool.false_eq_true, decide_eq_true_eq] at h2
    subst h2
    exact h1

theorem yard {m m' : Module F} (h : Matching m m') : (courtyard m').length = (courtyard m).length := by
  obtain ⟨n, es⟩ := m
  obtain ⟨n', es'⟩ := m'
  replace h := h.2
  simp only [courtyard]
  simp only at h
  induction h with
  | nil => rfl
  | @cons a b l l' h _ ih =>
    rcases elem_cases h with ⟨t, u, rfl, rfl, _⟩ | ⟨p, q, rfl, rfl, hh⟩ | ⟨p, l, rfl, rfl, _⟩ |
      ⟨p, l, rfl, rfl, hl⟩ | ⟨p, l, rfl, rfl, _⟩ | ⟨p, l, rfl, rfl, _⟩ | ⟨p, l, rfl, rfl, _⟩ | ⟨rfl, h2⟩
    · simpa using ih
    · simpa using ih
    · simpa using ih
    · by_cases hy : p.layer.t = .crtYd
      · simpa [hl, hy] using ih
      · simpa [hl, hy] using ih
    · simpa using ih
    · simpa using ih
    · simpa using ih
    · cases a <;> first | exact h2.elim | simpa using ih

theorem text_some {es es' : List (Elem F)} (h : List.Forall₂ (fun a b => Elem.eq a b = true) es es')
    (n n' w : Str) :
    (Module.getText ⟨n, es⟩ w = none ∧ Module.getText ⟨n', es'⟩ w = none) ∨
    ∃ t u, Module.getText ⟨n, es⟩ w = some t ∧ Module.getText ⟨n', es'⟩ w = some u ∧ t.eq u = true ∧
      t.name = w := by
  induction h with
  | nil => exact Or.inl ⟨rfl, rfl⟩
  | @cons a b l l' h _ ih =>
    rw [getText_cons, getText_cons]
    rcases elem_cases h with ⟨t, u, rfl, rfl, hh⟩ | ⟨p, q, rfl, rfl, hh⟩ | ⟨p, l, rfl, rfl, _⟩ |
      ⟨p, l, rfl, rfl, hl⟩ | ⟨p, l, rfl, rfl, _⟩ | ⟨p, l, rfl, rfl, _⟩ | ⟨p, l, rfl, rfl, _⟩ | ⟨rfl, h2⟩
    · have hn := ((text_iff _ _).1 hh).1
      by_cases hw : t.name = w
      · exact Or.inr ⟨t, u, if_pos hw, if_pos (hn ▸ hw), hh, hw⟩
      · simp only [if_neg hw, if_neg (show ¬ u.name = w from hn ▸ hw)]
        exact ih
    · exact ih
    · exact ih
    · exact ih
    · exact ih
    · exact ih
    · exact ih
    · cases a <;> first | exact h2.elim | exact ih

theorem modText {es es' : List (Elem F)} (h : List.Forall₂ (fun a b => Elem.eq a b = true) es es') (w : Str)
    (f g : FpText F → FpText F) (hf : ∀ t u, t.eq u = true → (f t).eq (g u) = true) :
    List.Forall₂ (fun a b => Elem.eq a b = true) (Module.modText w f es) (Module.modText w g es') := by
  induction h with
  | nil => exact .nil
  | @cons a b l l' h hr ih =>
    rcases elem_cases h with ⟨t, u, rfl, rfl, hh⟩ | ⟨p, q, rfl, rfl, hh⟩ | ⟨p, l, rfl, rfl, _⟩ |
      ⟨p, l, rfl, rfl, hl⟩ | ⟨p, l, rfl, rfl, _⟩ | ⟨p, l, rfl, rfl, _⟩ | ⟨p, l, rfl, rfl, _⟩ | ⟨rfl, h2⟩
    · have hn := ((text_iff _ _).1 hh).1
      by_cases hw : t.name = w
      · simp only [Module.modText, if_pos hw, if_pos (show u.name = w from hn ▸ hw)]
        exact .cons (hf t u hh) hr
      · simp only [Module.modText, if_neg hw, if_neg (show ¬ u.name = w from hn ▸ hw)]
        exact .cons h ih
    · exact .cons h ih
    · exact .cons h ih
    · exact .cons h ih
    · exact .cons h ih
    · exact .cons h ih
    · exact .cons h ih
    · cases a <;> first | exact h2.elim | exact .cons h ih

theorem fixText_eq (cfg : Config F) (v : Str) (l : LayerType) {t u : FpText F} (h : t.eq u = true) :
    (fixText cfg v l t).eq (fixText cfg v l u) = true := by
  rw [text_iff] at h ⊢
  refine ⟨h.1, h.2.imp id fun ⟨_, h2, _, h4, _⟩ => ⟨rfl, h2, rfl, ?_, rfl⟩⟩
  simp only [fixText, h4]

omit [EqLaws F] in
theorem forall_append {a a' b b' : List (Elem F)} (h : List.Forall₂ (fun a b => Elem.eq a b = true) a a')
    (h' : List.Forall₂ (fun a b => Elem.eq a b = true) b b') :
    List.Forall₂ (fun a b => Elem.eq a b = true) (a ++ b) (a' ++ b') := by
  induction h with
  | nil => exact h'
  | cons h _ ih => exact .cons h ih

end Match

/-! ## Theorems -/

/-- Equal footprints stay equal when both are moved, turned or flipped; renaming nets or references,
in one of them or differently in both, cannot be told. -/
theorem C126_handling [EqLaws F] (m m' : Module F) (h : Matching m m') (x y rot : F)
    (a b c d : Str) :
    Matching (m.adjust x y) (m'.adjust x y) ∧ Matching (m.rotate rot) (m'.rotate rot) ∧
    Matching m.flip m'.flip ∧ Matching (m.renameNet a b) (m'.renameNet c d) ∧
    Matching (m.setReference a b) (m'.setReference c d) ∧
    Matching m (m'.renameNet a b) ∧ Matching m (m'.setReference a b) := by
  refine ⟨⟨h.1, Match.forall_map h.2 _ _ fun _ _ => Match.adjust x y⟩,
    ⟨h.1, Match.forall_map h.2 _ _ fun _ _ => Match.rotate rot⟩,
    ⟨h.1, Match.forall_map h.2 _ _ fun _ _ => Match.flip⟩,
    ⟨h.1, Match.forall_map h.2 _ _ fun _ _ => Match.rename a b c d⟩,
    ⟨h.1, Match.forall_map h.2 _ _ fun _ _ => Match.setRef a b c d⟩, ⟨h.1, ?_⟩, ⟨h.1, ?_⟩⟩
  · have := Match.forall_map h.2 id (Module.renameNetElem a b) fun e f he =>
      (C25_eq_equivalence (F := F)).2.2 _ _ _ he (by
        have := Match.rename [] [] a b (Match.refl f)
        refine (C25_eq_equivalence (F := F)).2.2 _ _ _ ?_ this
        cases f <;> first | exact Match.refl _ | exact (Match.pad_iff _ _).2 ((Match.pad_iff _ _).1 (Match.refl (Elem.pad _))))
    rwa [List.map_id] at this
  · have := Match.forall_map h.2 id (Module.setReferenceElem a b) fun e f he =>
      (C25_eq_equivalence (F := F)).2.2 _ _ _ he (by
        have hs := Match.setRef [] [] a b (Match.refl f)
        refine (C25_eq_equivalence (F := F)).2.2 _ _ _ ?_ hs
        cases f with
        | text t =>
          obtain ⟨u, e1, n1, k1⟩ := Match.setRef_text [] [] t
          rw [e1]
          refine (Match.text_iff _ _).2 ⟨n1.symm, ?_⟩
          by_cases hd : isDesignator t
          · exact Or.inl hd
          · rw [k1 hd]
            exact Or.inr ⟨rfl, rfl, rfl, rfl, rfl⟩
        | _ => exact Match.refl _)
    rwa [List.map_id] at this

/-- Equal footprints have the same box. -/
theorem C126_box [OrdLaws F] (m m' : Module F) (h : Matching m m') : m'.bound = m.bound :=
  C125_footprint m m' (Match.spot h)

/-- Fixing equal footprints gives equal footprints; the courtyards drawn are the same. -/
theorem C126_fix [OrdLaws F] (m m' : Module F) (h : Matching m m') (cfg : Config F) :
    Matching (m.fix cfg) (m'.fix cfg) := by
  have hk : List.Forall₂ (fun a b => Elem.eq a b = true) (keptElems cfg m) (keptElems cfg m') := by
    simp only [keptElems, h.1]
    exact Match.modText (Match.modText (Match.modText h.2 _ _ _ fun _ _ => Match.fixText_eq cfg _ _) _ _ _
      fun _ _ => Match.fixText_eq cfg _ _) _ _ _ fun _ _ => Match.fixText_eq cfg _ _
  have ht : addedText cfg m' = addedText cfg m := by
    simp only [addedText]
    rcases Match.text_some h.2 m.name m'.name (str! "user") with ⟨h1, h2⟩ | ⟨t, u, h1, h2, _⟩
    · rw [show m.getText (str! "user") = none from h1, show m'.getText (str! "user") = none from h2]
    · rw [show m.getText (str! "user") = some t from h1, show m'.getText (str! "user") = some u from h2]
      rfl
  have hp : ∀ t, (m'.pads.filter fun p => p.t = t).length = 0 ↔
      (m.pads.filter fun p => p.t = t).length = 0 := by
    intro t
    rw [Blind.pads_zero, Blind.pads_zero, Match.pads h t]
  have ha : addedAttr m' = addedAttr m := by
    have h1 := hp .pth
    have h2 := hp .smd
    have hm : m'.hasSmdAttr = m.hasSmdAttr := by
      rw [Bool.eq_iff_iff, Fp.hasSmdAttr_iff, Fp.hasSmdAttr_iff, Match.marked h]
    simp only [addedAttr, pthCount, smdCount, gt_iff_lt, Nat.pos_iff_ne_zero, ne_eq, h1, h2, hm]
  have hl : addedLines m' = addedLines m := by
    have hc : courtyardCount m' = courtyardCount m := by
      rw [Fp.courtyardCount_eq, Fp.courtyardCount_eq, Match.yard h]
    simp only [addedLines, hc, courtyardLines, courtyardBox, courtyardOffset, C126_box m m' h,
      (Match.spot h).1, h.1]
  rw [fix_eq, fix_eq, ht, ha, hl]
  exact ⟨h.1, Match.forall_append (Match.forall_append (Match.forall_append hk (Match.forall_refl _))
    (Match.forall_refl _)) (Match.forall_refl _)⟩

/-- Equal footprints whose references and values look the same have the same findings. -/
theorem C126_findings [OrdLaws F] (m m' : Module F) (h : Matching m m') (cfg : Config F)
    (hd : ∀ w ∈ [str! "reference", str! "value"],
      (textsNamed m' w).head?.map lookOf = (textsNamed m w).head?.map lookOf) :
    m'.check cfg = m.check cfg := by
  refine C124_footprint m m' ⟨h.1, fun w hw => ?_, by rw [Match.yard h], Match.pads h _, Match.pads h _,
    Match.marked h⟩ cfg
  simp only [List.mem_cons, List.not_mem_nil, or_false] at hw
  rcases hw with rfl | rfl | rfl
  · exact hd _ (by simp)
  · exact hd _ (by simp)
  · rw [← Fp.getText_eq, ← Fp.getText_eq]
    rcases Match.text_some h.2 m.name m'.name (str! "user") with ⟨h1, h2⟩ | ⟨t, u, h1, h2, h3, h4⟩
    · rw [show m.getText (str! "user") = none from h1, show m'.getText (str! "user") = none from h2]
    · rw [show m.getText (str! "user") = some t from h1, show m'.getText (str! "user") = some u from h2]
      obtain ⟨_, h5 | ⟨h5, h6, h7, h8, h9⟩⟩ := (Match.text_iff _ _).1 h3
      · simp only [isDesignator, h4] at h5
        exact absurd h5 (by decide)
      · simp only [Option.map_some, lookOf, h5, h7, h8, h9]

/-- Once fixed, equal footprints have the same findings, whatever references and values looked like. -/
theorem C126_fixed_findings [OrdLaws F] (m m' : Module F) (h : Matching m m') (cfg : Config F) :
    (m'.fix cfg).check cfg = (m.fix cfg).check cfg := by
  refine C126_findings _ _ (C126_fix m m' h cfg) cfg fun w hw => ?_
  rw [← Fp.getText_eq, ← Fp.getText_eq]
  have key : ∀ (v : Str) (l : LayerType), ((m'.getText w).map (fixText cfg v l)).map lookOf =
      ((m.getText w).map (fixText cfg v l)).map lookOf := by
    intro v l
    rcases Match.text_some h.2 m.name m'.name w with ⟨h1, h2⟩ | ⟨t, u, h1, h2, _⟩
    · rw [show m.getText w = none from h1, show m'.getText w = none from h2]
    · rw [show m.getText w = some t from h1, show m'.getText w = some u from h2]
      rfl
  simp only [List.mem_cons, List.not_mem_nil, or_false] at hw
  rcases hw with rfl | rfl
  · rw [Fp.getText_fix, Fp.getText_fix, if_pos rfl, if_pos rfl]
    exact key _ _
  · have hv : ∀ k : Module F, (k.fix cfg).getText (str! "value") =
        (k.getText (str! "value")).map (fixText cfg k.name .fab) := by
      intro k
      rw [Fp.getText_fix, if_neg (by decide), if_pos rfl]
    rw [hv, hv, h.1]
    exact key _ _

/-! ### Cases -/

/-- A footprint and the same one with another net and another reference compare equal. -/
example : Matching Spec.carelessFootprint
    (((Spec.carelessFootprint : Module Nm).renameNet (str! "GND") (str! "VCC")).setReference (str! "REF**")
      (str! "R7")) ∧
    ((Spec.carelessFootprint : Module Nm).renameNet (str! "GND") (str! "VCC")).setReference (str! "REF**")
      (str! "R7") ≠ Spec.carelessFootprint :=
  ⟨(C126_handling _ _ ((C126_handling _ _ ⟨rfl, Match.forall_refl _⟩ Flt.zero Flt.zero Flt.zero (str! "GND") (str! "VCC")
    [] []).2.2.2.2.2.1) Flt.zero Flt.zero Flt.zero (str! "REF**") (str! "R7") [] []).2.2.2.2.2.2, by decide⟩

/-- Before fixing, footprints that compare equal can have different findings. -/
example : ∃ m m' : Module Nm, Matching m m' ∧ m'.check Config.klc ≠ m.check Config.klc ∧
    (m'.fix Config.klc).check Config.klc = (m.fix Config.klc).check Config.klc := by
  have h : Matching (F := Nm) ⟨str! "R", [.text (FpText.new (str! "reference") (str! "R1"))]⟩
      ⟨str! "R", [.text (FpText.new (str! "reference") (str! "REF**"))]⟩ := ⟨rfl, .cons (by decide) .nil⟩
  exact ⟨_, _, h, fun e => absurd (congrArg List.length e) (by decide), C126_fixed_findings _ _ h _⟩

end Verif
