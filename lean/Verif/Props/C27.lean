import Verif.Spec.FootprintCheck
import Verif.Lemmas.FpCheck
import Verif.Basic.Nm
/-!
# C27: checking a footprint, and checking it after fixing it
-/

namespace Verif
open Flt Fp Spec

variable {F : Type}

theorem Fp.getText_eq (m : Module F) (w : Str) : m.getText w = (textsNamed m w).head? := by
  obtain ⟨n, es⟩ := m
  induction es with
  | nil => rfl
  | cons e es ih =>
    rw [getText_cons]
    cases e with
    | text t => by_cases h : t.name = w <;> simp_all [textsNamed]
    | _ => simp_all [textsNamed]

theorem Fp.hasSmdAttr_iff (m : Module F) : m.hasSmdAttr = true ↔ MarkedSmd m := by
  simp only [Module.hasSmdAttr, List.any_eq_true, MarkedSmd]
  constructor
  · rintro ⟨e, he, h⟩
    cases e <;> simp_all
  · exact fun h => ⟨_, h, by simp⟩

theorem Fp.padCount_pos (m : Module F) (t : PadType) :
    0 < (m.pads.filter fun p => p.t = t).length ↔ HasPad m t := by
  simp only [List.length_pos_iff_exists_mem, List.mem_filter, decide_eq_true_eq, Module.pads,
    List.mem_filterMap, HasPad]
  constructor
  · rintro ⟨p, ⟨e, he, h⟩, ht⟩
    cases e <;> simp_all
    exact ⟨_, he, ht⟩
  · rintro ⟨p, he, ht⟩
    exact ⟨p, ⟨_, he, rfl⟩, ht⟩

theorem Fp.courtyardCount_eq (m : Module F) : courtyardCount m = (courtyard m).length := by
  obtain ⟨n, es⟩ := m
  simp only [courtyardCount, courtyard, Module.lines]
  induction es with
  | nil => rfl
  | cons e es ih =>
    cases e with
    | line l => by_cases h : l.layer.t = .crtYd <;> simp [h, ih]
    | _ => simpa using ih

variable [Flt F]

theorem Fp.when_nil (c : Bool) (d : CheckFixData) : when_ c d = [] ↔ c = false := by
  cases c <;> simp [when_]

theorem Fp.differs_iff [OrdLaws F] (a b : F) : differs a b = false ↔ Near a b := by
  simp [differs, Near, OrdLaws.lt_eq]

/-- The check reports nothing exactly for the footprints that satisfy all
rules. -/
theorem C27_check_clean_iff [OrdLaws F] (m : Module F) (cfg : Config F) :
    m.check cfg = [] ↔
      ReferenceRule cfg m ∧ ValueRule cfg m ∧ Reference2Rule cfg m ∧
      4 ≤ (courtyard m).length ∧ PlacementRule m := by
  have h1 : checkReference cfg m.name (m.getText (str! "reference")) = [] ↔ ReferenceRule cfg m := by
    rw [Fp.getText_eq]
    unfold ReferenceRule Lettering
    cases (textsNamed m (str! "reference")).head? <;>
      simp [checkReference, Fp.when_nil, Fp.differs_iff]
  have h2 : checkValue cfg m.name (m.getText (str! "value")) = [] ↔ ValueRule cfg m := by
    rw [Fp.getText_eq]
    unfold ValueRule Lettering
    cases (textsNamed m (str! "value")).head? <;>
      simp [checkValue, Fp.when_nil, Fp.differs_iff]
  have h3 : checkReference2 cfg m.name (m.getText (str! "user")) = [] ↔ Reference2Rule cfg m := by
    rw [Fp.getText_eq]
    unfold Reference2Rule Lettering
    cases (textsNamed m (str! "user")).head? <;>
      simp [checkReference2, Fp.when_nil, Fp.differs_iff]
  have h4 : checkPlacement m = [] ↔ PlacementRule m := by
    have s := Fp.padCount_pos m .smd
    have p := Fp.padCount_pos m .pth
    have a := Fp.hasSmdAttr_iff m
    change 0 < smdCount m ↔ _ at s
    change 0 < pthCount m ↔ _ at p
    simp only [checkPlacement, PlacementRule, ← s, ← p, ← a]
    rcases hx : smdCount m with _ | x <;> rcases hy : pthCount m with _ | y <;>
      cases m.hasSmdAttr <;> simp [when_]
  simp only [Module.check, List.append_eq_nil_iff, h1, h2, h3, h4, Fp.when_nil,
    Fp.courtyardCount_eq, decide_eq_false_iff_not, Nat.not_lt, and_assoc]

/-- After fixing, exactly these findings remain: a missing reference, a missing
value, and a through-hole footprint marked as surface-mount. -/
theorem C27_check_after_fix [MonoLaws F] (m : Module F) (cfg : Config F) :
    ∃ r v p : List CheckFixData, (m.fix cfg).check cfg = r ++ v ++ p ∧
      (r = [] ∨ (textsNamed m (str! "reference") = [] ∧
        r = [.new 7 3 m.name (str! "reference missing")])) ∧
      (v = [] ∨ (textsNamed m (str! "value") = [] ∧
        v = [.new 7 4 m.name (str! "value missing")])) ∧
      (p = [] ∨ (HasPad m .pth ∧ ¬ HasPad m .smd ∧ MarkedSmd m ∧
        p = [.new 9 1 m.name
          (str! "SMD components need to have placement Smd (Normal+Insert in Properties)")])) := by
  have hn : (m.fix cfg).name = m.name := by rw [fix_eq]
  have hp : pthCount (m.fix cfg) = pthCount m := by rw [pthCount, pads_fix]; rfl
  have hs : smdCount (m.fix cfg) = smdCount m := by rw [smdCount, pads_fix]; rfl
  have s := Fp.padCount_pos m .smd
  have p := Fp.padCount_pos m .pth
  change 0 < smdCount m ↔ _ at s
  change 0 < pthCount m ↔ _ at p
  have a := Fp.hasSmdAttr_iff m
  refine ⟨checkReference cfg m.name ((m.fix cfg).getText (str! "reference")),
    checkValue cfg m.name ((m.fix cfg).getText (str! "value")), checkPlacement (m.fix cfg),
    ?_, ?_, ?_, ?_⟩
  · have h2 : checkReference2 cfg m.name ((m.fix cfg).getText (str! "user")) = [] := by
      rw [getText_fix]
      cases m.getText (str! "user") <;>
        simp [checkReference2, newReference2, fixText, differs_self, when_]
    have h3 : ¬ courtyardCount (m.fix cfg) < 4 := by
      rw [courtyardCount_fix]; split <;> omega
    rw [Module.check, hn, h2, decide_eq_false h3]
    simp [when_]
  · rw [getText_fix, Fp.getText_eq]
    rcases hl : textsNamed m (str! "reference") with _ | ⟨t, l⟩
    · right; simp [checkReference]
    · left; simp [checkReference, fixText, differs_self, when_]
  · rw [getText_fix, if_neg (by decide), Fp.getText_eq]
    rcases hl : textsNamed m (str! "value") with _ | ⟨t, l⟩
    · right; simp [checkValue]
    · left; simp [checkValue, fixText, differs_self, when_]
  · simp only [checkPlacement, hp, hs, attr_fix, hn, ← s, ← p, ← a]
    rcases hx : smdCount m with _ | x <;> rcases hy : pthCount m with _ | y <;>
      cases m.hasSmdAttr <;> simp [when_, placementMsg]

/-- In particular the check is clean after fixing a footprint that has a
reference and a value text and is not a through-hole footprint marked as
surface-mount. -/
theorem C27_fix_cleans [MonoLaws F] (m : Module F) (cfg : Config F)
    (hr : textsNamed m (str! "reference") ≠ []) (hv : textsNamed m (str! "value") ≠ [])
    (hp : ¬ (HasPad m .pth ∧ ¬ HasPad m .smd ∧ MarkedSmd m)) :
    (m.fix cfg).check cfg = [] := by
  obtain ⟨r, v, p, h, h1, h2, h3⟩ := C27_check_after_fix m cfg
  have e1 : r = [] := h1.elim id fun x => absurd x.1 hr
  have e2 : v = [] := h2.elim id fun x => absurd x.1 hv
  have e3 : p = [] := h3.elim id fun x => absurd ⟨x.1, x.2.1, x.2.2.1⟩ hp
  rw [h, e1, e2, e3]; rfl

/-- The condition is needed: without it the check always complains. -/
theorem C27_fix_cleans_only [OrdLaws F] (m : Module F) (cfg : Config F)
    (h : (m.fix cfg).check cfg = []) :
    textsNamed m (str! "reference") ≠ [] ∧ textsNamed m (str! "value") ≠ [] := by
  simp only [Module.check, List.append_eq_nil_iff] at h
  obtain ⟨⟨⟨⟨h1, h2⟩, _⟩, _⟩, _⟩ := h
  rw [getText_fix, Fp.getText_eq] at h1
  rw [getText_fix, if_neg (by decide), Fp.getText_eq] at h2
  constructor
  · intro h; simp [h, checkReference] at h1
  · intro h; simp [h, checkValue] at h2

example : ∃ m : Module Nm, textsNamed m (str! "reference") ≠ [] ∧ textsNamed m (str! "value") ≠ [] ∧
    ¬ (HasPad m .pth ∧ ¬ HasPad m .smd ∧ MarkedSmd m) ∧
    8 ≤ (m.check Config.klc).length ∧ ((m.fix Config.klc).check Config.klc).length = 0 := by
  refine ⟨⟨str! "R0805", [.text (FpText.new (str! "reference") (str! "R1")),
    .text (FpText.new (str! "value") (str! "1k")), .pad (Pad.new (str! "1") .smd .rect)]⟩,
    by decide, by decide, ?_, by decide, by decide⟩
  rintro ⟨_, h, _⟩
  exact h ⟨Pad.new (str! "1") .smd .rect, by decide, rfl⟩

end Verif
