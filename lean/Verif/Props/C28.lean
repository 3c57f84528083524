import Verif.Lemmas.FpCheck
import Verif.Basic.Nm
/-!
# C28: fixing a footprint twice
-/

namespace Verif
open Flt Fp

variable {F : Type}

theorem Fp.modText_fixed (w : Str) (f : FpText F → FpText F) (es : List (Elem F))
    (h : ∀ t, Module.getText ⟨[], es⟩ w = some t → f t = t) : Module.modText w f es = es := by
  induction es with
  | nil => rfl
  | cons e es ih =>
    rw [getText_cons] at h
    cases e with
    | text t =>
      by_cases h1 : t.name = w
      · simp only [h1, if_true, Option.some.injEq, forall_eq'] at h
        simp [Module.modText, h1, h]
      · simp only [h1, if_false] at h
        simp [Module.modText, h1, ih h]
    | _ => simp only at h; simp [Module.modText, ih h]

variable [Flt F]

/-- Fixing a second time changes nothing, for any footprint and any
configuration. -/
theorem C28_fix_idempotent (m : Module F) (cfg : Config F) : (m.fix cfg).fix cfg = m.fix cfg := by
  have hn : (m.fix cfg).name = m.name := by rw [fix_eq]
  have hp : pthCount (m.fix cfg) = pthCount m := by rw [pthCount, pads_fix]; rfl
  have hs : smdCount (m.fix cfg) = smdCount m := by rw [smdCount, pads_fix]; rfl
  have g := getText_fix cfg m
  have k1 : keptElems cfg (m.fix cfg) = (m.fix cfg).elements := by
    have r : Module.modText (str! "reference") (fixText cfg (str! "REF**") .silkS)
        (m.fix cfg).elements = (m.fix cfg).elements := by
      apply Fp.modText_fixed
      intro t ht
      rw [getText_elements, g, if_pos rfl] at ht
      cases h : m.getText (str! "reference") <;> simp [h] at ht
      subst ht; rfl
    have v : Module.modText (str! "value") (fixText cfg (m.fix cfg).name .fab)
        (m.fix cfg).elements = (m.fix cfg).elements := by
      apply Fp.modText_fixed
      intro t ht
      rw [getText_elements, g, if_neg (by decide), if_pos rfl] at ht
      cases h : m.getText (str! "value") <;> simp [h] at ht
      subst ht; rw [hn]; rfl
    have u : Module.modText (str! "user") (fixText cfg (str! "%R") .fab)
        (m.fix cfg).elements = (m.fix cfg).elements := by
      apply Fp.modText_fixed
      intro t ht
      rw [getText_elements, g, if_neg (by decide), if_neg (by decide), if_pos rfl] at ht
      cases h : m.getText (str! "user") <;> simp [h] at ht <;> subst ht <;> rfl
    rw [keptElems, r, v, u]
  have k2 : addedText cfg (m.fix cfg) = [] := by
    have : (m.fix cfg).getText (str! "user") ≠ none := by
      rw [g, if_neg (by decide), if_neg (by decide), if_pos rfl]; simp
    simp [addedText, this]
  have k3 : addedAttr (m.fix cfg) = [] := by
    rw [addedAttr, hp, hs, attr_fix]
    rw [if_neg]
    rintro ⟨h1, h2, h3⟩
    simp [h1, h2] at h3
  have k4 : addedLines (m.fix cfg) = [] := by
    rw [addedLines, courtyardCount_fix, if_neg]
    split <;> omega
  rw [fix_eq cfg (m.fix cfg), k1, k2, k3, k4]
  simp

example : ∃ m : Module Nm, m.fix Config.klc ≠ m :=
  ⟨⟨str! "R0805", [.text (FpText.new (str! "reference") (str! "R1")),
    .text (FpText.new (str! "value") (str! "1k")), .pad (Pad.new (str! "1") .smd .rect)]⟩, by decide⟩

/-- A footprint with a clean check is only changed within the float tolerance:
the check being clean, `fix` adds no element. -/
theorem C28_fix_adds_nothing (m : Module F) (cfg : Config F) (h : m.check cfg = []) :
    (m.fix cfg).elements.length = m.elements.length := by
  simp only [Module.check, List.append_eq_nil_iff] at h
  obtain ⟨⟨⟨⟨h1, h2⟩, h3⟩, h4⟩, h5⟩ := h
  have len : ∀ (w : Str) (f : FpText F → FpText F) (es : List (Elem F)),
      (Module.modText w f es).length = es.length := by
    intro w f es
    induction es with
    | nil => rfl
    | cons e es ih =>
      cases e with
      | text t => by_cases h : t.name = w <;> simp [Module.modText, h, ih]
      | _ => simp [Module.modText, ih]
  have k2 : addedText cfg m = [] := by
    rw [addedText]
    cases h : m.getText (str! "user")
    · rw [h] at h3; simp [checkReference2] at h3
    · rfl
  have k3 : addedAttr m = [] := by
    rw [addedAttr, if_neg]
    rintro ⟨a, b, c⟩
    rw [checkPlacement, if_pos ⟨a, b⟩, c] at h5
    simp [when_] at h5
  have k4 : addedLines m = [] := by
    rw [addedLines, if_neg]
    intro h
    rw [decide_eq_true h] at h4
    simp [when_] at h4
  rw [fix_eq, k2, k3, k4]
  simp [keptElems, len]

end Verif
