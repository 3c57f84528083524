import Verif.Props.C27
import Verif.Basic.Nm
/-!
# C29: fixing a footprint keeps its other content
-/

namespace Verif
open Flt Fp

variable {F : Type} [Flt F]

namespace Spec

/-- The same text, except for what the style rules prescribe: shown value, layer
type, visibility, character size and line thickness. -/
def SameButStyle (t t' : FpText F) : Prop :=
  t'.name = t.name ∧ t'.at_ = t.at_ ∧ t'.layer.side = t.layer.side ∧
  t'.effects.justify = t.effects.justify ∧ t'.effects.font.italic = t.effects.font.italic ∧
  t'.effects.font.size.t = t.effects.font.size.t

/-- The texts the style rules are about. -/
def Governed (name : Str) : Prop :=
  name = str! "reference" ∨ name = str! "value" ∨ name = str! "user"

/-- Element `i` is the first text with its name. -/
def FirstOfName (es : List (Elem F)) (i : Nat) (t : FpText F) : Prop :=
  es[i]? = some (.text t) ∧ ∀ (j : Nat) (t' : FpText F), j < i → es[j]? = some (.text t') →
    t'.name ≠ t.name

end Spec
open Spec

theorem Fp.modText_getElem (w : Str) (f : FpText F → FpText F) (es : List (Elem F)) :
    (Module.modText w f es).length = es.length ∧
    ∀ (i : Nat) (e : Elem F), es[i]? = some e →
      (Module.modText w f es)[i]? = some e ∨
      ∃ t, e = .text t ∧ t.name = w ∧ FirstOfName es i t ∧
        (Module.modText w f es)[i]? = some (.text (f t)) := by
  induction es with
  | nil => simp [Module.modText]
  | cons e es ih =>
    cases e with
    | text t =>
      by_cases h : t.name = w
      · refine ⟨by simp [Module.modText, h], ?_⟩
        rintro (_ | i) e he
        · right
          simp only [List.getElem?_cons_zero, Option.some.injEq] at he
          refine ⟨t, he.symm, h, ⟨rfl, by simp⟩, by simp [Module.modText, h]⟩
        · left; simpa [Module.modText, h] using he
      · refine ⟨by simp [Module.modText, h, ih.1], ?_⟩
        rintro (_ | i) e he
        · left; simpa [Module.modText, h] using he
        · rcases ih.2 i e (by simpa using he) with h1 | ⟨t', h1, h2, h3, h4⟩
          · left; simpa [Module.modText, h] using h1
          · right
            refine ⟨t', h1, h2, ⟨by simpa using h3.1, ?_⟩, by simpa [Module.modText, h] using h4⟩
            rintro (_ | j) u hj hu
            · simp only [List.getElem?_cons_zero, Option.some.injEq, Elem.text.injEq] at hu
              subst hu; rw [h2]; exact h
            · exact h3.2 j u (by omega) (by simpa using hu)
    | _ =>
      refine ⟨by simp [Module.modText, ih.1], ?_⟩
      rintro (_ | i) e he
      · left; simpa [Module.modText] using he
      · rcases ih.2 i e (by simpa using he) with h1 | ⟨t', h1, h2, h3, h4⟩
        · left; simpa [Module.modText] using h1
        · right
          refine ⟨t', h1, h2, ⟨by simpa using h3.1, ?_⟩, by simpa [Module.modText] using h4⟩
          rintro (_ | j) u hj hu
          · simp at hu
          · exact h3.2 j u (by omega) (by simpa using hu)

/-- What one call of `modText` with a style correction does. -/
theorem Fp.kept_step (w : Str) (hw : Governed w) (f : FpText F → FpText F)
    (hf : ∀ t, SameButStyle t (f t)) (orig es : List (Elem F)) (hl : es.length = orig.length)
    (h : ∀ (i : Nat) (e : Elem F), orig[i]? = some e → ∃ e', es[i]? = some e' ∧
      (e' = e ∨ ∃ t t', e = .text t ∧ e' = .text t' ∧ SameButStyle t t' ∧ Governed t.name ∧
        FirstOfName orig i t)) :
    (Module.modText w f es).length = orig.length ∧
    ∀ (i : Nat) (e : Elem F), orig[i]? = some e → ∃ e', (Module.modText w f es)[i]? = some e' ∧
      (e' = e ∨ ∃ t t', e = .text t ∧ e' = .text t' ∧ SameButStyle t t' ∧ Governed t.name ∧
        FirstOfName orig i t) := by
  obtain ⟨g1, g2⟩ := Fp.modText_getElem w f es
  refine ⟨g1.trans hl, fun i e he => ?_⟩
  obtain ⟨e', he', h1⟩ := h i e he
  rcases g2 i e' he' with h2 | ⟨t, h2, h3, h4, h5⟩
  · exact ⟨e', h2, h1⟩
  · refine ⟨_, h5, Or.inr ?_⟩
    subst h2
    -- the text at `i` in the current list comes from a text with the same name
    have key : ∃ t0, e = .text t0 ∧ SameButStyle t0 t := by
      rcases h1 with h1 | ⟨t0, t', ha, hb, hc, _⟩
      · exact ⟨t, h1.symm, ⟨rfl, rfl, rfl, rfl, rfl, rfl⟩⟩
      · rw [Elem.text.injEq] at hb; subst hb; exact ⟨t0, ha, hc⟩
    obtain ⟨t0, rfl, hs⟩ := key
    have hft := hf t
    refine ⟨t0, f t, rfl, rfl, ⟨hft.1.trans hs.1, hft.2.1.trans hs.2.1, hft.2.2.1.trans hs.2.2.1,
      hft.2.2.2.1.trans hs.2.2.2.1, hft.2.2.2.2.1.trans hs.2.2.2.2.1,
      hft.2.2.2.2.2.trans hs.2.2.2.2.2⟩, by rw [← hs.1, h3]; exact hw, he, ?_⟩
    intro j t' hj ht'
    obtain ⟨e'', he'', hh⟩ := h j _ ht'
    rcases hh with rfl | ⟨u, u', hu, rfl, hs', _⟩
    · rw [← hs.1]; exact h4.2 j t' hj he''
    · rw [Elem.text.injEq] at hu; subst hu
      rw [← hs.1, ← hs'.1]; exact h4.2 j u' hj he''

theorem Fp.kept_of_fix (m : Module F) (cfg : Config F) :
    (m.fix cfg).elements = keptElems cfg m ++ (addedText cfg m ++ addedAttr m ++ addedLines m) ∧
    (keptElems cfg m).length = m.elements.length ∧
      ∀ (i : Nat) (e : Elem F), m.elements[i]? = some e → ∃ e', (keptElems cfg m)[i]? = some e' ∧
        (e' = e ∨ ∃ t t', e = .text t ∧ e' = .text t' ∧ SameButStyle t t' ∧ Governed t.name ∧
          FirstOfName m.elements i t) := by
  have hf : ∀ v l, ∀ t : FpText F, SameButStyle t (fixText cfg v l t) :=
    fun _ _ _ => ⟨rfl, rfl, rfl, rfl, rfl, rfl⟩
  refine ⟨by rw [fix_eq]; simp, ?_⟩
  have s1 := Fp.kept_step (str! "reference") (Or.inl rfl) _ (hf (str! "REF**") .silkS) m.elements
    m.elements rfl (fun i e he => ⟨e, he, Or.inl rfl⟩)
  have s2 := Fp.kept_step (str! "value") (Or.inr (Or.inl rfl)) _ (hf m.name .fab) m.elements _ s1.1 s1.2
  exact Fp.kept_step (str! "user") (Or.inr (Or.inr rfl)) _ (hf (str! "%R") .fab) m.elements _ s2.1 s2.2

/-- Fixing keeps the footprint name and every element in its place; only the
first reference, the first value and the first user text change, and only in
their styling.  Everything else `fix` does is to append elements. -/
theorem C29_fix_keeps (m : Module F) (cfg : Config F) :
    (m.fix cfg).name = m.name ∧
    ∃ kept added, (m.fix cfg).elements = kept ++ added ∧ kept.length = m.elements.length ∧
      ∀ (i : Nat) (e : Elem F), m.elements[i]? = some e → ∃ e', kept[i]? = some e' ∧
        (e' = e ∨ ∃ t t', e = .text t ∧ e' = .text t' ∧ SameButStyle t t' ∧ Governed t.name ∧
          FirstOfName m.elements i t) :=
  ⟨by rw [fix_eq], _, _, (Fp.kept_of_fix m cfg)⟩

/-- What is appended: a visible `%R` text in the prescribed style at the origin on the
front fabrication layer if there is no user text, the placement mark
of a pure surface-mount footprint that lacks it, and four courtyard lines if
there are fewer than four. -/
theorem C29_fix_adds (m : Module F) (cfg : Config F) :
    ∃ a b c : List (Elem F), (m.fix cfg).elements.drop m.elements.length = a ++ b ++ c ∧
      (∀ e ∈ a, e = .text ⟨str! "user", str! "%R", ⟨zero, zero, zero⟩, ⟨.front, .fab⟩,
        ⟨⟨⟨cfg.fontSize, cfg.fontSize, .xy⟩, cfg.fontThickness, false⟩, none⟩, false⟩) ∧
      (∀ e ∈ b, e = .attr (str! "smd")) ∧
      (∀ e ∈ c, ∃ l, e = .line l ∧ l.layer = ⟨.front, .crtYd⟩) ∧
      a.length = (if textsNamed m (str! "user") = [] then 1 else 0) ∧ b.length ≤ 1 ∧
      (b ≠ [] ↔ HasPad m .smd ∧ ¬ HasPad m .pth ∧ ¬ MarkedSmd m) ∧
      c.length = (if (courtyard m).length < 4 then 4 else 0) := by
  obtain ⟨_, hk, _⟩ := Fp.kept_of_fix m cfg
  refine ⟨addedText cfg m, addedAttr m, addedLines m, ?_, ?_, ?_, ?_, ?_, ?_, ?_, ?_⟩
  · rw [fix_eq, List.append_assoc, List.append_assoc, ← hk, List.drop_left, List.append_assoc]
  · intro e he
    simp only [addedText] at he
    split at he
    · rw [List.mem_singleton] at he; exact he
    · simp at he
  · intro e he
    simp only [addedAttr] at he
    split at he
    · rwa [List.mem_singleton] at he
    · simp at he
  · intro e he
    simp only [addedLines, courtyardLines] at he
    split at he
    · simp only [List.mem_cons, List.not_mem_nil, or_false] at he
      rcases he with rfl | rfl | rfl | rfl <;> exact ⟨_, rfl, rfl⟩
    · simp at he
  · simp only [addedText, Fp.getText_eq]
    cases textsNamed m (str! "user") <;> simp
  · simp only [addedAttr]; split <;> simp
  · rw [← Fp.hasSmdAttr_iff, ← Fp.padCount_pos, ← Fp.padCount_pos]
    change _ ↔ 0 < smdCount m ∧ ¬ 0 < pthCount m ∧ _
    simp only [addedAttr]
    cases m.hasSmdAttr <;> rcases smdCount m with _ | x <;> rcases pthCount m with _ | y <;> simp
  · rw [← Fp.courtyardCount_eq]
    simp only [addedLines]
    split <;> rfl

example : ∃ m : Module Nm, (m.fix Config.klc).elements.drop m.elements.length ≠ [] ∧
    m.elements.length = 3 :=
  ⟨⟨str! "R0805", [.text (FpText.new (str! "reference") (str! "R1")),
    .text (FpText.new (str! "value") (str! "1k")), .pad (Pad.new (str! "1") .smd .rect)]⟩, by decide⟩

end Verif
