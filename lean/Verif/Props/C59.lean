import Verif.Spec.Edits
import Verif.Props.C19
import Verif.Props.C27
import Verif.Props.C28
/-!
# C59: editing a footprint, then saving and reading it
-/

namespace Verif
open Flt Fp Spec

variable {F : Type} [Flt F]

/-- An element that can be saved and has no unsavable text. -/
def Fp.Fine (e : Elem F) : Prop := GoodElem e ∧ ∀ s ∈ strings e, Clean s

theorem Fp.Layer.flip_good {l : Layer} (h : GoodLayer l) : GoodLayer l.flip := h

theorem Fp.fine_flip {e : Elem F} (h : Fine e) : Fine e.flip := by
  obtain ⟨h1, h2⟩ := h
  cases e with
  | pad p =>
    obtain ⟨a, b, c, d⟩ := h1
    refine ⟨⟨a, b, fun l hl => ?_, d⟩, fun s hs => h2 s ?_⟩
    · obtain ⟨l', h', rfl⟩ := List.mem_map.1 hl
      exact Fp.Layer.flip_good (c l' h')
    · simpa [strings, Elem.flip, Pad.flip, List.flatMap_map, layerStrings, Layer.flip] using hs
  | _ => exact ⟨h1, h2⟩

theorem Fp.fine_rotate {e : Elem F} (r : F) (h : Fine e) : Fine (e.rotate r) := by
  cases e <;> exact h

theorem Fp.fine_adjust {e : Elem F} (x y : F) (h : Fine e) : Fine (Module.adjustElem x y e) := by
  cases e <;> exact h

theorem Fp.fine_setReference {e : Elem F} (a b : Str) (hb : Clean b) (h : Fine e) :
    Fine (Module.setReferenceElem a b e) := by
  cases e with
  | text t =>
    simp only [Module.setReferenceElem]
    split
    · refine ⟨h.1, fun s hs => ?_⟩
      simp only [strings, List.mem_cons] at hs
      rcases hs with hs | hs | hs
      · exact h.2 s (by simp [strings, hs])
      · rw [hs]; exact hb
      · exact h.2 s (by simp [strings, hs])
    · exact h
  | _ => exact h

theorem Fp.fine_renameNet {e : Elem F} (a b : Str) (hb : Clean b) (h : Fine e) :
    Fine (Module.renameNetElem a b e) := by
  cases e with
  | pad p =>
    obtain ⟨⟨a1, a2, a3, a4, a5⟩, h2⟩ := h
    simp only [Module.renameNetElem, Pad.renameNet]
    rcases hn : p.net with _ | n
    · refine ⟨⟨a1, a2, a3, by simp, a5⟩, fun s hs => h2 s ?_⟩
      simp only [strings] at hs ⊢
      rw [hn]; exact hs
    · simp only
      split
      · refine ⟨⟨a1, a2, a3, ?_, a5⟩, fun s hs => ?_⟩
        · rintro n' hn'
          simp only [Option.some.injEq] at hn'
          subst hn'; exact a4 n hn
        · simp only [strings, List.mem_cons, List.mem_append, List.not_mem_nil, or_false] at hs
          rcases hs with hs | hs | hs
          · exact h2 s (by simp [strings, hs])
          · exact h2 s (by simp only [strings, List.mem_cons, List.mem_append]; exact Or.inr (Or.inl hs))
          · rw [hs]; exact hb
      · refine ⟨⟨a1, a2, a3, ?_, a5⟩, fun s hs => h2 s ?_⟩
        · simp only; rw [← hn]; exact a4
        · simp only [strings] at hs ⊢
          rw [hn]; exact hs
  | _ => exact h

theorem Fp.fine_modText (w : Str) (f : FpText F → FpText F) (es : List (Elem F))
    (hf : ∀ t, Fine (.text t) → Fine (.text (f t))) (h : ∀ e ∈ es, Fine e) :
    ∀ e ∈ Module.modText w f es, Fine e := by
  induction es with
  | nil => simp [Module.modText]
  | cons e es ih =>
    rw [List.forall_mem_cons] at h
    cases e with
    | text t =>
      by_cases hw : t.name = w
      · simp only [Module.modText, hw, if_true, List.forall_mem_cons]
        exact ⟨hf t h.1, h.2⟩
      · simp only [Module.modText, hw, if_false, List.forall_mem_cons]
        exact ⟨h.1, ih h.2⟩
    | _ =>
      simp only [Module.modText, List.forall_mem_cons]
      exact ⟨h.1, ih h.2⟩

theorem Fp.fine_fixText (cfg : Config F) (hc : lt zero cfg.fontSize = true) (v : Str) (hv : Clean v)
    (lt' : LayerType) (hl : ∀ s, lt' ≠ .other s) (t : FpText F) (h : Fine (.text t)) :
    Fine (.text (fixText cfg v lt' t)) := by
  obtain ⟨⟨h1, h2, h3⟩, h4⟩ := h
  refine ⟨⟨fun s hs => absurd hs (hl s), h2, Or.inl hc⟩, fun s hs => ?_⟩
  simp only [strings, fixText, List.mem_cons] at hs
  rcases hs with hs | hs | hs
  · exact h4 s (by simp [strings, hs])
  · rw [hs]; exact hv
  · simp only [layerStrings] at hs
    cases lt' <;> simp_all

theorem Fp.fine_fix (cfg : Config F) (hc : lt zero cfg.fontSize = true) (m : Module F)
    (hn : Clean m.name) (h : ∀ e ∈ m.elements, Fine e) : ∀ e ∈ (m.fix cfg).elements, Fine e := by
  have hl : ∀ (l : Layer), (∀ s, l.t ≠ .other s) → GoodLayer l := fun l h s hs => absurd hs (h s)
  rw [fix_eq]
  simp only [List.mem_append]
  rintro e (((he | he) | he) | he)
  · refine Fp.fine_modText _ _ _ (Fp.fine_fixText cfg hc _ (by decide) _ (by simp)) ?_ e he
    refine Fp.fine_modText _ _ _ (Fp.fine_fixText cfg hc _ hn _ (by simp)) ?_
    exact Fp.fine_modText _ _ _ (Fp.fine_fixText cfg hc _ (by decide) _ (by simp)) h
  · simp only [addedText] at he
    split at he
    · rw [List.mem_singleton] at he
      subst he
      refine ⟨⟨hl _ (by simp [newReference2]), rfl, Or.inl hc⟩, ?_⟩
      simp only [strings, newReference2, layerStrings]; decide
    · simp at he
  · simp only [addedAttr] at he
    split at he
    · rw [List.mem_singleton] at he
      subst he
      exact ⟨trivial, by simp only [strings]; decide⟩
    · simp at he
  · simp only [addedLines, courtyardLines] at he
    split at he
    · simp only [List.mem_cons, List.not_mem_nil, or_false] at he
      rcases he with rfl | rfl | rfl | rfl <;>
        exact ⟨⟨hl _ (by simp [FpLine.make]), rfl, rfl⟩, by simp [strings, FpLine.make, layerStrings]⟩
    · simp at he

theorem Fp.run_good (e : FpEdit F) (he : e.Fits) (m : Module F) (h : GoodModule m) :
    GoodModule (e.run m) := by
  obtain ⟨hn, h⟩ := h
  have via : ∀ f : Elem F → Elem F, (∀ e, Fine e → Fine (f e)) →
      ∀ e ∈ m.elements.map f, Fine e := by
    intro f hf e he
    obtain ⟨e', h', rfl⟩ := List.mem_map.1 he
    exact hf e' (h e' h')
  cases e with
  | flip => exact ⟨hn, via _ fun _ => Fp.fine_flip⟩
  | rotate r => exact ⟨hn, via _ fun _ => Fp.fine_rotate r⟩
  | move x y => exact ⟨hn, via _ fun _ => Fp.fine_adjust x y⟩
  | setReference a b => exact ⟨hn, via _ fun _ => Fp.fine_setReference a b he⟩
  | renameNet a b => exact ⟨hn, via _ fun _ => Fp.fine_renameNet a b he⟩
  | append e =>
    refine ⟨hn, fun x hx => ?_⟩
    rcases List.mem_append.1 hx with hx | hx
    · exact h x hx
    · rw [List.mem_singleton] at hx; subst hx; exact he
  | fix cfg =>
    have hname : (m.fix cfg).name = m.name := by rw [fix_eq]
    refine ⟨?_, Fp.fine_fix cfg he m hn h⟩
    show Clean (m.fix cfg).name
    rw [hname]; exact hn

/-- A footprint that can be saved can still be saved after any editing session
(flipping, rotating, moving, designator and net changes, appended elements, style
fixes) whose arguments fit the file format. -/
theorem C59_edits_keep_savable (edits : List (FpEdit F)) (hf : ∀ e ∈ edits, e.Fits) (m : Module F)
    (h : GoodModule m) : GoodModule (runFp edits m) := by
  induction edits generalizing m with
  | nil => exact h
  | cons e es ih =>
    rw [List.forall_mem_cons] at hf
    exact ih hf.2 _ (Fp.run_good e hf.1 m h)

variable [TextLaws F]

/-- Saving after the session and reading the text gives exactly the edited
footprint. -/
theorem C59_edit_save_read [ZeroLaws F] (q : Str → Bool) (hq : QuotesWhenNeeded q) (level : Int)
    (edits : List (FpEdit F)) (hf : ∀ e ∈ edits, e.Fits) (m : Module F) (h : GoodModule m) :
    Fp.parse (Fp.toText q level (runFp edits m)) = .ok (runFp edits m) := by
  have := C19_footprint_roundtrip q hq level _ (C59_edits_keep_savable edits hf m h) []
    Sexp.Text.blank_nil
  rwa [List.append_nil] at this

/-- Saving and reading at any point of a session makes no difference to what the
session ends with. -/
theorem C59_save_in_between [ZeroLaws F] (q : Str → Bool) (hq : QuotesWhenNeeded q) (level : Int)
    (before after : List (FpEdit F)) (hf : ∀ e ∈ before, e.Fits) (m : Module F) (h : GoodModule m) :
    (do let m' ← Fp.parse (Fp.toText q level (runFp before m)); pure (runFp after m')) =
      .ok (runFp (before ++ after) m) := by
  rw [C59_edit_save_read q hq level before hf m h]
  simp only [Res.bind_ok, runFp, List.foldl_append]
  rfl

/-- A footprint with a reference and a value text, fixed, saved and read again,
has nothing left to complain about (unless it is a through-hole footprint marked
as surface-mount). -/
theorem C59_fixed_file_is_clean [MonoLaws F] (q : Str → Bool) (hq : QuotesWhenNeeded q) (level : Int)
    (cfg : Config F) (hc : lt zero cfg.fontSize = true) (m : Module F) (h : GoodModule m)
    (hr : textsNamed m (str! "reference") ≠ []) (hv : textsNamed m (str! "value") ≠ [])
    (hp : ¬ (HasPad m .pth ∧ ¬ HasPad m .smd ∧ MarkedSmd m)) :
    ∃ m', Fp.parse (Fp.toText q level (m.fix cfg)) = .ok m' ∧ m'.check cfg = [] ∧ m'.fix cfg = m' := by
  have hg : GoodModule (m.fix cfg) := Fp.run_good (.fix cfg) hc m h
  have hrt := C19_footprint_roundtrip q hq level _ hg [] Sexp.Text.blank_nil
  rw [List.append_nil] at hrt
  exact ⟨_, hrt, C27_fix_cleans m cfg hr hv hp, C28_fix_idempotent m cfg⟩

/-- The footprint of the examples with a reference, turned over, moved, fixed. -/
def Spec.sampleSession : List (FpEdit Nm) :=
  [.flip, .rotate ⟨90000000⟩, .setReference (str! "REF**") (str! "C 1"), .move ⟨1⟩ ⟨-1⟩,
   .renameNet (str! "GND") (str! "0 V"), .append (.tags (str! "a b")), .fix Config.klc]

theorem Spec.sampleSession_fits : ∀ e ∈ sampleSession, e.Fits := by
  simp only [sampleSession, List.forall_mem_cons, FpEdit.Fits]
  refine ⟨trivial, trivial, by decide, trivial, by decide, ⟨trivial, ?_⟩, by decide, by simp⟩
  simp only [strings]; decide

example : Fp.parse (Fp.toText Fm.stdQuote 0 (runFp sampleSession sampleModule)) =
    .ok (runFp sampleSession sampleModule) ∧ runFp sampleSession sampleModule ≠ sampleModule :=
  ⟨C59_edit_save_read _ stdQuote_quotes 0 _ sampleSession_fits _ sampleModule_good, by decide +kernel⟩

end Verif
