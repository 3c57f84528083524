import Verif.Props.C28
import Verif.Props.C37
import Verif.Props.C44
import Verif.Props.C124
import Verif.Props.C127
/-!
# C128: how edits combine
-/

namespace Verif
open Flt Spec

variable {F : Type}

/-! ## Lemmas -/

namespace Again
open Fp

theorem mod_past (w : Str) (f : FpText F → FpText F) (es b : List (Elem F))
    (h : ∀ t, Elem.text t ∈ b → t.name ≠ w) : Module.modText w f (es ++ b) = Module.modText w f es ++ b := by
  have hb : Module.modText w f b = b := by
    induction b with
    | nil => rfl
    | cons e b ih =>
      have hr := ih fun t ht => h t (List.mem_cons_of_mem _ ht)
      cases e with
      | text t => rw [Module.modText, if_neg (h t (by simp)), hr]
      | _ => simp only [Module.modText, hr]
  induction es with
  | nil => exact hb
  | cons e es ih =>
    cases e with
    | text t =>
      simp only [List.cons_append, Module.modText]
      split
      · rfl
      · rw [ih]; rfl
    | _ => simp only [List.cons_append, Module.modText, ih]

/-- The three texts corrected. -/
def three (cfg : Config F) (n : Str) (es : List (Elem F)) : List (Elem F) :=
  Module.modText (str! "user") (fixText cfg (str! "%R") .fab)
    (Module.modText (str! "value") (fixText cfg n .fab)
      (Module.modText (str! "reference") (fixText cfg (str! "REF**") .silkS) es))

theorem three_three (a b : Config F) (n : Str) (es : List (Elem F)) :
    three b n (three a n es) = three b n es := by
  have ur : (str! "user") ≠ str! "reference" := by decide
  have vr : (str! "value") ≠ str! "reference" := by decide
  have uv : (str! "user") ≠ str! "value" := by decide
  simp only [three]
  rw [modText_comm (str! "user") (str! "reference") ur _ _ (fixText_name a _ _) (fixText_name b _ _),
    modText_comm (str! "value") (str! "reference") vr _ _ (fixText_name a _ _) (fixText_name b _ _),
    modText_twice (str! "reference") _ _ (fixText_name a _ _),
    modText_comm (str! "user") (str! "value") uv _ _ (fixText_name a _ _) (fixText_name b _ _),
    modText_twice (str! "value") _ _ (fixText_name a _ _), modText_twice (str! "user") _ _ (fixText_name a _ _)]
  rfl

theorem three_past (cfg : Config F) (n : Str) (es b : List (Elem F)) (h : ∀ t, Elem.text t ∉ b) :
    three cfg n (es ++ b) = three cfg n es ++ b := by
  simp only [three, mod_past _ _ _ b fun t ht => absurd ht (h t)]

theorem three_user (cfg : Config F) (n : Str) (es : List (Elem F)) (t : FpText F) (ht : t.name = str! "user")
    (h : Module.getText ⟨[], es⟩ (str! "user") = none) :
    three cfg n (es ++ [.text t]) = three cfg n es ++ [.text (fixText cfg (str! "%R") .fab t)] := by
  have h1 : ∀ w, w ≠ str! "user" → ∀ f : FpText F → FpText F, ∀ x : List (Elem F),
      Module.modText w f (x ++ [.text t]) = Module.modText w f x ++ [.text t] := by
    intro w hw f x
    refine mod_past w f x _ fun u hu => ?_
    simp only [List.mem_singleton, Elem.text.injEq] at hu
    rw [hu, ht]
    exact hw.symm
  have h2 : Module.getText ⟨[], Module.modText (str! "value") (fixText cfg n .fab)
      (Module.modText (str! "reference") (fixText cfg (str! "REF**") .silkS) es)⟩ (str! "user") = none := by
    rw [getText_modText_ne _ _ _ (by decide) _ (fixText_name _ _ _),
      getText_modText_ne _ _ _ (by decide) _ (fixText_name _ _ _), h]
  simp only [three]
  rw [h1 _ (by decide), h1 _ (by decide), modText_append, h2,
    modText_none (str! "user") _ _ h2]
  simp [Module.modText, ht]

/-- Adjusting a footprint leaves its texts alone. -/
theorem mod_adjust [Flt F] (x y : F) (w : Str) (f : FpText F → FpText F) (es : List (Elem F)) :
    Module.modText w f (es.map (Module.adjustElem x y)) =
      (Module.modText w f es).map (Module.adjustElem x y) := by
  induction es with
  | nil => rfl
  | cons e es ih =>
    cases e with
    | text t =>
      simp only [List.map_cons, Module.adjustElem, Module.modText]
      split
      · rfl
      · rw [ih]; rfl
    | _ => simp only [List.map_cons, Module.adjustElem, Module.modText, ih]

theorem text_adjust [Flt F] (x y : F) (n w : Str) (es : List (Elem F)) :
    Module.getText ⟨n, es.map (Module.adjustElem x y)⟩ w = Module.getText ⟨n, es⟩ w := by
  induction es with
  | nil => rfl
  | cons e es ih =>
    rw [List.map_cons, getText_cons, getText_cons]
    cases e <;> simp [Module.adjustElem, ih]

theorem kinds_adjust [Flt F] (x y : F) (m : Module F) :
    (m.adjust x y).pads = m.pads ∧ (m.adjust x y).lines = m.lines ∧
    (m.adjust x y).hasSmdAttr = m.hasSmdAttr := by
  obtain ⟨n, es⟩ := m
  simp only [Module.adjust, Module.pads, Module.lines, Module.hasSmdAttr]
  induction es with
  | nil => exact ⟨rfl, rfl, rfl⟩
  | cons e es ih =>
    obtain ⟨h1, h2, h3⟩ := ih
    cases e <;> simp_all [Module.adjustElem]

theorem at_adjust [Flt F] (x y : F) (m : Module F) (h : ∃ a, Elem.at_ a ∈ m.elements) :
    (m.adjust x y).at_ = (add m.at_.1 x, add m.at_.2 y) := by
  simp only [Module.adjust, Module.at_]
  obtain ⟨a, ha⟩ := h
  generalize m.elements = es at ha
  induction es with
  | nil => simp at ha
  | cons e es ih =>
    cases e with
    | at_ b => simp [Module.adjustElem, Module.firstAt]
    | _ =>
      simp only [List.mem_cons, reduceCtorEq, false_or] at ha
      simpa [Module.adjustElem, Module.firstAt] using ih ha

theorem set_other (a b : Str) (es : List (Elem F)) (h : ∀ t, Elem.text t ∈ es → t.name ≠ str! "reference") :
    es.map (Module.setReferenceElem a b) = es := by
  conv_rhs => rw [← List.map_id es]
  refine List.map_congr_left fun e he => ?_
  cases e with
  | text t => simp only [Module.setReferenceElem, if_neg (fun hh : _ ∧ _ => h t he hh.1), id_eq]
  | _ => rfl

theorem set_nt (a b : Str) (es : List (Elem F)) : nt (es.map (Module.setReferenceElem a b)) = nt es := by
  induction es with
  | nil => rfl
  | cons e es ih =>
    cases e with
    | text t =>
      simp only [List.map_cons, Module.setReferenceElem]
      split <;> simpa [nt_cons, notText] using ih
    | _ => simpa [nt_cons, notText, Module.setReferenceElem] using ih

theorem set_ref (a b : Str) (cfg : Config F) (es : List (Elem F))
    (h : (textsNamed ⟨[], es⟩ (str! "reference")).length ≤ 1) :
    Module.modText (str! "reference") (fixText cfg (str! "REF**") .silkS) (es.map (Module.setReferenceElem a b)) =
      Module.modText (str! "reference") (fixText cfg (str! "REF**") .silkS) es := by
  induction es with
  | nil => rfl
  | cons e es ih =>
    cases e with
    | text t =>
      by_cases hn : t.name = str! "reference"
      · have hr : ∀ u, Elem.text u ∈ es → u.name ≠ str! "reference" := by
          intro u hu hun
          have hm : u ∈ textsNamed ⟨[], es⟩ (str! "reference") :=
            List.mem_filterMap.2 ⟨_, hu, by simp [hun]⟩
          have : (textsNamed ⟨[], Elem.text t :: es⟩ (str! "reference")) =
              t :: textsNamed ⟨[], es⟩ (str! "reference") := by
            simp [textsNamed, hn]
          rw [this, List.length_cons] at h
          have := List.length_pos_of_mem hm
          omega
        rw [List.map_cons, set_other a b es hr]
        simp only [Module.setReferenceElem]
        split
        · simp only [Module.modText, if_pos hn]
          rfl
        · rfl
      · have : (textsNamed ⟨[], Elem.text t :: es⟩ (str! "reference")) = textsNamed ⟨[], es⟩ (str! "reference") := by
          simp [textsNamed, hn]
        rw [this] at h
        simp only [List.map_cons, Module.setReferenceElem, if_neg (fun hh : _ ∧ _ => hn hh.1), Module.modText,
          if_neg hn, ih h]
    | _ =>
      simp only [List.map_cons, Module.setReferenceElem, Module.modText]
      rw [ih h]

theorem set_text (a b n w : Str) (hw : w ≠ str! "reference") (es : List (Elem F)) :
    Module.getText ⟨n, es.map (Module.setReferenceElem a b)⟩ w = Module.getText ⟨n, es⟩ w := by
  induction es with
  | nil => rfl
  | cons e es ih =>
    rw [List.map_cons, getText_cons, getText_cons]
    cases e with
    | text t =>
      by_cases hc : t.name = str! "reference" ∧ t.value = a
      · simp only [Module.setReferenceElem, if_pos hc]
        rw [if_neg (show ¬ t.name = w by rw [hc.1]; exact hw.symm), if_neg (show ¬ t.name = w by rw [hc.1]; exact hw.symm), ih]
      · simp only [Module.setReferenceElem, if_neg hc, ih]
    | _ => simp [Module.setReferenceElem, ih]

theorem no_at [Flt F] (x y : F) (m : Module F) (h : ∀ a, Elem.at_ a ∉ m.elements) : m.adjust x y = m := by
  obtain ⟨n, es⟩ := m
  simp only [Module.adjust, Module.mk.injEq, true_and]
  conv_rhs => rw [← List.map_id es]
  refine List.map_congr_left fun e he => ?_
  cases e with
  | at_ a => exact absurd he (h a)
  | _ => rfl

end Again

/-! ## Theorems -/

section footprints
open Fp
variable [Flt F]

/-- Fixing with one configuration and then with another one is fixing with the other one. -/
theorem C128_fix_last (m : Module F) (a b : Config F) : (m.fix a).fix b = m.fix b := by
  have hn : (m.fix a).name = m.name := by rw [fix_eq]
  have k2 : addedText b (m.fix a) = [] := by
    have : (m.fix a).getText (str! "user") ≠ none := by
      rw [getText_fix, if_neg (by decide), if_neg (by decide), if_pos rfl]; simp
    simp [addedText, this]
  have k3 : addedAttr (m.fix a) = [] := by
    have hp : pthCount (m.fix a) = pthCount m := by rw [pthCount, pads_fix]; rfl
    have hs : smdCount (m.fix a) = smdCount m := by rw [smdCount, pads_fix]; rfl
    rw [addedAttr, hp, hs, attr_fix]
    rw [if_neg]
    rintro ⟨h1, h2, h3⟩
    simp [h1, h2] at h3
  have k4 : addedLines (m.fix a) = [] := by
    rw [addedLines, courtyardCount_fix, if_neg]
    split <;> omega
  have k1 : keptElems b (m.fix a) = keptElems b m ++ addedText b m ++ addedAttr m ++ addedLines m := by
    have hno : ∀ t, Elem.text t ∉ addedAttr m ++ addedLines m := by
      intro t ht
      have h1 : nt (addedAttr m ++ addedLines m) = addedAttr m ++ addedLines m := by
        rw [nt_append, nt_addedAttr, nt_addedLines]
      rw [← h1] at ht
      have := (List.mem_filter.1 ht).2
      simp [notText] at this
    have hk : ∀ (c : Config F) (k : Module F), keptElems c k = Again.three c k.name k.elements := fun _ _ => rfl
    have core : Again.three b m.name (keptElems a m ++ addedText a m) = keptElems b m ++ addedText b m := by
      rw [hk, hk]
      simp only [addedText]
      cases hu : m.getText (str! "user") with
      | some t => simp [Again.three_three]
      | none =>
        simp only [Option.isNone_none, if_true]
        rw [Again.three_user b m.name _ (newReference2 a) rfl, Again.three_three]
        · rfl
        · rw [← getText_elements] at hu
          simp only [Again.three]
          rw [getText_modText_same _ _ _ (fixText_name _ _ _), getText_modText_ne _ _ _ (by decide) _ (fixText_name _ _ _),
            getText_modText_ne _ _ _ (by decide) _ (fixText_name _ _ _), hu]
          rfl
    rw [hk b (m.fix a), hn, fix_eq]
    simp only
    rw [List.append_assoc (keptElems a m ++ addedText a m), Again.three_past _ _ _ _ hno, core, List.append_assoc,
      List.append_assoc, List.append_assoc]
  rw [fix_eq b (m.fix a), k1, k2, k3, k4, fix_eq b m, hn]
  simp

/-- Moving and fixing a footprint can change places: the courtyard is drawn relative to the footprint
(exact arithmetic). -/
theorem C128_fix_move [ExactLaws F] (m : Module F) (x y : F) (cfg : Config F) :
    (m.adjust x y).fix cfg = (m.fix cfg).adjust x y := by
  by_cases ha : ∃ a, Elem.at_ a ∈ m.elements
  · have hb := Lay.move_module x y m ha
    have hm : m.bound.isBounded = true := (C26_bound_attained m).1
    simp only [moveBox, hm, if_true] at hb
    have hat : (m.adjust x y).at_ = (add m.at_.1 x, add m.at_.2 y) := Again.at_adjust x y m ha
    obtain ⟨h1, h2, h3⟩ := Again.kinds_adjust x y m
    have e1 : keptElems cfg (m.adjust x y) = (keptElems cfg m).map (Module.adjustElem x y) := by
      simp only [keptElems, Module.adjust, Again.mod_adjust]
    have e2 : addedText cfg (m.adjust x y) = (addedText cfg m).map (Module.adjustElem x y) := by
      have := Again.text_adjust x y m.name (str! "user") m.elements
      simp only [addedText, Module.adjust, this]
      split <;> rfl
    have e3 : addedAttr (m.adjust x y) = (addedAttr m).map (Module.adjustElem x y) := by
      have k : addedAttr (m.adjust x y) = addedAttr m := by
        have hp : pthCount (m.adjust x y) = pthCount m := by rw [pthCount, h1]; rfl
        have hs : smdCount (m.adjust x y) = smdCount m := by rw [smdCount, h1]; rfl
        simp only [addedAttr, hp, hs, h3]
      rw [k]
      simp only [addedAttr]
      split <;> rfl
    have e4 : addedLines (m.adjust x y) = (addedLines m).map (Module.adjustElem x y) := by
      have k : addedLines (m.adjust x y) = addedLines m := by
        simp only [addedLines, courtyardCount, h2, courtyardLines, courtyardBox, courtyardOffset, hb, hat,
          Bound.width, Bound.height, Flt.Exact.add_sub_add_right]
        rfl
      rw [k]
      simp only [addedLines]
      split <;> rfl
    rw [fix_eq, fix_eq, e1, e2, e3, e4]
    simp only [Module.adjust, List.map_append]
  · rw [Again.no_at x y m fun a h => ha ⟨a, h⟩, Again.no_at x y (m.fix cfg)]
    intro a h
    rw [fix_eq] at h
    have h5 : Elem.at_ a ∈ nt (keptElems cfg m ++ addedText cfg m ++ addedAttr m ++ addedLines m) :=
      List.mem_filter.2 ⟨h, rfl⟩
    rw [nt_append, nt_append, nt_append, nt_kept, nt_addedText, nt_addedAttr, nt_addedLines] at h5
    simp only [List.append_nil, List.mem_append] at h5
    rcases h5 with (h5 | h5) | h5
    · exact ha ⟨a, (List.mem_filter.1 h5).1⟩
    · simp only [addedAttr] at h5
      split at h5 <;> simp at h5
    · simp only [addedLines, courtyardLines] at h5
      split at h5 <;> simp at h5

/-- What the reference was makes no difference to a fixed footprint that has a single one. -/
theorem C128_fix_reference (m : Module F) (a b : Str) (cfg : Config F)
    (h : (textsNamed m (str! "reference")).length ≤ 1) : (m.setReference a b).fix cfg = m.fix cfg := by
  have hnt : nt (m.setReference a b).elements = nt m.elements := Again.set_nt a b m.elements
  have e1 : keptElems cfg (m.setReference a b) = keptElems cfg m := by
    simp only [keptElems, Module.setReference, Again.set_ref a b cfg m.elements h]
  have e2 : addedText cfg (m.setReference a b) = addedText cfg m := by
    simp only [addedText, Module.setReference, Again.set_text a b m.name (str! "user") (by decide) m.elements]
  have e3 : addedAttr (m.setReference a b) = addedAttr m := by
    have hp : pthCount (m.setReference a b) = pthCount m := by rw [pthCount, pads_eq_of_nt hnt]; rfl
    have hs : smdCount (m.setReference a b) = smdCount m := by rw [smdCount, pads_eq_of_nt hnt]; rfl
    simp only [addedAttr, hp, hs, attr_eq_of_nt hnt]
  have e4 : addedLines (m.setReference a b) = addedLines m := by
    have hc : courtyardCount (m.setReference a b) = courtyardCount m := by
      rw [courtyardCount, lines_eq_of_nt hnt]; rfl
    rw [addedLines, hc, addedLines, courtyardLines_congr (show (m.setReference a b).name = m.name from rfl) (bound_eq_of_nt hnt) (at_eq_of_nt hnt)]
  rw [fix_eq, fix_eq, e1, e2, e3, e4]
  rfl

end footprints

/-- Of two values for a setting the last one counts. -/
theorem C128_setup_last (s : Lay.Setup) (k v w : Str) :
    (s.updateElement k v).updateElement k w = s.updateElement k w := by
  obtain ⟨es, pp⟩ := s
  rcases (C41_update_entries ⟨es, pp⟩ k v).1 with ⟨a, e, b, h1, h2, h3, _⟩ | ⟨h1, _⟩
  · simp only at h1
    subst h1
    simp only [Lay.Setup.updateElement, Undo.update_at k v e h2 a b h3,
      Undo.update_at k w { e with value1 := v } h2 a b h3, Undo.update_at k w e h2 a b h3]
  · simp only [Lay.Setup.updateElement, (Lay.updateElementIn_none k _ es).2 h1,
      Undo.update_at k w ⟨k, v, none⟩ rfl es [] h1]

/-- Of two values for a component field the last one counts. -/
theorem C128_field_last (c : Sch.Component F) (n v w : Str) :
    (c.updateField n v).updateField n w = c.updateField n w := by
  simp only [Sch.Component.updateField, List.map_map]
  congr 1
  refine List.map_congr_left fun f _ => ?_
  simp only [Function.comp_apply, Sch.Field.updated]
  split_ifs <;> simp_all

/-- Renaming a net in two steps is renaming it in one step exactly if the name in between was not in
use (or one of the steps changes nothing). -/
theorem C128_chain [Flt F] (l : Lay.Layout F) (a b c : Str) :
    (do let l' ← l.changeNetName a b; l'.changeNetName b c) = l.changeNetName a c ↔
      a = b ∨ b = c ∨ b ∉ layoutNames l := by
  obtain ⟨l1, h1, h2, h3⟩ := C37_rename_exact l a b
  obtain ⟨l2, h4, h5, h6⟩ := C37_rename_exact l1 b c
  obtain ⟨l3, h7, h8, h9⟩ := C37_rename_exact l a c
  rw [h1, Res.bind_ok, h4, h7]
  have key : l2 = l3 ↔ layoutNames l2 = layoutNames l3 :=
    ⟨fun h => by rw [h], C37_names_and_rest_determine l2 l3 ((h6.trans h3).trans h9.symm)⟩
  rw [Res.ok.injEq, key, h5, h2, h8, List.map_map, List.map_inj_left]
  simp only [Function.comp_apply]
  constructor
  · intro h
    by_cases hb : b ∈ layoutNames l
    · have := h b hb
      by_cases hab : a = b
      · exact Or.inl hab
      · rw [if_neg (Ne.symm hab), if_pos rfl, if_neg (Ne.symm hab)] at this
        exact Or.inr (Or.inl this.symm)
    · exact Or.inr (Or.inr hb)
  · intro h n hn
    rcases h with rfl | rfl | h
    · by_cases hna : n = a <;> simp [hna]
    · by_cases hna : n = a
      · simp [hna]
      · by_cases hnb : n = b <;> simp [hna, hnb]
    · by_cases hna : n = a
      · simp [hna]
      · rw [if_neg hna, if_neg (fun e : n = b => h (e ▸ hn)), if_neg hna]

/-- Two nets change names by way of a name that is not in use. -/
theorem C128_swap [Flt F] (l : Lay.Layout F) (a b t : Str) (ht : t ∉ layoutNames l) (hab : a ≠ b) (hta : t ≠ a)
    (htb : t ≠ b) :
    ∃ l', (do let l1 ← l.changeNetName a t
              let l2 ← l1.changeNetName b a
              l2.changeNetName t b) = .ok l' ∧
      layoutNames l' = (layoutNames l).map (fun n => if n = a then b else if n = b then a else n) ∧
      eraseLayoutNames l' = eraseLayoutNames l := by
  obtain ⟨l1, h1, h2, h3⟩ := C37_rename_exact l a t
  obtain ⟨l2, h4, h5, h6⟩ := C37_rename_exact l1 b a
  obtain ⟨l3, h7, h8, h9⟩ := C37_rename_exact l2 t b
  refine ⟨l3, by rw [h1, Res.bind_ok, h4, Res.bind_ok, h7], ?_, h9.trans (h6.trans h3)⟩
  rw [h8, h5, h2, List.map_map, List.map_map]
  refine List.map_congr_left fun n hn => ?_
  have hnt : n ≠ t := fun e => ht (e ▸ hn)
  simp only [Function.comp_apply]
  by_cases hna : n = a
  · subst hna
    simp [htb]
  · by_cases hnb : n = b
    · subst hnb
      simp [hna, Ne.symm hta]
    · simp [hna, hnb, hnt]

/-! ### Cases -/

/-- Fixing a careless footprint with one configuration and then another one does something each time. -/
example : ∃ cfg : Config Nm, Spec.carelessFootprint.fix cfg ≠ Spec.carelessFootprint ∧
    (Spec.carelessFootprint.fix cfg).fix Config.klc ≠ Spec.carelessFootprint.fix cfg :=
  ⟨{ (Config.klc : Config Nm) with fontSize := ⟨7⟩ }, by decide, by decide⟩

/-- It has a single reference, so that renaming it first makes no difference. -/
example : (textsNamed Spec.carelessFootprint (str! "reference")).length ≤ 1 ∧
    Spec.carelessFootprint.setReference (str! "R1") (str! "R2") ≠ Spec.carelessFootprint := by decide

/-- With two references it does: only the first one is fixed. -/
example : ∃ m : Fp.Module Nm, (m.setReference (str! "R1") (str! "R2")).fix Config.klc ≠ m.fix Config.klc :=
  ⟨⟨str! "R", [.text (Fp.FpText.new (str! "reference") (str! "R1")),
    .text (Fp.FpText.new (str! "reference") (str! "R1"))]⟩, by decide⟩

/-- A board with the nets GND and VCC, which can change names by way of the name tmp. -/
example : ∃ l : Lay.Layout Nm, layoutNames l = [str! "GND", str! "VCC"] ∧ str! "tmp" ∉ layoutNames l :=
  ⟨{ Lay.Layout.dflt with elements := [.net ⟨1, str! "GND"⟩, .net ⟨2, str! "VCC"⟩] }, by decide, by decide⟩

end Verif
