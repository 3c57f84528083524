import Verif.Spec.Edits
import Verif.Spec.SchematicEdits
import Verif.Lemmas.FpCheck
import Verif.Props.C13
import Verif.Props.C17
import Verif.Props.C31
import Verif.Props.C32
import Verif.Props.C37
import Verif.Props.C41
import Verif.Props.C42
import Verif.Props.C08
import Verif.Basic.Nm
/-!
# C127: which edits can be undone
-/

namespace Verif
open Flt Spec

variable {F : Type}

/-! ## Specification -/

/-- How many things a board consists of: its parts, the parts of its footprints and the entries of
its setup. -/
def Spec.boardThings (l : Lay.Layout F) : Nat :=
  (l.elements.map fun e => match e with | .module_ m => m.elements.length + 1 | _ => 1).sum +
    l.setup.elements.length

/-- How many things a schematic consists of: its parts, the fields of its components, its sheets. -/
def Spec.schematicThings (s : Sch.Schematic F) : Nat :=
  (s.elements.map fun e => match e with | .component c => c.fields.length + 1 | _ => 1).sum +
    s.sheets.length

/-! ## Lemmas -/

namespace Undo

theorem modText_length (w : Str) (f : Fp.FpText F → Fp.FpText F) (es : List (Fp.Elem F)) :
    (Fp.Module.modText w f es).length = es.length := by
  induction es with
  | nil => rfl
  | cons e es ih =>
    cases e with
    | text t =>
      simp only [Fp.Module.modText]
      split <;> simp [ih]
    | _ => simp [Fp.Module.modText, ih]

theorem fix_length [Flt F] (cfg : Config F) (m : Fp.Module F) :
    m.elements.length ≤ (m.fix cfg).elements.length := by
  rw [Fp.fix_eq]
  simp only [Fp.keptElems, List.length_append, modText_length]
  omega

theorem fp_step [Flt F] (e : FpEdit F) (m : Fp.Module F) : m.elements.length ≤ (e.run m).elements.length := by
  cases e with
  | fix cfg => exact fix_length cfg m
  | append e => simp [FpEdit.run, Fp.Module.append]
  | _ => simp [FpEdit.run, Fp.Module.flip, Fp.Module.rotate, Fp.Module.adjust, Fp.Module.setReference,
      Fp.Module.renameNet]

/-- How many things a part of a board counts for. -/
def weight : Lay.Elem F → Nat
  | .module_ m => m.elements.length + 1
  | _ => 1

theorem boardThings_eq (l : Lay.Layout F) :
    boardThings l = (l.elements.map weight).sum + l.setup.elements.length := by
  simp only [boardThings]
  congr 2

theorem weight_erase (e : Lay.Elem F) : weight (eraseBoardNames e) = weight e := by
  cases e <;> simp [weight, eraseBoardNames]

theorem weight_adjust [Flt F] (x y : F) (e : Lay.Elem F) : weight (e.adjust x y) = weight e := by
  cases e <;> simp [weight, Lay.Elem.adjust, Fp.Module.adjust]

/-- How many things a part of a schematic counts for. -/
def load : Sch.Element F → Nat
  | .component c => c.fields.length + 1
  | _ => 1

theorem schematicThings_eq (s : Sch.Schematic F) :
    schematicThings s = (s.elements.map load).sum + s.sheets.length := by
  simp only [schematicThings]
  congr 2

theorem setup_length (s : Lay.Setup) (k v : Str) :
    (s.updateElement k v).elements.length = s.elements.length + if s.get k = none then 1 else 0 := by
  rcases (C41_update_entries s k v).1 with ⟨a, e, b, h1, h2, h3, h4⟩ | ⟨h1, h2⟩
  · have : s.get k = some e.value1 := (C41_get_spec s k _).2 ⟨a, e, b, h1, h2, rfl, h3⟩
    rw [h4, h1]
    simp [this]
  · have : s.get k = none := by
      simp only [Lay.Setup.get, Option.map_eq_none_iff, List.find?_eq_none, decide_eq_true_eq]
      exact h1
    rw [h2, if_pos this]
    simp

theorem update_at (k v : Str) (e : Lay.SetupElement) (he : e.name = k) (a b : List Lay.SetupElement)
    (ha : ∀ x ∈ a, x.name ≠ k) :
    Lay.updateElementIn k v (a ++ e :: b) = some (a ++ { e with value1 := v } :: b) := by
  induction a with
  | nil => simp [Lay.updateElementIn, he]
  | cons x a ih =>
    rw [List.forall_mem_cons] at ha
    simp [Lay.updateElementIn, ha.1, ih ha.2]

theorem updated_twice (f : Sch.Field F) (n v w : Str) :
    (f.updated n v).updated n w = f ↔ (f.name = n → f.value = w) ∧ (f.i > 1 → f.visible = false) := by
  obtain ⟨⟩ := f
  simp only [Sch.Field.updated]
  split_ifs <;> simp_all [eq_comm]

theorem unnamed_components (es : List (Sch.Element F)) (r : Str) (h : ∀ e ∈ es, ¬ HasRef r e) :
    ∀ c ∈ es.filterMap Sch.Element.component?, ¬ (decide (c.reference = r) = true) := by
  intro c hc hr
  obtain ⟨e, he, h1⟩ := List.mem_filterMap.1 hc
  cases e <;> simp only [Sch.Element.component?, Option.some.injEq, reduceCtorEq] at h1
  subst h1
  exact h _ he (show _ = r from by simpa using hr)

theorem comp_step [Flt F] (e : CompEdit F) (c c' : Sch.Component F) (h : e.run c = .ok c') :
    c.fields.length ≤ c'.fields.length := by
  cases e with
  | updateReference r => cases h; simp [Sch.Component.updateReference]
  | updateName r => cases h; simp [Sch.Component.updateName]
  | updateField n v => cases h; simp [Sch.Component.updateField]
  | addOrUpdateField t n v =>
    simp only [CompEdit.run] at h
    rcases hr : c.addOrUpdateField t n v with ⟨d, r⟩ | _ | _ | _ <;> rw [hr] at h
    · cases h
      simp only [Sch.Component.addOrUpdateField] at hr
      split at hr
      · split at hr <;> cases hr
        · exact Nat.le_refl _
        · simp [Sch.Component.updateField]
      · rcases hn : c.addNewField t n v with d | _ | _ | _ <;> rw [hn] at hr <;> cases hr
        simp only [Sch.Component.addNewField] at hn
        rcases hi : c.getAvailableFieldNum with d | _ | _ | _ <;> rw [hi] at hn <;> cases hn
        simp
    all_goals cases h

theorem comp_run [Flt F] (es : List (CompEdit F)) (c c' : Sch.Component F) (h : runComp es c = .ok c') :
    c.fields.length ≤ c'.fields.length := by
  induction es generalizing c with
  | nil => cases h; exact Nat.le_refl _
  | cons e es ih =>
    simp only [runComp] at h
    rcases hr : e.run c with d | _ | _ | _ <;> rw [hr] at h
    · exact (comp_step e c d hr).trans (ih d h)
    all_goals cases h

end Undo

/-! ## Theorems -/

/-- Renaming references back restores a footprint exactly if no reference had the new name. -/
theorem C127_reference (m : Fp.Module F) (a b : Str) :
    (m.setReference a b).setReference b a = m ↔
      a = b ∨ ∀ t ∈ texts m, t.name = str! "reference" → t.value ≠ b := by
  by_cases hab : a = b
  · subst hab
    simp only [true_or, iff_true]
    obtain ⟨n, es⟩ := m
    simp only [Fp.Module.setReference, Fp.Module.mk.injEq, true_and, List.map_map]
    conv_rhs => rw [← List.map_id es]
    refine List.map_congr_left fun e _ => ?_
    cases e with
    | text t =>
      by_cases h : t.name = str! "reference" ∧ t.value = a
      · obtain ⟨h1, rfl⟩ := h
        obtain ⟨⟩ := t
        simp_all [Fp.Module.setReferenceElem]
      · simp [Fp.Module.setReferenceElem, h]
    | _ => rfl
  · simp only [hab, false_or]
    constructor
    · intro h t ht hn hv
      have h1 : texts ((m.setReference a b).setReference b a) = texts m := by rw [h]
      rw [(C32_set_reference _ b a).2.2, (C32_set_reference m a b).2.2, List.map_map] at h1
      have h2 := (List.map_eq_iff.1 h1)
      obtain ⟨i, hi, rfl⟩ := List.getElem_of_mem ht
      have h3 := h2 i
      rw [List.getElem?_eq_getElem hi] at h3
      simp only [Option.map_some, Option.some.injEq, Function.comp_apply] at h3
      generalize (texts m)[i] = t at hn hv h3
      have hna : ¬ (t.name = str! "reference" ∧ t.value = a) := fun hh => hab (hh.2.symm.trans hv)
      rw [if_neg hna, if_pos ⟨hn, hv⟩] at h3
      have h4 := congrArg Fp.FpText.value h3
      simp only at h4
      exact hab (h4.symm.trans hv)
    · intro h
      obtain ⟨n, es⟩ := m
      simp only [Fp.Module.setReference, Fp.Module.mk.injEq, true_and, List.map_map]
      conv_rhs => rw [← List.map_id es]
      refine List.map_congr_left fun e he => ?_
      cases e with
      | text t =>
        have ht : t ∈ texts ⟨n, es⟩ := List.mem_filterMap.2 ⟨_, he, rfl⟩
        by_cases hc : t.name = str! "reference" ∧ t.value = a
        · obtain ⟨h1, rfl⟩ := hc
          obtain ⟨⟩ := t
          simp_all [Fp.Module.setReferenceElem]
        · have hb : ¬ (t.name = str! "reference" ∧ t.value = b) := fun hh => h t ht hh.1 hh.2
          simp only [Function.comp_apply, Fp.Module.setReferenceElem, if_neg hc, if_neg hb, id_eq]
      | _ => rfl

/-- Renaming a net back restores a board exactly if the new name was not in use. -/
theorem C127_board_net [Flt F] (l : Lay.Layout F) (a b : Str) :
    (do let l' ← l.changeNetName a b; l'.changeNetName b a) = .ok l ↔ a = b ∨ b ∉ layoutNames l := by
  obtain ⟨l', h1, h2, h3⟩ := C37_rename_exact l a b
  obtain ⟨l'', h4, h5, h6⟩ := C37_rename_exact l' b a
  rw [h1, Res.bind_ok, h4]
  have key : l'' = l ↔ layoutNames l'' = layoutNames l :=
    ⟨fun h => by rw [h], C37_names_and_rest_determine l'' l (h6.trans h3)⟩
  rw [Res.ok.injEq, key, h5, h2, List.map_map]
  constructor
  · intro h
    by_cases hab : a = b
    · exact Or.inl hab
    · refine Or.inr fun hb => ?_
      obtain ⟨i, hi, hib⟩ := List.getElem_of_mem hb
      have h7 := List.map_eq_iff.1 h i
      rw [List.getElem?_eq_getElem hi, hib] at h7
      simp only [Option.map_some, Option.some.injEq, Function.comp_apply] at h7
      rw [if_neg (Ne.symm hab), if_pos rfl] at h7
      exact hab h7.symm
  · intro h
    conv_rhs => rw [← List.map_id (layoutNames l)]
    refine List.map_congr_left fun n hn => ?_
    simp only [Function.comp_apply, id_eq]
    rcases h with rfl | h
    · by_cases hna : n = a <;> simp [hna]
    · by_cases hna : n = a
      · simp [hna]
      · rw [if_neg hna, if_neg (fun e : n = b => h (e ▸ hn))]

/-- A setting can be put back exactly if it was there, and only to the value it had. -/
theorem C127_setup (s : Lay.Setup) (k v w : Str) :
    (s.updateElement k v).updateElement k w = s ↔ s.get k = some w := by
  constructor
  · intro h
    rw [← h, C41_get_updated]
  · intro h
    obtain ⟨a, e, b, h1, h2, h3, h4⟩ := (C41_get_spec s k w).1 h
    obtain ⟨es, pp⟩ := s
    simp only at h1
    subst h1
    have e1 : (Lay.Setup.mk (a ++ e :: b) pp).updateElement k v =
        ⟨a ++ { e with value1 := v } :: b, pp⟩ := by
      simp only [Lay.Setup.updateElement, Undo.update_at k v e h2 a b h4]
    rw [e1, Lay.Setup.updateElement, Undo.update_at k w { e with value1 := v } h2 a b h4, ← h3]

/-- A field can be put back exactly if all fields of the name had the value and all own fields were
hidden: setting a field hides all fields numbered two or higher. -/
theorem C127_field (c : Sch.Component F) (n v w : Str) :
    (c.updateField n v).updateField n w = c ↔
      (∀ f ∈ c.fields, f.name = n → f.value = w) ∧ ∀ f ∈ c.fields, f.i > 1 → f.visible = false := by
  obtain ⟨a1, a2, a3, a4, a5, a6, fs, a8⟩ := c
  simp only [Sch.Component.updateField, Sch.Component.mk.injEq, true_and, and_true, List.map_map]
  conv_lhs => rhs; rw [← List.map_id fs]
  rw [List.map_inj_left]
  simp only [Function.comp_apply, id_eq, Undo.updated_twice]
  exact ⟨fun h => ⟨fun f hf => (h f hf).1, fun f hf => (h f hf).2⟩, fun h f hf => ⟨h.1 f hf, h.2 f hf⟩⟩

/-- The reference can be put back exactly to the one the component had, if the fields numbered zero
showed it. -/
theorem C127_component_reference (c : Sch.Component F) (r s : Str) :
    (c.updateReference r).updateReference s = c ↔
      c.reference = s ∧ ∀ f ∈ c.fields, f.i = 0 → f.value = s := by
  obtain ⟨a1, a2, a3, a4, a5, a6, fs, a8⟩ := c
  simp only [Sch.Component.updateReference, Sch.Component.mk.injEq, true_and, and_true, List.map_map]
  refine and_congr eq_comm ?_
  conv_lhs => rhs; rw [← List.map_id fs]
  rw [List.map_inj_left]
  refine forall_congr' fun f => forall_congr' fun _ => ?_
  obtain ⟨⟩ := f
  simp only [Function.comp_apply, id_eq]
  split_ifs <;> simp_all [eq_comm]

/-- The same for the name, shown in the fields numbered one. -/
theorem C127_component_name (c : Sch.Component F) (r s : Str) :
    (c.updateName r).updateName s = c ↔ c.name = s ∧ ∀ f ∈ c.fields, f.i = 1 → f.value = s := by
  obtain ⟨a1, a2, a3, a4, a5, a6, fs, a8⟩ := c
  simp only [Sch.Component.updateName, Sch.Component.mk.injEq, true_and, and_true, List.map_map]
  refine and_congr eq_comm ?_
  conv_lhs => rhs; rw [← List.map_id fs]
  rw [List.map_inj_left]
  refine forall_congr' fun f => forall_congr' fun _ => ?_
  obtain ⟨⟩ := f
  simp only [Function.comp_apply, id_eq]
  split_ifs <;> simp_all [eq_comm]

/-- A symbol renamed to a plain name can be renamed back exactly if its name, without the mark of
hidden names, was the value of its second field; it cannot if it was renamed to a name with the mark and
had none before, or to the empty name. -/
theorem C127_symbol (s s' : Lib.Symbol F) (n k : Str) (h : s.setName n = .ok s') :
    s'.setName k = .ok s ↔
      (n.head? ≠ some '~' ∧ n ≠ [] ∨ s.name.head? = some '~') ∧
      s.name = (if s.name.head? = some '~' then '~' :: k else k) ∧
      s.fields[1]?.map (·.value) = some k := by
  obtain ⟨name, ref, a, b, c, d, e, g, fields, al, dr⟩ := s
  cases name with
  | nil => simp [Lib.Symbol.setName, Sch.charAt] at h
  | cons ch name =>
    match fields, h with
    | f0 :: f1 :: fs, h =>
      simp only [Lib.Symbol.setName, Sch.charAt, Res.bind_ok, List.getElem?_cons_zero] at h
      cases h
      by_cases hc : ch = '~'
      · subst hc
        simp [Lib.Symbol.setName, Sch.charAt, eq_comm]
        intro _
        obtain ⟨⟩ := f1
        simp [eq_comm]
      · cases n with
        | nil => simp [Lib.Symbol.setName, Sch.charAt, hc]
        | cons x n =>
          by_cases hx : x = '~'
          · simp [Lib.Symbol.setName, Sch.charAt, hc, hx]
            exact fun h => absurd h.symm hc
          · simp [Lib.Symbol.setName, Sch.charAt, hc, hx]
            obtain ⟨⟩ := f1
            simp [eq_comm]

/-- No sequence of calls makes a footprint smaller; what was appended, and what fixing added, stays. -/
theorem C127_footprint_grows [Flt F] (es : List (FpEdit F)) (m : Fp.Module F) :
    m.elements.length ≤ (runFp es m).elements.length ∧
    (∀ e, runFp es (m.append e) ≠ m) ∧
    (∀ cfg, (m.fix cfg).elements.length ≠ m.elements.length → runFp es (m.fix cfg) ≠ m) := by
  have key : ∀ (es : List (FpEdit F)) (m : Fp.Module F),
      m.elements.length ≤ (runFp es m).elements.length := by
    intro es
    induction es with
    | nil => exact fun _ => Nat.le_refl _
    | cons e es ih => exact fun m => (Undo.fp_step e m).trans (ih (e.run m))
  refine ⟨key es m, fun e h => ?_, fun cfg hc h => ?_⟩
  · have h1 := key es (m.append e)
    rw [h] at h1
    simp [Fp.Module.append] at h1
  · have h1 := key es (m.fix cfg)
    rw [h] at h1
    exact hc (Nat.le_antisymm h1 (Undo.fix_length cfg m))

/-- No sequence of calls makes a board smaller; nets, net classes, settings and parts that were added
stay. -/
theorem C127_board_grows [Flt F] (es : List (BoardEdit F)) (l : Lay.Layout F) :
    (∀ l', runBoard es l = .ok l' → boardThings l ≤ boardThings l') ∧
    (∀ num name, runBoard es (l.addNet num name) ≠ .ok l) ∧
    (∀ nc, runBoard es (l.addNetclass nc) ≠ .ok l) ∧
    (∀ e, runBoard es { l with elements := l.elements ++ [e] } ≠ .ok l) ∧
    (∀ k v, l.setup.get k = none →
      runBoard es { l with setup := l.setup.updateElement k v } ≠ .ok l) := by
  have step : ∀ (e : BoardEdit F) (l l' : Lay.Layout F), e.run l = .ok l' →
      boardThings l ≤ boardThings l' := by
    intro e l l' h
    rw [Undo.boardThings_eq, Undo.boardThings_eq]
    cases e with
    | move x y =>
      cases h
      simp [Lay.Layout.adjust, Function.comp_def, Undo.weight_adjust]
    | renameNet a b =>
      obtain ⟨k, h1, h2, h3⟩ := C37_rename_exact l a b
      simp only [BoardEdit.run] at h
      rw [h1] at h
      cases h
      have e1 := congrArg Lay.Layout.elements h3
      have e2 := congrArg Lay.Layout.setup h3
      simp only [eraseLayoutNames] at e1 e2
      have e3 := congrArg (List.map Undo.weight) e1
      simp only [List.map_map, Function.comp_def, Undo.weight_erase] at e3
      rw [e2, e3]
    | addNet n name => cases h; simp [Lay.Layout.addNet]
    | addNetclass nc => cases h; simp [Lay.Layout.addNetclass]
    | setSetup n v => cases h; simp only [Undo.setup_length]; omega
    | editModule r es =>
      simp only [BoardEdit.run] at h
      cases hg : l.getModule r with
      | none => rw [(C42_modify l r (runFp es)).2 hg] at h; cases h
      | some m =>
        obtain ⟨a, b, h1, h2, h3⟩ := (C42_modify l r (runFp es)).1 m hg
        rw [h3] at h
        cases h
        have := (C127_footprint_grows es m).1
        simp only [h1, List.map_append, List.map_cons, List.sum_append, List.sum_cons, Undo.weight]
        omega
    | append e => cases h; simp
  have run : ∀ (es : List (BoardEdit F)) (l l' : Lay.Layout F), runBoard es l = .ok l' →
      boardThings l ≤ boardThings l' := by
    intro es
    induction es with
    | nil => intro l l' h; cases h; exact Nat.le_refl _
    | cons e es ih =>
      intro l l' h
      simp only [runBoard] at h
      rcases hr : e.run l with k | x | _ | _ <;> rw [hr] at h
      · exact (step e l k hr).trans (ih k l' h)
      · exact ih l l' h
      all_goals cases h
  have pos : ∀ e : Lay.Elem F, 0 < Undo.weight e := by intro e; cases e <;> simp [Undo.weight]
  refine ⟨run es l, fun num name h => ?_, fun nc h => ?_, fun e h => ?_, fun k v hk h => ?_⟩
  · have := run es _ _ h
    simp [Undo.boardThings_eq, Lay.Layout.addNet, Undo.weight] at this
  · have := run es _ _ h
    simp [Undo.boardThings_eq, Lay.Layout.addNetclass, Undo.weight] at this
  · have := run es _ _ h
    have := pos e
    simp [Undo.boardThings_eq] at *
    omega
  · have := run es _ _ h
    simp [Undo.boardThings_eq, Undo.setup_length, hk] at this

/-- No sequence of changes makes a schematic smaller or lowers its sheet count; what was added stays. -/
theorem C127_schematic_grows [Flt F] (es : List (SchEdit F)) (s : Sch.Schematic F) :
    (∀ s', runSch es s = .ok s' → schematicThings s ≤ schematicThings s' ∧
      s.description.sheetCount ≤ s'.description.sheetCount) ∧
    (∀ e, runSch es { s with elements := s.elements ++ [e] } ≠ .ok s) ∧
    (∀ x, runSch es { s with sheets := s.sheets ++ [x] } ≠ .ok s) ∧
    (∀ k, s.incrementSheetCount = .ok k → runSch es k ≠ .ok s) := by
  have step : ∀ (e : SchEdit F) (s s' : Sch.Schematic F), e.run s = .ok s' →
      schematicThings s ≤ schematicThings s' ∧ s.description.sheetCount ≤ s'.description.sheetCount := by
    intro e s s' h
    rw [Undo.schematicThings_eq, Undo.schematicThings_eq]
    cases e with
    | editComponent r es =>
      rcases C08_cases s r with ⟨a, c, b, h1, h2, h3⟩ | h0
      · have hf : s.components.find? (fun c => c.reference = r) = some c := by
          simp only [Sch.Schematic.components, h1, List.filterMap_append, List.filterMap_cons,
            Sch.Element.component?]
          rw [List.find?_append, List.find?_eq_none.2 (Undo.unnamed_components a r h3)]
          simp [h2]
        simp only [SchEdit.run, hf] at h
        rcases hr : runComp es c with d | _ | _ | _ <;> rw [hr] at h
        · cases h
          obtain ⟨e1, e2⟩ := C08_modify_component s r (fun _ => d) a b c h1 h2 h3
          have := Undo.comp_run es c d hr
          rw [e1, h1, show (s.modifyComponent r fun _ => d).sheets = s.sheets from rfl]
          simp only [List.map_append, List.map_cons, List.sum_append, List.sum_cons, Undo.load]
          exact ⟨by omega, le_refl _⟩
        all_goals cases h
      · have hf : s.components.find? (fun c => c.reference = r) = none := by
          exact List.find?_eq_none.2 (Undo.unnamed_components s.elements r h0)
        simp only [SchEdit.run, hf] at h
        cases h
        rw [C08_modify_component_absent s r _ h0]
        exact ⟨Nat.le_refl _, le_refl _⟩
    | incrementSheetCount =>
      simp only [SchEdit.run, Sch.Schematic.incrementSheetCount] at h
      split at h <;> cases h
      exact ⟨Nat.le_refl _, by simp⟩
    | append e => cases h; exact ⟨by simp, le_refl _⟩
    | appendSheet e => cases h; exact ⟨by simp, le_refl _⟩
  have run : ∀ (es : List (SchEdit F)) (s s' : Sch.Schematic F), runSch es s = .ok s' →
      schematicThings s ≤ schematicThings s' ∧ s.description.sheetCount ≤ s'.description.sheetCount := by
    intro es
    induction es with
    | nil => intro l l' h; cases h; exact ⟨Nat.le_refl _, le_refl _⟩
    | cons e es ih =>
      intro l l' h
      simp only [runSch] at h
      rcases hr : e.run l with k | x | _ | _ <;> rw [hr] at h
      · exact ⟨(step e l k hr).1.trans (ih k l' h).1, (step e l k hr).2.trans (ih k l' h).2⟩
      all_goals cases h
  have pos : ∀ e : Sch.Element F, 0 < Undo.load e := by intro e; cases e <;> simp [Undo.load]
  refine ⟨run es s, fun e h => ?_, fun x h => ?_, fun k hk h => ?_⟩
  · have := (run es _ _ h).1
    have := pos e
    simp [Undo.schematicThings_eq] at *
    omega
  · have := (run es _ _ h).1
    simp [Undo.schematicThings_eq] at this
  · have h1 := (run es _ _ h).2
    simp only [Sch.Schematic.incrementSheetCount] at hk
    split at hk <;> cases hk
    simp at h1

/-! ### Cases -/

/-- Renaming R1 to R2 can be undone in a footprint with the reference R1, not in one that shows R2 as
well. -/
example : ∃ m m' : Fp.Module Nm,
    (m.setReference (str! "R1") (str! "R2")).setReference (str! "R2") (str! "R1") = m ∧
    m.setReference (str! "R1") (str! "R2") ≠ m ∧
    (m'.setReference (str! "R1") (str! "R2")).setReference (str! "R2") (str! "R1") ≠ m' :=
  ⟨⟨str! "R", [.text (Fp.FpText.new (str! "reference") (str! "R1"))]⟩,
    ⟨str! "R", [.text (Fp.FpText.new (str! "reference") (str! "R1")),
      .text (Fp.FpText.new (str! "reference") (str! "R2"))]⟩, by decide, by decide, by decide⟩

/-- Joining two nets cannot be undone. -/
example : ∃ l : Lay.Layout Nm, (do
    let l' ← l.changeNetName (str! "GND") (str! "VCC")
    l'.changeNetName (str! "VCC") (str! "GND")) ≠ .ok l :=
  ⟨{ Lay.Layout.dflt with elements := [.net ⟨1, str! "GND"⟩, .net ⟨2, str! "VCC"⟩] },
    fun h => absurd ((C127_board_net _ _ _).1 h) (by decide)⟩

/-- Setting a field and setting it back leaves a visible own field hidden. -/
example : ∃ c : Sch.Component Nm, (c.updateField (str! "MPN") (str! "X")).updateField (str! "MPN") (str! "Y") ≠ c ∧
    ∀ f ∈ c.fields, f.name = str! "MPN" → f.value = str! "Y" :=
  ⟨⟨[], [], [], 0, 0, [], [{ Sch.Field.newFrom 4 (str! "MPN") (str! "Y") ⟨0⟩ ⟨0⟩ with visible := true }],
    ⟨0, 0, 0, 0⟩⟩, by decide, by decide⟩

/-- A setting that is there can be put back. -/
example : ((Lay.Setup.mk [⟨str! "grid", str! "1", none⟩] []).updateElement (str! "grid") (str! "2")).updateElement
    (str! "grid") (str! "1") = ⟨[⟨str! "grid", str! "1", none⟩], []⟩ := by decide

end Verif
