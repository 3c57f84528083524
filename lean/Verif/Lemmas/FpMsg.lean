import Verif.Lemmas.TreeMsg
/-!
# Lemmas: the messages about footprints
-/

set_option linter.unusedSimpArgs false

namespace Verif
open Spec Sx Tree Flt Answer Sx.Msg

variable {F : Type} [Flt F]

namespace Fp.Msg

/-! ## The same outcomes without the messages -/

@[simp] theorem forget_layerSide (s : Str) : (layerSide s).forget = LayerSide.fromString s := by
  unfold layerSide LayerSide.fromString
  simp only [forget_ite, forget_ok, forget_own]

@[simp] theorem forget_layerOf (s : Str) : (layerOf s).forget = Layer.fromString s := by
  unfold layerOf Layer.fromString
  generalize splitPred (· == '.') s = v
  rcases v with _ | ⟨a, _ | ⟨b, _ | ⟨c, l⟩⟩⟩ <;> simp

@[simp] theorem forget_layer (e : Sexp) : (layer e).forget = Layer.de e := by simp [layer, Layer.de]

@[simp] theorem forget_layers (e : Sexp) : (layers e).forget = Layers.de e := by simp [layers, Layers.de]

@[simp] theorem forget_xy (e : Sexp) : (xy e : Answer (Xy F)).forget = Xy.de e := by
  unfold xy Xy.de
  simp only [forget_bind, forget_lift, forget_ite, forget_ok, forget_own]

@[simp] theorem forget_pts (e : Sexp) : (pts e : Answer (List (Xy F))).forget = Pts.de e := by simp [pts, Pts.de]

@[simp] theorem forget_second (disp : Sexp → Str) (e : Sexp) : (second disp e).forget = Fp.second e := by
  unfold second Fp.second
  rw [forget_bind, forget_lift]
  congr 1
  funext v
  rcases v with _ | ⟨a, _ | ⟨b, l⟩⟩ <;> rfl

@[simp] theorem forget_part (disp : Sexp → Str) (e : Sexp) : (part disp e : Answer (Part F)).forget = Part.de e := by
  unfold part Part.de
  simp only [forget_bind, forget_lift, forget_ite, forget_ok, forget_own, forget_second]

@[simp] theorem forget_padType (s : Str) : (padType s).forget = PadType.fromString s := by
  unfold padType PadType.fromString
  simp only [forget_ite, forget_ok, forget_own]

@[simp] theorem forget_padShape (s : Str) : (padShape s).forget = PadShape.fromString s := by
  unfold padShape PadShape.fromString
  simp only [forget_ite, forget_ok, forget_own]

@[simp] theorem forget_addParts (dbg : F → Str) (l : List (Part F)) (p : Pad F) :
    (addParts dbg p l).forget = Pad.addParts p l := by
  induction l generalizing p with
  | nil => rfl
  | cons x l ih => cases x <;> simp [addParts, Pad.addParts, ih]

@[simp] theorem forget_pad (disp : Sexp → Str) (dbg : F → Str) (e : Sexp) : (pad disp dbg e).forget = Pad.de e := by
  unfold pad Pad.de
  simp only [forget_bind, forget_lift, forget_padType, forget_padShape, forget_vec, forget_part, forget_addParts]
  rfl

@[simp] theorem forget_elem (disp : Sexp → Str) (dbg : F → Str) (e : Sexp) : (elem disp dbg e).forget = Elem.de e := by
  unfold elem Elem.de
  split
  · simp only [forget_ite, forget_ok, forget_own]
  · rfl
  · simp only [forget_bind, forget_lift, forget_ite, forget_own, forget_map, forget_layer, forget_pad]

@[simp] theorem forget_module (disp : Sexp → Str) (dbg : F → Str) (e : Sexp) :
    (module_ disp dbg e).forget = Module.de e := by
  unfold module_ Module.de
  simp only [forget_bind, forget_lift, forget_vec, forget_elem, forget_ok]

@[simp] theorem forget_parse (disp : Sexp → Str) (dbg : F → Str) (t : Str) : (parse disp dbg t).forget = Fp.parse t := by
  unfold parse Fp.parse
  simp only [forget_bind, forget_lift, forget_module]

/-! ## Layers and points -/

theorem layerSide_own (s m : Str) :
    layerSide s = .own m ↔ s ∉ layerSides.map Prod.fst ∧ m = str! "unknown layer side " ++ s := by
  unfold layerSide layerSides
  simp only [List.map_cons, List.map_nil, List.mem_cons, List.not_mem_nil, or_false, not_or]
  constructor
  · intro h
    repeat (split at h; · cases h)
    cases h
    refine ⟨⟨?_, ?_, ?_, ?_, ?_, ?_, ?_, ?_, ?_, ?_⟩, rfl⟩ <;> assumption
  · rintro ⟨⟨h1, h2, h3, h4, h5, h6, h7, h8, h9, h10⟩, rfl⟩
    rw [if_neg h1, if_neg h2, if_neg h3, if_neg h4, if_neg h5, if_neg h6, if_neg h7, if_neg h8, if_neg h9, if_neg h10]

theorem layerOf_own (s m : Str) : layerOf s = .own m ↔ LayerWordTells (.str s) m := by
  unfold layerOf LayerWordTells
  simp only [Sexp.str.injEq]
  obtain ⟨a, ha, ⟨rfl, hs⟩ | ⟨r, rfl, hs⟩⟩ := splitPred_two s
  · rw [hs]
    constructor
    · intro h; cases h
    · rintro ⟨x, y, rfl, _⟩; simp at ha
  · rw [hs]
    obtain ⟨b, hb, ⟨rfl, hr⟩ | ⟨r', rfl, hr⟩⟩ := splitPred_two r
    · rw [hr]
      simp only [bind_eq_own, layerSide_own]
      constructor
      · rintro (⟨h, rfl⟩ | ⟨_, _, h⟩)
        · exact ⟨a, r, rfl, ha, hb, h, rfl⟩
        · cases h
      · rintro ⟨x, y, e, hx, hy, h, rfl⟩
        have h3 := splitPred_cons (· == '.') a r '.' (dotFree.2 ha) (by simp)
        have h4 := splitPred_cons (· == '.') x y '.' (dotFree.2 hx) (by simp)
        rw [e, h4] at h3
        have := (List.cons.inj h3).1
        subst this
        exact .inl ⟨h, rfl⟩
    · rw [hr]
      have hne : ∃ c cs, splitPred (· == '.') r' = c :: cs := by
        cases h : splitPred (· == '.') r' with
        | nil => exact absurd h (splitPred_ne_nil _ _)
        | cons c cs => exact ⟨c, cs, rfl⟩
      obtain ⟨c, cs, hcs⟩ := hne
      rw [hcs]
      constructor
      · intro h; cases h
      · rintro ⟨x, y, e, hx, hy, _⟩
        exfalso
        have h3 := splitPred_cons (· == '.') a (b ++ '.' :: r') '.' (dotFree.2 ha) (by simp)
        have h4 := splitPred_cons (· == '.') x y '.' (dotFree.2 hx) (by simp)
        rw [e, h4, splitPred_none _ _ (dotFree.2 hy), hr, hcs] at h3
        simp at h3

/-- A word of the table of layers, as a part. -/
theorem layerWord_spot {β : Type} {g : Str × List Sexp → Answer β} {k : Layer → List Sexp → Answer β} {ss : List Spot} {m : Str}
    (hg : ∀ s r, g (s, r) = (layerOf s >>= fun a => k a r)) (hk : ∀ a r, k a r = .own m ↔ Blame ss r m) (l : List Sexp) :
    (lift (Sx.eat string l) >>= g) = .own m ↔ Blame (.need LayerWordReads LayerWordTells :: ss) l m := by
  rw [lift_bind_own]
  constructor
  · rintro ⟨⟨s, r⟩, h, h2⟩
    rw [hg] at h2
    obtain ⟨x, rfl, hx⟩ := (eat_iff ..).1 h
    rw [string_iff] at hx
    subst hx
    rcases bind_eq_own.1 h2 with h2 | ⟨a, ha, h2⟩
    · exact .here ((layerOf_own ..).1 h2)
    · refine .next ⟨s, a, rfl, ?_⟩ ((hk ..).1 h2)
      rw [eq_ok, forget_layerOf] at ha
      exact (layerWord_iff ..).1 ha
  · intro h
    cases h with
    | here h =>
      obtain ⟨a, b, rfl, _⟩ := id h
      exact ⟨(_, _), (eat_iff ..).2 ⟨_, rfl, (string_iff ..).2 rfl⟩, (hg ..).trans (bind_eq_own.2 (.inl ((layerOf_own ..).2 h)))⟩
    | next hx h =>
      obtain ⟨s, a, rfl, hs⟩ := hx
      refine ⟨(_, _), (eat_iff ..).2 ⟨_, rfl, (string_iff ..).2 rfl⟩, (hg ..).trans (bind_eq_own.2 (.inr ⟨a, ?_, (hk ..).2 h⟩))⟩
      rw [eq_ok, forget_layerOf]
      exact (layerWord_iff ..).2 hs

theorem layer_own (e : Sexp) (m : Str) : layer e = .own m ↔ LayerTells e m :=
  within_iff fun r => layerWord_spot (fun _ _ => rfl) (fun _ r => quiet_done (quiet_lift _) r m) r

theorem layer_reads (x : Sexp) : (∃ a, layer x = .ok a) ↔ Reads LayerTree x := by
  simp only [eq_ok, forget_layer, layer_iff, Reads]

theorem layers_reads (x : Sexp) : (∃ a, layers x = .ok a) ↔ Reads LayersTree x := by
  simp only [eq_ok, forget_layers, layers_iff, Reads]

theorem layerPart_reads (v : Sexp) :
    (∃ a, (lift (string v) >>= fun x => layerOf x) = .ok a) ↔ LayerWordReads v := by
  simp only [eq_ok, forget_bind, forget_lift, forget_layerOf, Res.bind_eq_ok, string_iff, layerWord_iff]
  constructor
  · rintro ⟨a, s, rfl, h⟩; exact ⟨s, a, rfl, h⟩
  · rintro ⟨s, a, rfl, h⟩; exact ⟨a, s, rfl, h⟩

theorem layerPart_own (v : Sexp) (m : Str) :
    (lift (string v) >>= fun x => layerOf x) = .own m ↔ LayerWordTells v m := by
  rw [lift_bind_own]
  simp only [string_iff, layerOf_own]
  constructor
  · rintro ⟨s, rfl, h⟩; exact h
  · intro h
    obtain ⟨a, b, rfl, _⟩ := id h
    exact ⟨_, rfl, h⟩

theorem layers_own (e : Sexp) (m : Str) : layers e = .own m ↔ LayersTells e m := by
  refine within_iff fun r => ?_
  rw [blame_rest]
  exact vec_own layerPart_reads layerPart_own r m

theorem xy_own (e : Sexp) (m : Str) : (xy e : Answer (Xy F)) = .own m ↔ XyTells e m := by
  unfold xy XyTells UnknownName xyNames
  rw [lift_bind_own]
  simp only [listName_iff, List.map_cons, List.map_nil, List.mem_cons, List.not_mem_nil, or_false, not_or]
  constructor
  · rintro ⟨n, ⟨r, rfl⟩, h⟩
    have hq : ∀ t : XyType, ¬ (lift (iter n (.list (.str n :: r))) >>= fun i => lift (Sx.eat (flt (F := F)) i) >>= fun x =>
        lift (Sx.eat (flt (F := F)) x.2) >>= fun y => lift (close y.2 (⟨x.1, y.1, t⟩ : Xy F))) = .own m :=
      fun t => quiet_bind (fun _ => quiet_bind (fun _ => quiet_bind (fun _ => quiet_lift _))) m
    rcases bind_eq_own.1 h with h | ⟨t, ht, h⟩
    · repeat (split at h; · cases h)
      cases h
      exact ⟨n, r, rfl, ⟨by assumption, by assumption, by assumption, by assumption, by assumption, by assumption⟩, rfl⟩
    · exact absurd h (hq t)
  · rintro ⟨n, r, rfl, ⟨h1, h2, h3, h4, h5, h6⟩, rfl⟩
    refine ⟨n, ⟨r, rfl⟩, ?_⟩
    rw [if_neg h1, if_neg h2, if_neg h3, if_neg h4, if_neg h5, if_neg h6]
    rfl

theorem xy_reads (x : Sexp) : (∃ a, (xy x : Answer (Xy F)) = .ok a) ↔ Reads (XyTree (F := F)) x := by
  simp only [eq_ok, forget_xy, xy_iff, Reads]

theorem pts_own (e : Sexp) (m : Str) : (pts e : Answer (List (Xy F))) = .own m ↔ PtsTells F e m := by
  refine within_iff fun r => ?_
  rw [blame_rest]
  exact vec_own xy_reads xy_own r m

theorem pts_reads (x : Sexp) : (∃ a, (pts x : Answer (List (Xy F))) = .ok a) ↔ Reads (PtsTree (F := F)) x := by
  simp only [eq_ok, forget_pts, pts_iff, Reads]

/-! ## Pads -/

theorem padType_own (s m : Str) :
    padType s = .own m ↔ UnknownWord padTypes (str! "unknown PadType ") (.str s) m := by
  unfold padType padTypes UnknownWord
  simp only [List.map_cons, List.map_nil, List.mem_cons, List.not_mem_nil, or_false, not_or, Sexp.str.injEq,
    exists_eq_left']
  constructor
  · intro h
    repeat (split at h; · cases h)
    cases h
    exact ⟨⟨by assumption, by assumption, by assumption⟩, rfl⟩
  · rintro ⟨⟨h1, h2, h3⟩, rfl⟩
    rw [if_neg h1, if_neg h2, if_neg h3]

theorem padShape_own (s m : Str) :
    padShape s = .own m ↔ UnknownWord padShapes (str! "unknown PadShape: ") (.str s) m := by
  unfold padShape padShapes UnknownWord
  simp only [List.map_cons, List.map_nil, List.mem_cons, List.not_mem_nil, or_false, not_or, Sexp.str.injEq,
    exists_eq_left']
  constructor
  · intro h
    repeat (split at h; · cases h)
    cases h
    exact ⟨⟨by assumption, by assumption, by assumption, by assumption⟩, rfl⟩
  · rintro ⟨⟨h1, h2, h3, h4⟩, rfl⟩
    rw [if_neg h1, if_neg h2, if_neg h3, if_neg h4]

/-- A word of a table, as a part. -/
theorem word_spot {α β : Type} {f : Str → Answer α} {table : List (Str × α)} {about : Str}
    {g : Str × List Sexp → Answer β} {k : α → List Sexp → Answer β} {ss : List Spot} {m : Str} (hf : ∀ s a, (f s).forget = .ok a ↔ (s, a) ∈ table)
    (ho : ∀ s m, f s = .own m ↔ UnknownWord table about (.str s) m)
    (hg : ∀ s r, g (s, r) = (f s >>= fun a => k a r)) (hk : ∀ a r, k a r = .own m ↔ Blame ss r m) (l : List Sexp) :
    (lift (Sx.eat string l) >>= g) = .own m ↔
      Blame (.need (KnownWord table) (UnknownWord table about) :: ss) l m := by
  rw [lift_bind_own]
  constructor
  · rintro ⟨⟨s, r⟩, h, h2⟩
    rw [hg] at h2
    obtain ⟨x, rfl, hx⟩ := (eat_iff ..).1 h
    rw [string_iff] at hx
    subst hx
    rcases bind_eq_own.1 h2 with h2 | ⟨a, ha, h2⟩
    · exact .here ((ho ..).1 h2)
    · exact .next ⟨s, rfl, List.mem_map.2 ⟨(s, a), (hf ..).1 (eq_ok.1 ha), rfl⟩⟩ ((hk ..).1 h2)
  · intro h
    cases h with
    | here h =>
      obtain ⟨a, rfl, _⟩ := id h
      exact ⟨(_, _), (eat_iff ..).2 ⟨_, rfl, (string_iff ..).2 rfl⟩, (hg ..).trans (bind_eq_own.2 (.inl ((ho ..).2 h)))⟩
    | next hx h =>
      obtain ⟨s, rfl, hs⟩ := hx
      obtain ⟨⟨s', a⟩, ha, rfl⟩ := List.mem_map.1 hs
      exact ⟨(_, _), (eat_iff ..).2 ⟨_, rfl, (string_iff ..).2 rfl⟩,
        (hg ..).trans (bind_eq_own.2 (.inr ⟨a, eq_ok.2 ((hf ..).2 ha), (hk ..).2 h⟩))⟩

theorem second_own (disp : Sexp → Str) (n : Str) (r : List Sexp) (m : Str) :
    second disp (.list (.str n :: r)) = .own m ↔ r = [] ∧ m = str! "not enough elements in " ++ disp (.list [.str n]) := by
  cases r with
  | nil =>
    constructor
    · intro h; cases h; exact ⟨rfl, rfl⟩
    · rintro ⟨_, rfl⟩; rfl
  | cons x r =>
    constructor
    · intro h; cases h
    · rintro ⟨h, _⟩; cases h

theorem part_value_own {α : Type} (disp : Sexp → Str) (dec : Sexp → Res α) (c : α → Part F) (n : Str) (r : List Sexp)
    (m : Str) : (second disp (.list (.str n :: r)) >>= fun x => lift (dec x) >>= fun f => Answer.ok (c f)) = .own m ↔
      r = [] ∧ m = str! "not enough elements in " ++ disp (.list [.str n]) := by
  rw [bind_eq_own, second_own]
  constructor
  · rintro (h | ⟨a, _, h⟩)
    · exact h
    · exact absurd h (quiet_bind (fun _ => quiet_ok _) m)
  · exact .inl

theorem part_own (disp : Sexp → Str) (e : Sexp) (m : Str) : (part disp e : Answer (Part F)) = .own m ↔ PartTells disp e m := by
  unfold part
  rw [lift_bind_own]
  simp only [listName_iff]
  constructor
  · rintro ⟨n, ⟨r, rfl⟩, h⟩
    split at h
    · rename_i h1; subst h1
      obtain ⟨rfl, rfl⟩ := (part_value_own ..).1 h
      exact .inr ⟨_, by simp [padValueNames], rfl, rfl⟩
    split at h
    · exact absurd h (quiet_bind (fun _ => quiet_ok _) m)
    split at h
    · rename_i h1; subst h1
      obtain ⟨rfl, rfl⟩ := (part_value_own ..).1 h
      exact .inr ⟨_, by simp [padValueNames], rfl, rfl⟩
    split at h
    · rename_i h1; subst h1
      obtain ⟨rfl, rfl⟩ := (part_value_own ..).1 h
      exact .inr ⟨_, by simp [padValueNames], rfl, rfl⟩
    split at h
    · rename_i h1; subst h1
      obtain ⟨rfl, rfl⟩ := (part_value_own ..).1 h
      exact .inr ⟨_, by simp [padValueNames], rfl, rfl⟩
    split at h
    · rename_i h1; subst h1
      obtain ⟨rfl, rfl⟩ := (part_value_own ..).1 h
      exact .inr ⟨_, by simp [padValueNames], rfl, rfl⟩
    split at h
    · rename_i h1; subst h1
      obtain ⟨rfl, rfl⟩ := (part_value_own ..).1 h
      exact .inr ⟨_, by simp [padValueNames], rfl, rfl⟩
    cases h
    refine .inl ⟨n, r, rfl, ?_, rfl⟩
    simp only [padValueNames, List.mem_cons, List.not_mem_nil, or_false, not_or]
    refine ⟨?_, ?_, ?_, ?_, ?_, ?_, ?_⟩ <;> assumption
  · rintro (⟨n, r, rfl, hn, rfl⟩ | ⟨n, hn, rfl, rfl⟩)
    · refine ⟨n, ⟨r, rfl⟩, ?_⟩
      simp only [padValueNames, List.mem_cons, List.not_mem_nil, or_false, not_or] at hn
      obtain ⟨h1, h2, h3, h4, h5, h6, h7⟩ := hn
      rw [if_neg h2, if_neg h1, if_neg h3, if_neg h4, if_neg h5, if_neg h6, if_neg h7]
    · refine ⟨n, ⟨_, rfl⟩, ?_⟩
      simp only [padValueNames, List.mem_cons, List.not_mem_nil, or_false] at hn
      rcases hn with rfl | rfl | rfl | rfl | rfl | rfl <;> rfl

theorem part_reads (disp : Sexp → Str) (x : Sexp) : (∃ a, (part disp x : Answer (Part F)) = .ok a) ↔
    (Reads (PadEntryTree (F := F)) x ∨ Reads (Thickness F) x) := by
  simp only [eq_ok, forget_part, part_iff, Reads, Thickness]
  constructor
  · rintro ⟨a, ⟨b, rfl, h⟩ | ⟨en, rfl, h⟩⟩
    · exact .inr ⟨b, h⟩
    · exact .inl ⟨en, h⟩
  · rintro (⟨en, h⟩ | ⟨b, h⟩)
    · exact ⟨_, .inr ⟨en, rfl, h⟩⟩
    · exact ⟨_, .inl ⟨b, rfl, h⟩⟩

theorem addParts_own (dbg : F → Str) (ps : List (Part F)) (p : Pad F) (m : Str) :
    addParts dbg p ps = .own m ↔ ∃ (es : List (PadEntry F)) (v : F) (post : List (Part F)),
      ps = es.map entryPart ++ .thickness v :: post ∧ m = str! "pad: unknown Thickness(" ++ dbg v ++ str! ")" := by
  have hcons : ∀ (en : PadEntry F) (ps : List (Part F)),
      (∃ (es : List (PadEntry F)) (v : F) (post : List (Part F)), ps = es.map entryPart ++ .thickness v :: post ∧
        m = str! "pad: unknown Thickness(" ++ dbg v ++ str! ")") ↔
      ∃ (es : List (PadEntry F)) (v : F) (post : List (Part F)),
        entryPart en :: ps = es.map entryPart ++ .thickness v :: post ∧
        m = str! "pad: unknown Thickness(" ++ dbg v ++ str! ")" := by
    intro en ps
    constructor
    · rintro ⟨es, v, post, rfl, rfl⟩
      exact ⟨en :: es, v, post, rfl, rfl⟩
    · rintro ⟨es, v, post, h, rfl⟩
      cases es with
      | nil => cases en <;> cases h
      | cons e es =>
        rw [List.map_cons, List.cons_append] at h
        exact ⟨es, v, post, (List.cons.inj h).2, rfl⟩
  induction ps generalizing p with
  | nil =>
    constructor
    · intro h; cases h
    · rintro ⟨es, v, post, h, _⟩; cases es <;> cases h
  | cons x ps ih =>
    cases x with
    | thickness v =>
      constructor
      · intro h; cases h; exact ⟨[], v, ps, rfl, rfl⟩
      · rintro ⟨es, w, post, h, rfl⟩
        cases es with
        | nil => cases h; rfl
        | cons e es => cases e <;> cases h
    | net a => exact (ih _).trans (hcons (.net a) ps)
    | solderPasteMargin a => exact (ih _).trans (hcons (.solderPasteMargin a) ps)
    | solderMaskMargin a => exact (ih _).trans (hcons (.solderMaskMargin a) ps)
    | clearance a => exact (ih _).trans (hcons (.clearance a) ps)
    | thermalGap a => exact (ih _).trans (hcons (.thermalGap a) ps)
    | zoneConnect a => exact (ih _).trans (hcons (.zoneConnect a) ps)

/-- Which tree stands for which part. -/
def PartTree (e : Sexp) (p : Part F) : Prop :=
  (∃ a, p = .thickness a ∧ FirstValue (str! "thickness") NumTree e a) ∨ ∃ en, p = entryPart en ∧ PadEntryTree e en

theorem many_append {α : Type} {P : Sexp → α → Prop} {l : List Sexp} {as bs : List α} :
    Many P l (as ++ bs) ↔ ∃ l1 l2, l = l1 ++ l2 ∧ Many P l1 as ∧ Many P l2 bs := by
  induction as generalizing l with
  | nil =>
    constructor
    · intro h; exact ⟨[], l, rfl, .nil, h⟩
    · rintro ⟨l1, l2, rfl, h1, h2⟩; cases h1; exact h2
  | cons a as ih =>
    constructor
    · intro h
      cases h with
      | cons hx h =>
        obtain ⟨l1, l2, rfl, h1, h2⟩ := ih.1 h
        exact ⟨_ :: l1, l2, rfl, .cons hx h1, h2⟩
    · rintro ⟨l1, l2, rfl, h1, h2⟩
      cases h1 with
      | cons hx h1 => exact .cons hx (ih.2 ⟨_, _, rfl, h1, h2⟩)

theorem many_reads {α : Type} {P : Sexp → α → Prop} {l : List Sexp} : (∃ as, Many P l as) ↔ ∀ y ∈ l, Reads P y := by
  induction l with
  | nil => exact ⟨fun _ => by simp, fun _ => ⟨[], .nil⟩⟩
  | cons x l ih =>
    constructor
    · rintro ⟨as, h⟩
      cases h with
      | cons hx h =>
        intro y hy
        rcases List.mem_cons.1 hy with rfl | hy
        · exact ⟨_, hx⟩
        · exact ih.1 ⟨_, h⟩ y hy
    · intro h
      obtain ⟨a, ha⟩ := h x List.mem_cons_self
      obtain ⟨as, has⟩ := ih.2 fun y hy => h y (List.mem_cons_of_mem _ hy)
      exact ⟨a :: as, .cons ha has⟩

theorem partTree_reads (y : Sexp) : Reads (PartTree (F := F)) y ↔ Reads (PadEntryTree (F := F)) y ∨ Reads (Thickness F) y := by
  unfold Reads PartTree Thickness
  constructor
  · rintro ⟨a, ⟨b, rfl, h⟩ | ⟨en, rfl, h⟩⟩
    · exact .inr ⟨b, h⟩
    · exact .inl ⟨en, h⟩
  · rintro (⟨en, h⟩ | ⟨b, h⟩)
    · exact ⟨_, .inr ⟨en, rfl, h⟩⟩
    · exact ⟨_, .inl ⟨b, rfl, h⟩⟩

theorem entries_own (disp : Sexp → Str) (dbg : F → Str) (p : Pad F) (l : List Sexp) (m : Str) :
    (Sx.Msg.vec (part (F := F) disp) l >>= fun ps => addParts dbg p ps) = .own m ↔ EntriesTell F disp dbg l m := by
  rw [bind_eq_own, vec_own (part_reads disp) (part_own disp)]
  unfold EntriesTell
  refine or_congr Iff.rfl ?_
  simp only [eq_ok, forget_vec, forget_part]
  constructor
  · rintro ⟨ps, h1, h2⟩
    rw [vec_iff part_iff] at h1
    change Many PartTree l ps at h1
    obtain ⟨es, v, post, rfl, rfl⟩ := (addParts_own ..).1 h2
    obtain ⟨l1, l2, rfl, ha, hb⟩ := many_append.1 h1
    cases hb with
    | @cons x l2 _ _ hx hb =>
      refine ⟨l1, x, l2, v, rfl, ?_, ?_, ?_, rfl⟩
      · have := (parts_entries (F := F) l1 es).1 ((vec_iff part_iff ..).2 ha)
        exact many_reads.1 ⟨es, this⟩
      · rcases hx with ⟨a, h, hx⟩ | ⟨en, h, _⟩
        · cases h; exact hx
        · cases en <;> cases h
      · intro y hy
        exact (partTree_reads y).1 (many_reads.1 ⟨_, hb⟩ y hy)
  · rintro ⟨pre, x, post, v, rfl, hp, hx, hq, rfl⟩
    obtain ⟨es, hes⟩ := many_reads.2 hp
    obtain ⟨qs, hqs⟩ := many_reads.2 fun y hy => (partTree_reads y).2 (hq y hy)
    refine ⟨es.map entryPart ++ .thickness v :: qs, ?_, (addParts_own ..).2 ⟨es, v, qs, rfl, rfl⟩⟩
    rw [vec_iff part_iff]
    refine many_append.2 ⟨pre, x :: post, rfl, ?_, .cons (.inl ⟨v, rfl, hx⟩) hqs⟩
    exact (vec_iff part_iff ..).1 ((parts_entries (F := F) pre es).2 hes)

theorem pad_own (disp : Sexp → Str) (dbg : F → Str) (e : Sexp) (m : Str) :
    pad disp dbg e = .own m ↔ PadTells F disp dbg e m := by
  refine within_iff fun r => ?_
  refine eat_lift_spot word_iff (fun name r => ?_) r
  refine word_spot (f := padType) (fun s a => by rw [forget_padType, padType_iff]) padType_own (fun _ _ => rfl) (fun t r => ?_) r
  refine word_spot (f := padShape) (fun s a => by rw [forget_padShape, padShape_iff]) padShape_own (fun _ _ => rfl) (fun shape r => ?_) r
  refine maybe_spot at_iff At.de_calm (fun a r => ?_) r
  refine maybe_spot xy_iff Xy.de_calm (fun a r => ?_) r
  refine maybe_spot drill_iff Drill.de_calm (fun a r => ?_) r
  refine maybe_spot layers_iff Layers.de_calm (fun a r => ?_) r
  rw [blame_rest]
  exact entries_own disp dbg _ r m

/-! ## Footprints -/

theorem ite_cases {α : Type} {c : Prop} [Decidable c] {a b x : α} (h : (if c then a else b) = x) :
    c ∧ a = x ∨ ¬ c ∧ b = x := by
  by_cases hc : c
  · rw [if_pos hc] at h; exact .inl ⟨hc, h⟩
  · rw [if_neg hc] at h; exact .inr ⟨hc, h⟩

theorem elem_own (disp : Sexp → Str) (dbg : F → Str) (e : Sexp) (m : Str) :
    elem disp dbg e = .own m ↔ ElemTells F disp dbg e m := by
  cases e with
  | str w =>
    constructor
    · intro h
      unfold elem at h
      simp only at h
      split at h
      · cases h
      · cases h; exact .word (by assumption)
    · intro h
      cases h with
      | word h => exact if_neg h
      | name h => obtain ⟨n, r, h, _⟩ := h; cases h
      | layer h => obtain ⟨r, h, _⟩ := h; cases h
      | pad h => obtain ⟨r, h, _⟩ := h; cases h
  | empty =>
    constructor
    · intro h; cases h
    · intro h
      cases h with
      | name h => obtain ⟨n, r, h, _⟩ := h; cases h
      | layer h => obtain ⟨r, h, _⟩ := h; cases h
      | pad h => obtain ⟨r, h, _⟩ := h; cases h
  | list l =>
    have hq : ∀ {α : Type} (f : α → Elem F) (x : Res α), ¬ f <$> lift x = Answer.own m := by
      intro α f x
      rw [map_eq_own]
      exact lift_own x m
    unfold elem
    simp only []
    rw [lift_bind_own]
    simp only [listName_iff]
    constructor
    · rintro ⟨n, ⟨r, h'⟩, h⟩
      cases h'
      rcases ite_cases h with ⟨_, h⟩ | ⟨_, h⟩
      · exact absurd h (hq _ _)
      rcases ite_cases h with ⟨_, h⟩ | ⟨_, h⟩
      · exact .layer ((layer_own ..).1 ((map_eq_own ..).1 h))
      rcases ite_cases h with ⟨_, h⟩ | ⟨_, h⟩
      · exact absurd h (hq _ _)
      rcases ite_cases h with ⟨_, h⟩ | ⟨_, h⟩
      · exact absurd h (hq _ _)
      rcases ite_cases h with ⟨_, h⟩ | ⟨_, h⟩
      · exact absurd h (hq _ _)
      rcases ite_cases h with ⟨_, h⟩ | ⟨_, h⟩
      · exact absurd h (hq _ _)
      rcases ite_cases h with ⟨_, h⟩ | ⟨_, h⟩
      · exact .pad ((pad_own ..).1 ((map_eq_own ..).1 h))
      rcases ite_cases h with ⟨_, h⟩ | ⟨_, h⟩
      · exact absurd h (hq _ _)
      rcases ite_cases h with ⟨_, h⟩ | ⟨_, h⟩
      · exact absurd h (hq _ _)
      rcases ite_cases h with ⟨_, h⟩ | ⟨_, h⟩
      · exact absurd h (hq _ _)
      rcases ite_cases h with ⟨_, h⟩ | ⟨_, h⟩
      · exact absurd h (hq _ _)
      rcases ite_cases h with ⟨_, h⟩ | ⟨_, h⟩
      · exact absurd h (hq _ _)
      rcases ite_cases h with ⟨_, h⟩ | ⟨_, h⟩
      · exact absurd h (hq _ _)
      rcases ite_cases h with ⟨_, h⟩ | ⟨_, h⟩
      · exact absurd h (hq _ _)
      rcases ite_cases h with ⟨_, h⟩ | ⟨_, h⟩
      · exact absurd h (hq _ _)
      rcases ite_cases h with ⟨_, h⟩ | ⟨_, h⟩
      · exact absurd h (hq _ _)
      rcases ite_cases h with ⟨_, h⟩ | ⟨_, h⟩
      · exact absurd h (hq _ _)
      cases h
      refine .name ⟨n, r, rfl, ?_, rfl⟩
      intro hm
      simp only [elementNames, List.mem_cons, List.not_mem_nil, or_false] at hm
      rcases hm with hm | hm | hm | hm | hm | hm | hm | hm | hm | hm | hm | hm | hm | hm | hm | hm | hm <;>
        exact absurd hm (by assumption)
    · intro h
      cases h with
      | name h =>
        obtain ⟨n, r, h, hn, rfl⟩ := h
        cases h
        refine ⟨n, ⟨r, rfl⟩, ?_⟩
        simp only [elementNames, List.mem_cons, List.not_mem_nil, or_false, not_or] at hn
        obtain ⟨h1, h2, h3, h4, h5, h6, h7, h8, h9, h10, h11, h12, h13, h14, h15, h16, h17⟩ := hn
        rw [if_neg h1, if_neg h2, if_neg h3, if_neg h4, if_neg h5, if_neg h6, if_neg h7, if_neg h8, if_neg h9, if_neg h10,
          if_neg h11, if_neg h12, if_neg h13, if_neg h14, if_neg h15, if_neg h16, if_neg h17]
      | layer h =>
        obtain ⟨r, h', _⟩ := id h
        cases h'
        refine ⟨_, ⟨r, rfl⟩, ?_⟩
        rw [if_neg (by decide), if_pos rfl, map_eq_own]
        exact (layer_own ..).2 h
      | pad h =>
        obtain ⟨r, h', _⟩ := id h
        cases h'
        refine ⟨_, ⟨r, rfl⟩, ?_⟩
        rw [if_neg (by decide), if_neg (by decide), if_neg (by decide), if_neg (by decide), if_neg (by decide),
          if_neg (by decide), if_pos rfl, map_eq_own]
        exact (pad_own ..).2 h

theorem elem_reads (disp : Sexp → Str) (dbg : F → Str) (x : Sexp) :
    (∃ a, elem disp dbg x = .ok a) ↔ Reads (ElemTree (F := F)) x := by
  simp only [eq_ok, forget_elem, elem_iff, Reads]

theorem module_own (disp : Sexp → Str) (dbg : F → Str) (e : Sexp) (m : Str) :
    module_ disp dbg e = .own m ↔ ModuleTells F disp dbg e m := by
  refine within_iff fun r => ?_
  refine eat_lift_spot word_iff (fun name r => ?_) r
  rw [blame_rest, bind_eq_own, vec_own (elem_reads disp dbg) (elem_own disp dbg)]
  constructor
  · rintro (h | ⟨_, _, h⟩)
    · exact h
    · cases h
  · exact .inl

end Fp.Msg

end Verif
