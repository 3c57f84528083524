import Verif.Props.C141
import Verif.Props.C143
/-!
# C144: taking components out of a schematic

A program removes the components with a designator, or any other elements, from the elements of a schematic.
-/

namespace Verif
open Flt Spec Sch

set_option linter.unusedSectionVars false

variable {F : Type} [Flt F]

/-- `schematic.elements.retain(keep)`, on the public field (src/schematic.rs 27-28). -/
def Spec.keepOnly (keep : Element F → Bool) (s : Schematic F) : Schematic F := { s with elements := s.elements.filter keep }

/-- Not a component with this designator (the field `reference`, src/schematic.rs 397-398). -/
def Spec.notNamed (r : Str) : Element F → Bool
  | .component c => decide (c.reference ≠ r)
  | _ => true

/-- The schematic without the components with this designator. -/
def Spec.takeOut (r : Str) (s : Schematic F) : Schematic F := keepOnly (notNamed r) s

/-- The sheets of the schematic and nothing else of it. -/
def Spec.onlySheets (s : Schematic F) : Schematic F := { s with elements := [] }

namespace Out

theorem components (r : Str) (s : Schematic F) : (takeOut r s).components = s.components.filter fun c => decide (c.reference ≠ r) := by
  simp only [Schematic.components, takeOut, keepOnly]
  generalize s.elements = es
  induction es with
  | nil => rfl
  | cons e es ih =>
    cases e with
    | component c =>
      by_cases h : c.reference = r
      · simpa [List.filter_cons, notNamed, h, Element.component?] using ih
      · simpa [List.filter_cons, notNamed, h, Element.component?] using ih
    | _ => rw [List.filter_cons_of_pos rfl, List.filterMap_cons_none rfl, List.filterMap_cons_none rfl, ih]

/-- Only the components of the page and its sheets count for the search. -/
theorem search (w : World) (r : Str) (n : Nat) (s t : Schematic F) (hf : t.filename = s.filename) (hs : t.sheets = s.sheets)
    (hc : (t.components.find? fun c => c.reference = r) = s.components.find? fun c => c.reference = r) :
    componentByReference w r n t = componentByReference w r n s := by
  cases n with
  | zero => rfl
  | succ n =>
    simp only [componentByReference, hc, hs]
    rw [Paste.find_congr _ fun x _ => Paste.load_eq (w := w) hf x]

theorem fold {α : Type} [OrdLaws F] (box : α → Bound F) (keep : α → Bool) (es : List α) : ∀ {a b : Bound F}, Off.Sub a b →
    Off.Sub ((es.filter keep).foldl (fun b e => b.update (box e)) a) (es.foldl (fun b e => b.update (box e)) b) := by
  induction es with
  | nil => exact fun h => h
  | cons e es ih =>
    intro a b h
    by_cases hk : keep e = true
    · rw [List.filter_cons_of_pos hk]
      exact ih (Off.both _ h)
    · rw [List.filter_cons_of_neg hk]
      exact ih (Off.grow _ h)

theorem upright {α : Type} [MonoLaws F] (box : α → Bound F) (es : List α) (hu : ∀ e ∈ es, Upright (box e)) :
    ∀ c : Bound F, Upright c → Upright (es.foldl (fun b e => b.update (box e)) c) := by
  induction es with
  | nil => exact fun c h => h
  | cons e es ih =>
    intro c h
    exact ih (fun v hm => hu v (List.mem_cons_of_mem _ hm)) _ (upright_update h (hu e (List.mem_cons_self ..)))

end Out

/-- The components of the page are those with another designator, in the same order; designators that were different stay so. -/
theorem C144_components (r : Str) (s : Schematic F) :
    (takeOut r s).components = s.components.filter (fun c => decide (c.reference ≠ r)) ∧
    r ∉ refs (takeOut r s) ∧ ((refs s).Nodup → (refs (takeOut r s)).Nodup) := by
  refine ⟨Out.components r s, ?_, fun h => ?_⟩
  · simp [refs, Out.components]
  · simp only [refs, Out.components]
    exact List.Nodup.sublist (List.filter_sublist.map _) h

/-- Searching: a designator that was not taken out is found as before; the one taken out is found only on sheets. -/
theorem C144_search (w : World) (r : Str) (n : Nat) (s : Schematic F) :
    (∀ q, q ≠ r → componentByReference w q n (takeOut r s) = componentByReference w q n s) ∧
    componentByReference w r n (takeOut r s) = componentByReference w r n (onlySheets s) := by
  refine ⟨fun q hq => Out.search w q n _ _ rfl rfl ?_, Out.search w r n _ _ rfl rfl ?_⟩
  · rw [Out.components, List.find?_filter]
    congr 1
    funext c
    by_cases h : c.reference = q
    · simp [h, hq]
    · simp [h]
  · rw [Out.components, List.find?_filter]
    have : (onlySheets s).components = [] := rfl
    rw [this, List.find?_nil, List.find?_eq_none]
    intro c _ h
    simp at h

/-- Collecting all components succeeds as before and gives all but those taken out of the page. -/
theorem C144_all (w : World) (r : Str) (n : Nat) (s : Schematic F) :
    (∀ v, allComponents w n s = .ok v → ∃ u, v = s.components ++ u ∧
      allComponents w n (takeOut r s) = .ok (s.components.filter (fun c => decide (c.reference ≠ r)) ++ u)) ∧
    (∀ v, allComponents w n (takeOut r s) = .ok v → ∃ v', allComponents w n s = .ok v') := by
  cases n with
  | zero => exact ⟨fun v h => (by cases h), fun v h => (by cases h)⟩
  | succ n =>
    let sub : Schematic F → Sheet → Res (List (Component F)) := fun s sheet => do
      let x ← parseFileForSheet w s sheet
      allComponents w n x
    have hs : ∀ x, sub (takeOut r s) x = sub s x := fun x => by
      simp only [sub, Paste.load_eq (s := s) (s' := takeOut r s) rfl]
    have e1 : allComponents w (n + 1) s = sheetsComponents (sub s) s.sheets s.components := rfl
    have e2 : allComponents w (n + 1) (takeOut r s) = sheetsComponents (sub s) s.sheets (takeOut r s).components := by
      have : allComponents w (n + 1) (takeOut r s) = sheetsComponents (sub (takeOut r s)) s.sheets (takeOut r s).components := rfl
      rw [this, Paste.walk_congr _ fun x _ => hs x]
    rw [e1, e2, Out.components]
    constructor
    · intro v h
      obtain ⟨u, h1, h2⟩ := (Paste.walk_from _ _ _ _).1 h
      exact ⟨u, h2, (Paste.walk_from _ _ _ _).2 ⟨u, h1, rfl⟩⟩
    · intro v h
      obtain ⟨u, h1, _⟩ := (Paste.walk_from _ _ _ _).1 h
      exact ⟨_, (Paste.walk_from _ _ _ _).2 ⟨u, h1, rfl⟩⟩

/-- In the bill of materials each line loses the components taken out. -/
theorem C144_bom (names : List Str) (w : World) (r : Str) (n : Nat) (s : Schematic F) (v v' : List (Component F))
    (h : allComponents w n s = .ok v) (h' : allComponents w n (takeOut r s) = .ok v') (k : List (Option Str)) :
    howMany names v k = howMany names v' k + howMany names (s.components.filter fun c => decide (c.reference = r)) k := by
  obtain ⟨u, rfl, h1⟩ := (C144_all w r n s).1 v h
  rw [h'] at h1
  cases h1
  simp only [howMany, List.countP_append]
  have : s.components.countP (fun c => decide (listedUnder names c = k)) =
      (s.components.filter fun c => decide (c.reference ≠ r)).countP (fun c => decide (listedUnder names c = k)) +
      (s.components.filter fun c => decide (c.reference = r)).countP (fun c => decide (listedUnder names c = k)) := by
    generalize s.components = cs
    induction cs with
    | nil => rfl
    | cons c cs ih =>
      by_cases hr : c.reference = r
      · simp only [List.filter_cons, hr, ne_eq, not_true_eq_false, decide_false, decide_true, if_true, List.countP_cons, Bool.false_eq_true, if_false] at ih ⊢
        omega
      · simp only [List.filter_cons, hr, ne_eq, not_false_eq_true, decide_false, decide_true, if_true, List.countP_cons, Bool.false_eq_true, if_false] at ih ⊢
        omega
  omega

/-- Components come out in any order, and before or after schematics are pasted. -/
theorem C144_order (q r : Str) (s t : Schematic F) : takeOut r (paste s t) = paste (takeOut r s) (takeOut r t) ∧
    takeOut r (takeOut q s) = takeOut q (takeOut r s) ∧ takeOut r (takeOut r s) = takeOut r s := by
  refine ⟨?_, ?_, ?_⟩
  · simp only [takeOut, keepOnly, paste, List.filter_append]
  · simp only [takeOut, keepOnly, List.filter_filter, Bool.and_comm]
  · simp only [takeOut, keepOnly, List.filter_filter, Bool.and_self]

/-- Whatever is removed, what fits the format still does and is read back. -/
theorem C144_saved [TextLaws F] (keep : Element F → Bool) (s : Schematic F) (hs : FitsSchematic s) (f : Str) :
    parse (some f) (keepOnly keep s).show = .ok { keepOnly keep s with filename := some f } := by
  refine C01_roundtrip_named _ ?_ f
  obtain ⟨a, b, c, k, d, e⟩ := hs
  exact ⟨a, b, c, k, fun x hx => d x (List.mem_filter.1 hx).1, e⟩

/-- Whatever is removed, there is a box exactly if there was one; it gets no larger if the components are not below the
diagonal and no sheet has a negative size. -/
theorem C144_box [MonoLaws F] [IntLaws F] (keep : Element F → Bool) (s : Schematic F) :
    ((∃ b, (keepOnly keep s).bound = .ok b) ↔ ∃ b, s.bound = .ok b) ∧
    ((∀ c, Element.component c ∈ s.elements → c.y ≤ c.x) → (∀ sh ∈ s.sheets, 0 ≤ sh.dimx ∧ 0 ≤ sh.dimy) →
      ∀ b b', s.bound = .ok b → (keepOnly keep s).bound = .ok b' → ∀ x y, Inside b' x y → Inside b x y) := by
  refine ⟨by rw [(C12_bound_total _).1, (C12_bound_total _).1]; rfl, fun hc hd b b' hb hb' x y h => ?_⟩
  have hf := (C12_bound_total s).1.1 ⟨b, hb⟩
  rw [Schematic.bound_of_fits s hf] at hb
  rw [Schematic.bound_of_fits (keepOnly keep s) hf] at hb'
  have M := @IntLaws.ofInt_mono F _ _
  have h0 : Upright (Bound.dflt : Bound F) := ⟨OrdLaws.le_refl _, OrdLaws.le_refl _⟩
  have he : ∀ e ∈ s.elements, Upright e.bound := by
    intro e hm
    cases e with
    | component c => exact ⟨M _ _ (hc c hm), OrdLaws.le_refl _⟩
    | _ => exact h0
  have hsh : ∀ sh ∈ s.sheets, Upright (sh.box : Bound F) := by
    intro sh hm
    obtain ⟨h1, h2⟩ := hd sh hm
    exact ⟨M _ _ (by omega), M _ _ (by omega)⟩
  have up : ∀ es : List (Element F), (∀ e ∈ es, Upright e.bound) →
      ((s.sheets.foldl (fun b a => b.update a.box) (es.foldl (fun b a => b.update a.bound) Bound.dflt)) : Bound F).swapIfNeeded =
        s.sheets.foldl (fun b a => b.update a.box) (es.foldl (fun b a => b.update a.bound) Bound.dflt) := fun es hes =>
    (C49_swap_upright _).2.2.2.2.2.2 (Out.upright _ _ hsh _ (Out.upright _ _ hes _ h0))
  rw [up _ he] at hb
  have hb2 : (keepOnly keep s).sheets = s.sheets := rfl
  have hb3 : (keepOnly keep s).elements = s.elements.filter keep := rfl
  rw [hb2, hb3, up _ fun e hm => he e (List.mem_filter.1 hm).1] at hb'
  cases hb
  cases hb'
  have hs := Out.fold (fun e : Element F => e.bound) keep s.elements (a := (Bound.dflt : Bound F)) (b := Bound.dflt) fun h => ⟨h, Off.enc_refl _⟩
  have hs2 := Out.fold (fun sh : Sheet => (sh.box : Bound F)) (fun _ => true) s.sheets hs
  rw [List.filter_true] at hs2
  obtain ⟨k1, k2⟩ := hs2 h.1
  exact ⟨k1, OrdLaws.le_trans _ _ _ k2.1 h.2.1, OrdLaws.le_trans _ _ _ h.2.2.1 k2.2.2.1, OrdLaws.le_trans _ _ _ k2.2.1 h.2.2.2.1,
    OrdLaws.le_trans _ _ _ h.2.2.2.2 k2.2.2.2⟩

/-! ### Cases -/

def Out.two : Schematic Nm := { (Schematic.dflt : Schematic Nm) with elements :=
  [.component { sampleComponent Nm with reference := str! "A", x := 0, y := 10 },
   .component { sampleComponent Nm with reference := str! "B", x := 5, y := 10 },
   .component { sampleComponent Nm with reference := str! "C", x := 10, y := 10 }] }

/-- Without the condition the box can grow when a component is taken out, because the code takes `y` for the left edge. -/
theorem C144_box_grows : ∃ (s : Schematic Nm) (r : Str) (b b' : Bound Nm) (x y : Nm), s.bound = .ok b ∧ (takeOut r s).bound = .ok b' ∧
    Inside b' x y ∧ ¬ Inside b x y :=
  ⟨Out.two, str! "C", _, _, ofInt 5, ofInt 10, rfl, rfl, by unfold Inside; decide +kernel, by unfold Inside; decide +kernel⟩

example : refs (takeOut (str! "B") Out.two) = [str! "A", str! "C"] ∧ (refs Out.two).Nodup := by decide +kernel

example : (allComponents Spec.sampleWorld 3 Out.two).map (·.length) = .ok 3 ∧
    (allComponents Spec.sampleWorld 3 (takeOut (str! "B") Out.two)).map (·.length) = .ok 2 := by decide +kernel

example : FitsSchematic (sampleSchematic Nm) ∧ (sampleSchematic Nm).elements ≠ [] := by decide +kernel

/-- A schematic for which the box gets no larger. -/
example : ∃ s : Schematic Nm, (∀ c, Element.component c ∈ s.elements → c.y ≤ c.x) ∧ (∀ sh ∈ s.sheets, 0 ≤ sh.dimx ∧ 0 ≤ sh.dimy) ∧
    s.components ≠ [] ∧ s.sheets ≠ [] ∧ ∃ b, s.bound = .ok b :=
  ⟨{ (Schematic.dflt : Schematic Nm) with elements := [.component { sampleComponent Nm with x := 7, y := 3 }], sheets := [{ Sheet.dflt with dimx := 5, dimy := 7 }] },
    fun c h => by cases List.mem_singleton.1 h; decide, fun sh h => by cases List.mem_singleton.1 h; decide,
    by simp [Schematic.components, Element.component?], by simp,
    (C12_bound_total _).1.2 fun sh h => by cases List.mem_singleton.1 h; simp [SheetFits, Sheet.dflt, inI64]⟩

end Verif
