import Verif.Props.C144
/-!
# C147: making one page of a hierarchy

A program reads the sheets of a schematic with `parse_file_for_sheet`, and their sheets, and puts the elements of all of
them on one page.
-/

namespace Verif
open Flt Spec Sch

set_option linter.unusedSectionVars false

variable {F : Type} [Flt F]

/-- The loop over the sheets of a page; `sub` is the recursive call. -/
def Spec.sheetsElements (sub : Sheet → Res (List (Element F))) : List Sheet → List (Element F) → Res (List (Element F))
  | [], v => .ok v
  | sheet :: r, v => do
    let v2 ← sub sheet
    sheetsElements sub r (v ++ v2)

/-- The elements of a page and of all sheets below it, read with `parse_file_for_sheet` (src/schematic.rs 1591-1594); the
number bounds the depth as in `all_components` (153-171). -/
def Spec.allElements (w : World) : Nat → Schematic F → Res (List (Element F))
  | 0, _ => .diverge
  | fuel + 1, s =>
    sheetsElements (fun sheet => do
      let sub ← parseFileForSheet w s sheet
      allElements w fuel sub) s.sheets s.elements

/-- The page with all elements and without sheets. -/
def Spec.onePage (w : World) (n : Nat) (s : Schematic F) : Res (Schematic F) := do
  let es ← allElements w n s
  .ok { s with elements := es, sheets := [] }

namespace Flat

/-- The components among elements. -/
def comps (es : List (Element F)) : List (Component F) := es.filterMap Element.component?

theorem map_bind {α β γ : Type} (f : β → γ) (x : Res α) (g : α → Res β) : (x >>= g).map f = x >>= fun a => (g a).map f := by
  cases x <;> rfl

theorem bind_map {α β γ : Type} (f : α → β) (x : Res α) (g : β → Res γ) : x.map f >>= g = x >>= fun a => g (f a) := by
  cases x <;> rfl

theorem loop (sub : Sheet → Res (List (Element F))) (l : List Sheet) : ∀ v : List (Element F),
    (sheetsElements sub l v).map comps = sheetsComponents (fun x => (sub x).map comps) l (comps v) := by
  induction l with
  | nil => exact fun v => rfl
  | cons x l ih =>
    intro v
    simp only [sheetsElements, sheetsComponents, map_bind, bind_map]
    congr 1
    funext u
    rw [ih]
    congr 1
    exact List.filterMap_append

theorem all (w : World) (n : Nat) : ∀ s : Schematic F, (allElements w n s).map comps = allComponents w n s := by
  induction n with
  | zero => exact fun s => rfl
  | succ n ih =>
    intro s
    simp only [allElements, allComponents, loop, map_bind, ih]
    rfl

theorem loop_mem (P : Element F → Prop) (sub : Sheet → Res (List (Element F))) (l : List Sheet)
    (hs : ∀ x ∈ l, ∀ u, sub x = .ok u → ∀ e ∈ u, P e) : ∀ v r : List (Element F), (∀ e ∈ v, P e) → sheetsElements sub l v = .ok r →
      ∀ e ∈ r, P e := by
  induction l with
  | nil => intro v r hv h; cases h; exact hv
  | cons x l ih =>
    intro v r hv h
    obtain ⟨u, h1, h2⟩ := Res.bind_eq_ok.1 h
    exact ih (fun y hy => hs y (List.mem_cons_of_mem _ hy)) (v ++ u) r
      (fun e he => (List.mem_append.1 he).elim (hv e) (hs x (List.mem_cons_self ..) u h1 e)) h2

theorem find_loop (r : Str) (load : Sheet → Res (Schematic F)) (sub : Schematic F → Res (List (Component F)))
    (search : Schematic F → Res (Component F))
    (hsub : ∀ t v, sub t = .ok v → search t = match v.find? (fun c => c.reference = r) with | some c => .ok c | none => .err .other) :
    ∀ (l : List Sheet) (v : List (Component F)), sheetsComponents (fun x => load x >>= sub) l [] = .ok v →
      sheetsFind load search l = match v.find? (fun c => c.reference = r) with | some c => .ok c | none => .err .other := by
  intro l
  induction l with
  | nil => intro v h; cases h; rfl
  | cons x l ih =>
    intro v h
    obtain ⟨u, h1, h2⟩ := Res.bind_eq_ok.1 h
    obtain ⟨t, h3, h4⟩ := Res.bind_eq_ok.1 h1
    obtain ⟨u', h5, rfl⟩ := (Paste.walk_from _ _ _ _).1 h2
    simp only [sheetsFind, h3, Res.bind_ok, hsub t u h4, List.nil_append, List.find?_append]
    cases u.find? (fun c => c.reference = r) with
    | some c => rfl
    | none =>
      simp only [Option.none_or]
      exact ih u' h5

theorem find (w : World) (r : Str) (n : Nat) : ∀ (s : Schematic F) (v : List (Component F)), allComponents w n s = .ok v →
    componentByReference w r n s = match v.find? (fun c => c.reference = r) with | some c => .ok c | none => .err .other := by
  induction n with
  | zero => intro s v h; cases h
  | succ n ih =>
    intro s v h
    obtain ⟨u, h1, rfl⟩ := (Paste.walk_from _ _ _ _).1 h
    simp only [componentByReference, List.find?_append]
    cases s.components.find? (fun c => c.reference = r) with
    | some c => rfl
    | none =>
      simp only [Option.none_or]
      exact find_loop r _ _ _ (fun t v h => ih t v h) s.sheets u h1

end Flat

/-- The components of the page are those that `all_components` gives, in the same order; it fails as that does. -/
theorem C147_components (w : World) (n : Nat) (s : Schematic F) :
    (onePage w n s).map (fun p => p.components) = allComponents w n s ∧
    ∀ p, onePage w n s = .ok p → p.sheets = [] ∧ ∀ w' m, allComponents w' (m + 1) p = allComponents w n s := by
  have h : (onePage w n s).map (fun p => p.components) = allComponents w n s := by
    rw [← Flat.all]
    simp only [onePage, Flat.map_bind]
    cases allElements w n s <;> rfl
  refine ⟨h, fun p hp => ?_⟩
  have hs : p.sheets = [] := by
    obtain ⟨es, _, h2⟩ := Res.bind_eq_ok.1 hp
    cases h2
    rfl
  refine ⟨hs, fun w' m => ?_⟩
  rw [hp] at h
  rw [← h, allComponents, hs]
  rfl

/-- Searching gives the same on the page as in the hierarchy. -/
theorem C147_search (w w' : World) (n m : Nat) (s p : Schematic F) (hp : onePage w n s = .ok p) (r : Str) :
    componentByReference w' r (m + 1) p = componentByReference w r n s := by
  obtain ⟨h, h2⟩ := C147_components w n s
  rw [hp] at h
  rw [Flat.find w r n s p.components h.symm, Flat.find w' r (m + 1) p p.components ((h2 p hp).2 w' m ▸ h.symm)]

/-- Bills of materials are the same, and the page always has a box. -/
theorem C147_bom (names : List Str) (w w' : World) (n m : Nat) (s p : Schematic F) (hp : onePage w n s = .ok p) (v u : List (Component F))
    (hv : allComponents w n s = .ok v) (hu : allComponents w' (m + 1) p = .ok u) (k : List (Option Str)) :
    howMany names u k = howMany names v k ∧ ∃ b, p.bound = .ok b := by
  obtain ⟨h1, h2⟩ := (C147_components w n s).2 p hp
  rw [h2, hv] at hu
  cases hu
  refine ⟨rfl, (C12_bound_total p).1.2 fun sh h => ?_⟩
  rw [h1] at h
  cases h

/-- If the page and all files fit the format, the new page is saved and read back. -/
theorem C147_saved [TextLaws F] (w : World) (n : Nat) (s p : Schematic F) (hs : FitsSchematic s)
    (hw : ∀ f (t : Schematic F), parseFile w f = .ok t → FitsSchematic t) (hp : onePage w n s = .ok p) (f : Str) :
    parse (some f) p.show = .ok { p with filename := some f } := by
  refine C01_roundtrip_named _ ?_ f
  have key : ∀ n (s : Schematic F), FitsSchematic s → ∀ es, allElements w n s = .ok es → ∀ e ∈ es, FitsElement e := by
    intro n
    induction n with
    | zero => intro s _ es h; cases h
    | succ n ih =>
      intro s hs es h
      refine Flat.loop_mem FitsElement _ _ (fun x _ u hu => ?_) _ es hs.2.2.2.2.1 h
      obtain ⟨t, h1, h2⟩ := Res.bind_eq_ok.1 hu
      obtain ⟨g, h3, h4⟩ := Res.bind_eq_ok.1 h1
      exact ih t (hw g t h4) u h2
  obtain ⟨es, h1, h2⟩ := Res.bind_eq_ok.1 hp
  cases h2
  exact ⟨hs.1, hs.2.1, hs.2.2.1, hs.2.2.2.1, key n s hs es h1, fun x hx => by cases hx⟩

/-- Doing it again changes nothing, and a designator taken out of the new page is gone, on whatever sheets it was. -/
theorem C147_again (w w' : World) (n m : Nat) (s p : Schematic F) (hp : onePage w n s = .ok p) :
    onePage w' (m + 1) p = .ok p ∧ ∀ r c, componentByReference w' r m (takeOut r p) ≠ .ok c := by
  have hs := ((C147_components w n s).2 p hp).1
  constructor
  · simp only [onePage, allElements, hs, sheetsElements, Res.bind_ok]
    rw [← hs]
  · intro r c h
    rw [(C144_search w' r m p).2] at h
    cases m with
    | zero => cases h
    | succ m =>
      have : componentByReference w' r (m + 1) (onlySheets p) = .err .other := by
        simp only [componentByReference, onlySheets, hs]
        rfl
      rw [this] at h
      cases h

/-! ### Cases -/

/-- The sample hierarchy, in which one file is used twice, on one page. -/
example : ((parseFile Spec.sampleWorld (str! "a") >>= fun s : Schematic Nm => (onePage Spec.sampleWorld 3 s).map fun p =>
    (refs p, p.sheets.length)) : Res (List Str × Nat)) = .ok ([str! "R1", str! "R2", str! "R3", str! "R3"], 0) := by decide +kernel

/-- What every file of the sample has, its schematics have. -/
theorem Flat.sample (P : Schematic Nm → Prop) [DecidablePred P]
    (h : ∀ f ∈ [str! "a", str! "b", str! "c"], (parseFile Spec.sampleWorld f).map (fun t : Schematic Nm => decide (P t)) = .ok true)
    (f : Str) (t : Schematic Nm) (ht : parseFile Spec.sampleWorld f = .ok t) : P t := by
  by_cases hf : f ∈ [str! "a", str! "b", str! "c"]
  · have := h f hf
    rw [ht] at this
    simpa [Res.map] using this
  · simp only [List.mem_cons, List.not_mem_nil, or_false, not_or] at hf
    simp only [parseFile, Spec.sampleWorld, if_neg hf.1, if_neg hf.2.1, if_neg hf.2.2] at ht
    cases ht

/-- A page without sheets and one that has it as a sheet. -/
def Flat.inner : Schematic Nm := { sampleSchematic Nm with sheets := [] }

def Flat.outer : Schematic Nm := { Flat.inner with filename := some (str! "a"), sheets := [{ Sheet.dflt with unique := str! "5", filename := str! "c" }] }

def Flat.world : World where
  read f := if f = str! "c" then some Flat.inner.show else none
  resolve _ f := some f

/-- All conditions for saving the page are met: there is a sheet, and it fits the format. -/
example : FitsSchematic Flat.outer ∧ (∀ f (t : Schematic Nm), parseFile Flat.world f = .ok t → FitsSchematic t) ∧
    ∃ p, onePage Flat.world 2 Flat.outer = .ok p ∧ p.elements = Flat.inner.elements ++ Flat.inner.elements := by
  have hi : FitsSchematic Flat.inner := by decide +kernel
  have hc : parseFile Flat.world (str! "c") = .ok { Flat.inner with filename := some (str! "c") } := by
    simp only [parseFile, Flat.world, if_pos]
    exact C01_roundtrip_named _ hi _
  refine ⟨by decide +kernel, fun f t ht => ?_, { Flat.outer with elements := Flat.inner.elements ++ Flat.inner.elements, sheets := [] }, ?_, rfl⟩
  · by_cases hf : f = str! "c"
    · rw [hf, hc] at ht
      cases ht
      exact hi
    · simp only [parseFile, Flat.world, if_neg hf] at ht
      cases ht
  · have hl : (parseFileForSheet Flat.world Flat.outer { Sheet.dflt with unique := str! "5", filename := str! "c" } : Res (Schematic Nm)) =
        .ok { Flat.inner with filename := some (str! "c") } := by
      have hf : filenameForSheet Flat.world Flat.outer { Sheet.dflt with unique := str! "5", filename := str! "c" } = .ok (str! "c") := rfl
      rw [parseFileForSheet, hf, Res.bind_ok, hc]
    have he : allElements Flat.world 2 Flat.outer =
        sheetsElements (fun sheet => parseFileForSheet Flat.world Flat.outer sheet >>= allElements Flat.world 1)
          [{ Sheet.dflt with unique := str! "5", filename := str! "c" }] Flat.inner.elements := rfl
    simp only [onePage, he, sheetsElements, hl, Res.bind_ok]
    rfl

/-- Designators that are all different on every page need not be on the new one, since a file can be used twice. -/
theorem C147_twice : ∃ (w : World) (s p : Schematic Nm) (n : Nat), onePage w n s = .ok p ∧ (refs s).Nodup ∧
    (∀ f (t : Schematic Nm), parseFile w f = .ok t → (refs t).Nodup) ∧ ¬ (refs p).Nodup := by
  have h1 : ((parseFile Spec.sampleWorld (str! "a") >>= fun s : Schematic Nm => (onePage Spec.sampleWorld 3 s).map fun p =>
    decide ((refs s).Nodup ∧ ¬ (refs p).Nodup)) : Res Bool) = .ok true := by decide +kernel
  obtain ⟨s, _, h2⟩ := Res.bind_eq_ok.1 h1
  cases h3 : onePage Spec.sampleWorld 3 s with
  | ok p =>
    rw [h3] at h2
    have h4 : (refs s).Nodup ∧ ¬ (refs p).Nodup := by simpa [Res.map] using h2
    exact ⟨_, s, p, 3, h3, h4.1, Flat.sample _ (by decide +kernel), h4.2⟩
  | err e => rw [h3] at h2; cases h2
  | panic => rw [h3] at h2; cases h2
  | diverge => rw [h3] at h2; cases h2

end Verif
