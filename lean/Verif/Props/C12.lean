import Verif.Spec.Schematic
import Verif.Props.C26
import Verif.Props.C01
/-!
# C12: the bounding box of a schematic

The claim is false for the pinned code: the left edge is computed from `y`
coordinates of components, and wires, connections and texts are ignored.
-/

namespace Verif
open Flt Sch Spec

variable {F : Type} [Flt F]

/-! ### When there is a box at all -/

/-- The edges of a sheet, with 100 units of room above and below, are 64-bit
numbers. -/
def Spec.SheetFits (sh : Sheet) : Prop :=
  inI64 (sh.y - 100) ∧ inI64 (sh.x + sh.dimx) ∧ inI64 (sh.y + sh.dimy) ∧ inI64 (sh.y + sh.dimy + 100)

/-- The box of a sheet that fits. -/
def Sch.Sheet.box (s : Sheet) : Bound F :=
  Bound.newFromI64 s.x (s.y - 100) (s.x + s.dimx) (s.y + s.dimy + 100)

theorem Sch.Sheet.bound_of_fits (sh : Sheet) (h : SheetFits sh) : (sh.bound : Res (Bound F)) = .ok sh.box := by
  obtain ⟨h1, h2, h3, h4⟩ := h
  simp [Sheet.bound, checkI64, h1, h2, h3, h4, Sheet.box]

theorem Sch.Sheet.bound_of_not (sh : Sheet) (h : ¬ SheetFits sh) : (sh.bound : Res (Bound F)) = .panic := by
  unfold SheetFits at h
  by_cases h1 : inI64 (sh.y - 100) <;> by_cases h2 : inI64 (sh.x + sh.dimx) <;>
    by_cases h3 : inI64 (sh.y + sh.dimy) <;> by_cases h4 : inI64 (sh.y + sh.dimy + 100) <;>
    simp_all [Sheet.bound, checkI64]

theorem Sch.sheetsBound_of_fits (l : List Sheet) (b : Bound F) (h : ∀ sh ∈ l, SheetFits sh) :
    sheetsBound l b = .ok (l.foldl (fun b sh => b.update sh.box) b) := by
  induction l generalizing b with
  | nil => rfl
  | cons a l ih =>
    rw [List.forall_mem_cons] at h
    simp [sheetsBound, Sheet.bound_of_fits a h.1, ih _ h.2]

theorem Sch.sheetsBound_of_not (l : List Sheet) (b : Bound F) (h : ∃ sh ∈ l, ¬ SheetFits sh) :
    sheetsBound l b = .panic := by
  induction l generalizing b with
  | nil => obtain ⟨_, h, _⟩ := h; cases h
  | cons a l ih =>
    by_cases ha : SheetFits a
    · simp only [sheetsBound, Sheet.bound_of_fits a ha, Res.bind_ok]
      apply ih
      obtain ⟨sh, hm, hn⟩ := h
      rcases List.mem_cons.1 hm with rfl | hm
      · exact absurd ha hn
      · exact ⟨sh, hm, hn⟩
    · simp [sheetsBound, Sheet.bound_of_not a ha]

theorem Sch.Schematic.bound_of_fits (s : Schematic F) (h : ∀ sh ∈ s.sheets, SheetFits sh) :
    s.bound = .ok (s.sheets.foldl (fun b a => b.update a.box)
      (s.elements.foldl (fun b a => b.update a.bound) Bound.dflt)).swapIfNeeded := by
  simp [Schematic.bound, sheetsBound_of_fits _ _ h]

/-- There is a box exactly if the edges of all sheets are 64-bit numbers;
otherwise computing it panics. -/
theorem C12_bound_total (s : Schematic F) :
    ((∃ b, s.bound = .ok b) ↔ ∀ sh ∈ s.sheets, SheetFits sh) ∧
    (s.bound = .panic ↔ ∃ sh ∈ s.sheets, ¬ SheetFits sh) := by
  by_cases h : ∀ sh ∈ s.sheets, SheetFits sh
  · rw [Schematic.bound_of_fits s h]
    refine ⟨⟨fun _ => h, fun _ => ⟨_, rfl⟩⟩, by simp, fun ⟨sh, hm, hn⟩ => absurd (h sh hm) hn⟩
  · have h' : ∃ sh ∈ s.sheets, ¬ SheetFits sh := by push Not at h; exact h
    have : s.bound = .panic := by simp [Schematic.bound, sheetsBound_of_not _ _ h']
    rw [this]
    refine ⟨⟨(by rintro ⟨b, hb⟩; exact absurd hb (by simp)), fun hc => absurd hc h⟩, fun _ => h', fun _ => rfl⟩

/-- A schematic with a sheet at the edge of the number range. -/
def Spec.edgeSchematic (F : Type) [Flt F] : Schematic F :=
  { sampleSchematic F with sheets :=
      [{ Sheet.dflt with unique := str! "5A", name := str! "a", filename := str! "b", x := 9223372036854775807, dimx := 1 }] }

/-- Such a sheet can come from a file: reading succeeds, computing the box panics. -/
theorem C12_file_panics : ∃ (t : Str) (s : Schematic Nm), parseStr t = .ok s ∧ s.bound = .panic := by
  have h : FitsSchematic (edgeSchematic Nm) := by decide +kernel
  exact ⟨_, _, C01_roundtrip _ h, by decide +kernel⟩

/-! ### What the box covers -/

/-- The position of a component lies in the box of the schematic. -/
def Spec.CoversComponent (s : Schematic F) (c : Component F) : Prop :=
  ∃ b, s.bound = .ok b ∧ Inside b (ofInt c.x) (ofInt c.y)

/-- Partial: the box covers (with 100 units of room above and below) the
rectangle of every sheet whose size is not negative, and the position of every
component that has `y ≤ x`.  Missing: all other components, wires and texts. -/
theorem C12_covers_partial [MonoLaws F] [IntLaws F] (s : Schematic F)
    (hf : ∀ sh ∈ s.sheets, SheetFits sh) :
    (∀ sh ∈ s.sheets, 0 ≤ sh.dimx → 0 ≤ sh.dimy →
      ∀ x y : Int, sh.x ≤ x → x ≤ sh.x + sh.dimx → sh.y - 100 ≤ y → y ≤ sh.y + sh.dimy + 100 →
        ∃ b, s.bound = .ok b ∧ Inside b (ofInt x) (ofInt y)) ∧
    (∀ c, Element.component c ∈ s.elements → c.y ≤ c.x → CoversComponent s c) := by
  have M := @IntLaws.ofInt_mono F _ _
  constructor
  · intro sh hm _ _ x y h1 h2 h3 h4
    refine ⟨_, Schematic.bound_of_fits s hf,
      inside_swap (Inside.foldl (fun sh : Sheet => sh.box) _ (Or.inr ⟨sh, hm, ?_⟩))⟩
    simp [Sheet.box, Bound.newFromI64, Inside, M _ _ h1, M _ _ h2, M _ _ h3, M _ _ h4]
  · intro c hm hxy
    refine ⟨_, Schematic.bound_of_fits s hf,
      inside_swap (Inside.foldl (fun sh : Sheet => sh.box) _ (Or.inl ?_))⟩
    refine Inside.foldl (fun e : Element F => e.bound) _ (Or.inr ⟨_, hm, ?_⟩)
    simp [Element.bound, Component.bound, Bound.newFromI64, Inside, M _ _ hxy, M _ _ (Int.le_refl _)]

example : ∃ (s : Schematic Nm) (sh : Sheet) (c : Component Nm), sh ∈ s.sheets ∧ 0 ≤ sh.dimx ∧ 0 ≤ sh.dimy ∧
    Element.component c ∈ s.elements ∧ c.y ≤ c.x ∧ ∀ sh ∈ s.sheets, SheetFits sh :=
  ⟨{ (Schematic.dflt : Schematic Nm) with
      elements := [.component (sampleComponent Nm)], sheets := [{ Sheet.dflt with dimx := 5, dimy := 7 }] },
    _, _, List.mem_singleton.2 rfl, by decide, by decide, List.mem_singleton.2 rfl, by decide,
    by simp [SheetFits, Sheet.dflt, inI64]⟩

/-- A schematic with two components, the left one of which is outside the box. -/
theorem C12_component_not_covered : ∃ (s : Schematic Nm) (c : Component Nm),
    Element.component c ∈ s.elements ∧ ¬ CoversComponent s c := by
  refine ⟨{ (Schematic.dflt : Schematic Nm) with elements :=
      [.component { sampleComponent Nm with x := 0, y := 10 }, .component { sampleComponent Nm with x := 20, y := 10 }] },
    { sampleComponent Nm with x := 0, y := 10 }, by simp, ?_⟩
  rintro ⟨b, hb, hi⟩
  rw [Schematic.bound_of_fits _ (fun sh h => by cases h)] at hb
  cases hb
  revert hi
  unfold Inside
  decide

/-- The elements that take part in the box. -/
def Spec.isComponent : Element F → Bool
  | .component _ => true
  | _ => false

/-- Wires, connections, texts and unknown lines do not take part: removing them
does not change the box. -/
theorem C12_wires_ignored (s : Schematic F) :
    s.bound = { s with elements := s.elements.filter Spec.isComponent }.bound := by
  have key : ∀ (l : List (Element F)) (b : Bound F),
      l.foldl (fun b e => b.update e.bound) b =
        (l.filter Spec.isComponent).foldl (fun b e => b.update e.bound) b := by
    intro l
    induction l with
    | nil => intro b; rfl
    | cons e l ih =>
      intro b
      cases e with
      | component c => exact ih _
      | _ => exact ih _
  unfold Schematic.bound
  simp only [key s.elements]

/-- so a schematic with nothing but a wire has no bounded box. -/
theorem C12_wire_not_covered (w : Wire) :
    ∃ b, ({ (Schematic.dflt : Schematic F) with elements := [.wire w] } : Schematic F).bound = .ok b ∧
      b.isBounded = false ∧ ∀ x y, ¬ Inside b x y := by
  have hb : (Bound.dflt : Bound F).swapIfNeeded.isBounded = false := by
    cases h : lt (zero : F) zero <;> simp [Bound.swapIfNeeded, Bound.dflt, h]
  refine ⟨_, Schematic.bound_of_fits _ (fun sh h => by cases h), hb, fun x y h => ?_⟩
  exact absurd (h.1.symm.trans hb) (by decide)

/-! ### Exactly which box -/

/-- What the code takes for the upper left corners of a schematic. -/
def Spec.schematicFirst (s : Schematic F) : List (F × F) :=
  (s.elements.flatMap fun e => match e with
    | .component c => [(ofInt c.y, ofInt c.y)]
    | _ => []) ++
  s.sheets.map fun sh => (ofInt sh.x, ofInt (sh.y - 100))

/-- What the code takes for the lower right corners of a schematic. -/
def Spec.schematicLast (s : Schematic F) : List (F × F) :=
  (s.elements.flatMap fun e => match e with
    | .component c => [(ofInt c.x, ofInt c.y)]
    | _ => []) ++
  s.sheets.map fun sh => (ofInt (sh.x + sh.dimx), ofInt (sh.y + sh.dimy + 100))

/-- The box of a schematic, exactly: the least coordinates of first corners and the
greatest ones of last corners, exchanged if they are in the wrong order; no box if
there is neither a component nor a sheet. -/
theorem C12_bound_exact [MonoLaws F] (s : Schematic F) (box : Bound F) (hbox : s.bound = .ok box) :
    (box.isBounded = false ∧ schematicFirst s = [] ∧ schematicLast s = []) ∨
    ∃ l t r b : F, Least l ((schematicFirst s).map Prod.fst) ∧ Least t ((schematicFirst s).map Prod.snd) ∧
      Greatest r ((schematicLast s).map Prod.fst) ∧ Greatest b ((schematicLast s).map Prod.snd) ∧
      box.isBounded = true ∧
      (box.x1 = l ∧ box.x2 = r ∧ le l r = true ∨ box.x1 = r ∧ box.x2 = l ∧ le r l = true) ∧
      (box.y1 = t ∧ box.y2 = b ∧ le t b = true ∨ box.y1 = b ∧ box.y2 = t ∧ le b t = true) := by
  have R := @OrdLaws.le_refl F _ _
  have hsum : ∀ {α : Type} (f : α → Bound F) (p q : α → List (F × F)) (_ : ∀ a, Spans (f a) (p a) (q a)) (as : List α)
      (b : Bound F) (fs ls : List (F × F)), Spans b fs ls →
      Spans (as.foldl (fun b a => b.update (f a)) b) (fs ++ as.flatMap p) (ls ++ as.flatMap q) := by
    intro α f p q h as
    induction as with
    | nil => intro b fs ls hb; simpa using hb
    | cons a as ih =>
      intro b fs ls hb
      simpa using ih _ _ _ (hb.update (h a))
  have h1 := hsum (fun e : Element F => e.bound)
    (fun e => match e with
      | .component c => [(ofInt c.y, ofInt c.y)]
      | _ => [])
    (fun e => match e with
      | .component c => [(ofInt c.x, ofInt c.y)]
      | _ => [])
    (by
      intro e
      cases e with
      | component c =>
        simp [Spans, Element.bound, Component.bound, Bound.newFromI64, Least, Greatest, R]
      | _ => exact .inl ⟨rfl, rfl, rfl⟩) s.elements Bound.dflt [] [] (.inl ⟨rfl, rfl, rfl⟩)
  have h2 := hsum (fun e : Sheet => (e.box : Bound F)) (fun sh => [(ofInt sh.x, ofInt (sh.y - 100))])
    (fun sh => [(ofInt (sh.x + sh.dimx), ofInt (sh.y + sh.dimy + 100))])
    (by
      intro sh
      simp [Spans, Sheet.box, Bound.newFromI64, Least, Greatest, R]) s.sheets _ _ _ h1
  rw [List.nil_append, List.nil_append, ← List.map_eq_flatMap, ← List.map_eq_flatMap] at h2
  rw [Schematic.bound_of_fits s ((C12_bound_total s).1.1 ⟨_, hbox⟩)] at hbox
  cases hbox
  generalize s.sheets.foldl (fun b a => b.update a.box)
    (s.elements.foldl (fun b a => b.update a.bound) Bound.dflt) = c at h2
  obtain ⟨u, ux, uy, ub, _⟩ := C49_swap_upright c
  rcases h2 with ⟨h, e1, e2⟩ | ⟨h, a1, a2, a3, a4⟩
  · exact .inl ⟨by rw [ub, h], e1, e2⟩
  · refine .inr ⟨c.x1, c.y1, c.x2, c.y2, a1, a2, a3, a4, by rw [ub, h], ?_, ?_⟩
    · rcases ux with ⟨p, q⟩ | ⟨p, q⟩
      · exact .inl ⟨p, q, p ▸ q ▸ u.1⟩
      · exact .inr ⟨p, q, p ▸ q ▸ u.1⟩
    · rcases uy with ⟨p, q⟩ | ⟨p, q⟩
      · exact .inl ⟨p, q, p ▸ q ▸ u.2⟩
      · exact .inr ⟨p, q, p ▸ q ▸ u.2⟩

example : schematicFirst ({ (Schematic.dflt : Schematic Nm) with
      elements := [.component { sampleComponent Nm with x := 3, y := 10 }, .wire ⟨.bus, 1, 2, -3, 4⟩]
      sheets := [{ Sheet.dflt with x := 1, dimx := 5, dimy := 7 }] }) =
    [(ofInt 10, ofInt 10), (ofInt 1, ofInt (-100))] := by decide +kernel

end Verif
