import Verif.Props.C147
/-!
# C148: taking sheets out of a schematic

A program removes sheets from the list of sheets of a schematic, for instance those that cannot be read.
-/

namespace Verif
open Flt Spec Sch

set_option linter.unusedSectionVars false

variable {F : Type} [Flt F]

/-- `schematic.sheets.retain(keep)`, on the public field (src/schematic.rs 29-30). -/
def Spec.keepSheets (keep : Sheet → Bool) (s : Schematic F) : Schematic F := { s with sheets := s.sheets.filter keep }

/-- All components of the sheet and those below it can be collected. -/
def Spec.Collects (w : World) (n : Nat) (s : Schematic F) (x : Sheet) : Prop :=
  ∃ (t : Schematic F) (v : List (Component F)), parseFileForSheet w s x = .ok t ∧ allComponents w n t = .ok v

namespace Fewer

theorem walk {sub : Sheet → Res (List (Component F))} (keep : Sheet → Bool) (l : List Sheet) : ∀ {a b r : List (Component F)}, a.Sublist b →
    sheetsComponents sub l b = .ok r → ∃ r', sheetsComponents sub (l.filter keep) a = .ok r' ∧ r'.Sublist r := by
  induction l with
  | nil => intro a b r h hr; cases hr; exact ⟨a, rfl, h⟩
  | cons x l ih =>
    intro a b r h hr
    obtain ⟨u, h1, h2⟩ := Res.bind_eq_ok.1 hr
    by_cases hk : keep x = true
    · rw [List.filter_cons_of_pos hk]
      obtain ⟨r', h3, h4⟩ := ih (h.append (List.Sublist.refl u)) h2
      exact ⟨r', by simp only [sheetsComponents, h1, Res.bind_ok, h3], h4⟩
    · rw [List.filter_cons_of_neg hk]
      exact ih (h.trans (List.sublist_append_left b u)) h2

theorem collects {sub : Sheet → Res (List (Component F))} (l : List Sheet) : ∀ a : List (Component F),
    (∃ r, sheetsComponents sub l a = .ok r) ↔ ∀ x ∈ l, ∃ v, sub x = .ok v := by
  induction l with
  | nil => exact fun a => ⟨fun _ x h => (by cases h), fun _ => ⟨a, rfl⟩⟩
  | cons x l ih =>
    intro a
    constructor
    · rintro ⟨r, hr⟩
      obtain ⟨u, h1, h2⟩ := Res.bind_eq_ok.1 hr
      exact List.forall_mem_cons.2 ⟨⟨u, h1⟩, (ih _).1 ⟨r, h2⟩⟩
    · intro h
      obtain ⟨⟨u, h1⟩, h2⟩ := List.forall_mem_cons.1 h
      obtain ⟨r, h3⟩ := (ih (a ++ u)).2 h2
      exact ⟨r, by simp only [sheetsComponents, h1, Res.bind_ok, h3]⟩

end Fewer

/-- If all components can be collected, they still can, and are among the former ones in the same order. -/
theorem C148_all (w : World) (n : Nat) (keep : Sheet → Bool) (s : Schematic F) (v : List (Component F)) (h : allComponents w n s = .ok v) :
    ∃ u, allComponents w n (keepSheets keep s) = .ok u ∧ u.Sublist v := by
  cases n with
  | zero => cases h
  | succ n => exact Fewer.walk (sub := fun x => parseFileForSheet w s x >>= allComponents w n) keep s.sheets (List.Sublist.refl _) h

/-- They can be collected exactly if they can for every sheet that is kept.  So it helps to remove the others. -/
theorem C148_readable (w : World) (n : Nat) (keep : Sheet → Bool) (s : Schematic F) :
    (∃ u, allComponents w (n + 1) (keepSheets keep s) = .ok u) ↔ ∀ x ∈ s.sheets, keep x = true → Collects w n s x := by
  have e : allComponents w (n + 1) (keepSheets keep s) =
    sheetsComponents (fun x => parseFileForSheet w s x >>= allComponents w n) (s.sheets.filter keep) s.components := rfl
  rw [e, Fewer.collects]
  simp only [List.mem_filter, and_imp]
  refine forall_congr' fun x => forall_congr' fun _ => forall_congr' fun _ => ?_
  constructor
  · rintro ⟨v, h⟩
    obtain ⟨t, h1, h2⟩ := Res.bind_eq_ok.1 h
    exact ⟨t, v, h1, h2⟩
  · rintro ⟨t, v, h1, h2⟩
    exact ⟨v, by rw [h1, Res.bind_ok, h2]⟩

/-- Searching: what is on the page is found as before.  If all components can be collected, nothing is found that was
not there, and it is as if on one page. -/
theorem C148_search (w : World) (n : Nat) (keep : Sheet → Bool) (s : Schematic F) (r : Str) :
    (r ∈ refs s → componentByReference w r n (keepSheets keep s) = componentByReference w r n s) ∧
    (∀ v c, allComponents w n s = .ok v → componentByReference w r n (keepSheets keep s) = .ok c → c ∈ v ∧ c.reference = r ∧
      ∃ d, componentByReference w r n s = .ok d) := by
  constructor
  · intro hr
    cases n with
    | zero => rfl
    | succ n =>
      obtain ⟨c, hc, h2⟩ := List.mem_map.1 hr
      cases h : s.components.find? fun c => c.reference = r with
      | none => exact absurd (List.find?_eq_none.1 h c hc) (by simpa using h2)
      | some d =>
        have : ((keepSheets keep s).components.find? fun c => c.reference = r) = some d := h
        simp only [componentByReference, this, h]
  · intro v c hv hc
    obtain ⟨u, h1, h2⟩ := C148_all w n keep s v hv
    rw [Flat.find w r n _ u h1] at hc
    cases h3 : u.find? (fun c => c.reference = r) with
    | none => rw [h3] at hc; cases hc
    | some d =>
      rw [h3] at hc
      cases hc
      have hm := h2.subset (List.mem_of_find?_eq_some h3)
      have hr : c.reference = r := by simpa using List.find?_some h3
      refine ⟨hm, hr, ?_⟩
      rw [Flat.find w r n _ v hv]
      cases h4 : v.find? (fun c => c.reference = r) with
      | none => exact absurd (List.find?_eq_none.1 h4 c hm) (by simpa using hr)
      | some d => exact ⟨d, rfl⟩

/-- No line of the bill of materials gets longer. -/
theorem C148_bom (names : List Str) (w : World) (n : Nat) (keep : Sheet → Bool) (s : Schematic F) (v u : List (Component F))
    (hv : allComponents w n s = .ok v) (hu : allComponents w n (keepSheets keep s) = .ok u) (k : List (Option Str)) :
    howMany names u k ≤ howMany names v k := by
  obtain ⟨u', h1, h2⟩ := C148_all w n keep s v hv
  rw [hu] at h1
  cases h1
  exact h2.countP_le

/-- There is a box exactly if the edges of the sheets that are kept are numbers of 64 bits; what fits the format still does. -/
theorem C148_page [TextLaws F] (keep : Sheet → Bool) (s : Schematic F) :
    ((∃ b, (keepSheets keep s).bound = .ok b) ↔ ∀ x ∈ s.sheets, keep x = true → SheetFits x) ∧
    (FitsSchematic s → ∀ f, parse (some f) (keepSheets keep s).show = .ok { keepSheets keep s with filename := some f }) ∧
    (keepSheets keep s).components = s.components := by
  refine ⟨?_, fun hs f => ?_, rfl⟩
  · rw [(C12_bound_total _).1]
    simp only [keepSheets, List.mem_filter, and_imp]
  · refine C01_roundtrip_named _ ?_ f
    obtain ⟨a, b, c, k, d, e⟩ := hs
    exact ⟨a, b, c, k, d, fun x hx => e x (List.mem_filter.1 hx).1⟩

/-! ### Cases -/

/-- A page with a sheet that can be read and one that cannot. -/
def Fewer.page : Schematic Nm := { (Schematic.dflt : Schematic Nm) with filename := some (str! "x"), sheets :=
  [{ Sheet.dflt with filename := str! "missing" }, { Sheet.dflt with filename := str! "b" }] }

/-- Removing a sheet can make a component appear that could not be found. -/
theorem C148_appears : ∃ (w : World) (n : Nat) (keep : Sheet → Bool) (s : Schematic Nm) (r : Str),
    componentByReference w r n s = .err .io ∧ ∃ c, componentByReference w r n (keepSheets keep s) = .ok c := by
  refine ⟨Spec.sampleWorld, 3, fun x => decide (x.filename ≠ str! "missing"), Fewer.page, str! "R3", by decide +kernel, ?_⟩
  have h : (componentByReference Spec.sampleWorld (str! "R3") 3 (keepSheets (fun x => decide (x.filename ≠ str! "missing")) Fewer.page)).map
    (·.reference) = .ok (str! "R3") := by decide +kernel
  cases h2 : componentByReference Spec.sampleWorld (str! "R3") 3 (keepSheets (fun x => decide (x.filename ≠ str! "missing")) Fewer.page) with
  | ok c => exact ⟨c, rfl⟩
  | err e => rw [h2] at h; cases h
  | panic => rw [h2] at h; cases h
  | diverge => rw [h2] at h; cases h

example : (parseFile Spec.sampleWorld (str! "a") >>= fun s : Schematic Nm =>
    (allComponents Spec.sampleWorld 3 (keepSheets (fun x => decide (x.filename ≠ str! "c")) s)).map fun v => v.map (·.reference)) =
    .ok [str! "R1", str! "R2", str! "R3"] := by decide +kernel

end Verif
