import Verif.Props.C134
import Verif.Props.C12
import Verif.Props.C09
/-!
# C139: pasting one schematic into another

A program appends the elements and the sheets of one schematic to those of another.
-/

namespace Verif
open Flt Spec Sch

set_option linter.unusedSectionVars false

variable {F : Type} [Flt F]

/-- `s.elements.append(&mut t.elements); s.sheets.append(&mut t.sheets)`, on the public fields (src/schematic.rs 20-33). -/
def Spec.paste (s t : Schematic F) : Schematic F := { s with elements := s.elements ++ t.elements, sheets := s.sheets ++ t.sheets }

/-- The sheets of the second schematic are in the same files seen from the first. -/
def Spec.SameSheetFiles (w : World) (s t : Schematic F) : Prop := ∀ sheet ∈ t.sheets, filenameForSheet w s sheet = filenameForSheet w t sheet

namespace Paste

variable {α : Type}

theorem load_eq {w : World} {s s' : Schematic F} (h : s'.filename = s.filename) (sheet : Sheet) :
    (parseFileForSheet w s' sheet : Res (Schematic F)) = parseFileForSheet w s sheet := by
  simp only [parseFileForSheet, filenameForSheet, h]

theorem load_same {w : World} {s t : Schematic F} (h : SameSheetFiles w s t) (sheet : Sheet) (hs : sheet ∈ t.sheets) :
    (parseFileForSheet w s sheet : Res (Schematic F)) = parseFileForSheet w t sheet := by
  simp only [parseFileForSheet, h sheet hs]

theorem walk_append (sub : Sheet → Res (List (Component F))) (a b : List Sheet) (v : List (Component F)) :
    sheetsComponents sub (a ++ b) v = sheetsComponents sub a v >>= sheetsComponents sub b := by
  induction a generalizing v with
  | nil => rfl
  | cons x a ih =>
    simp only [List.cons_append, sheetsComponents]
    cases sub x with
    | ok u => simp only [Res.bind_ok, ih]
    | err e => rfl
    | panic => rfl
    | diverge => rfl

theorem walk_from (sub : Sheet → Res (List (Component F))) (a : List Sheet) (v r : List (Component F)) :
    sheetsComponents sub a v = .ok r ↔ ∃ u, sheetsComponents sub a [] = .ok u ∧ r = v ++ u := by
  induction a generalizing v r with
  | nil =>
    constructor
    · intro h; cases h; exact ⟨[], rfl, by simp⟩
    · rintro ⟨u, h, rfl⟩; cases h; simp [sheetsComponents]
  | cons x a ih =>
    simp only [sheetsComponents]
    cases sub x with
    | ok y =>
      simp only [Res.bind_ok, List.nil_append]
      rw [ih]
      constructor
      · rintro ⟨u, h, rfl⟩
        exact ⟨y ++ u, (ih _ _).2 ⟨u, h, rfl⟩, by simp⟩
      · rintro ⟨u, h, rfl⟩
        obtain ⟨u', h1, rfl⟩ := (ih _ _).1 h
        exact ⟨u', h1, by simp⟩
    | err e => constructor <;> intro h <;> simp_all
    | panic => constructor <;> intro h <;> simp_all
    | diverge => constructor <;> intro h <;> simp_all

theorem walk_congr {f g : Sheet → Res (List (Component F))} (a : List Sheet) (h : ∀ x ∈ a, f x = g x) (v : List (Component F)) :
    sheetsComponents f a v = sheetsComponents g a v := by
  induction a generalizing v with
  | nil => rfl
  | cons x a ih =>
    simp only [sheetsComponents, h x (List.mem_cons_self ..)]
    congr 1
    funext u
    exact ih (fun y hy => h y (List.mem_cons_of_mem _ hy)) _

theorem find_congr {f g : Sheet → Res (Schematic F)} {sub : Schematic F → Res (Component F)} (a : List Sheet) (h : ∀ x ∈ a, f x = g x) :
    sheetsFind f sub a = sheetsFind g sub a := by
  induction a with
  | nil => rfl
  | cons x a ih =>
    simp only [sheetsFind, h x (List.mem_cons_self ..), ih fun y hy => h y (List.mem_cons_of_mem _ hy)]

theorem find_ok {f : Sheet → Res (Schematic F)} {sub : Schematic F → Res (Component F)} {c : Component F} (a b : List Sheet)
    (h : sheetsFind f sub a = .ok c) : sheetsFind f sub (a ++ b) = .ok c := by
  induction a with
  | nil => cases h
  | cons x a ih =>
    simp only [List.cons_append, sheetsFind] at h ⊢
    cases hx : f x with
    | ok s =>
      rw [hx, Res.bind_ok] at h
      simp only [Res.bind_ok]
      cases hs : sub s with
      | ok c' => rw [hs] at h; exact h
      | err e => rw [hs] at h; exact ih h
      | panic => rw [hs] at h; cases h
      | diverge => rw [hs] at h; cases h
    | err e => rw [hx] at h; cases h
    | panic => rw [hx] at h; cases h
    | diverge => rw [hx] at h; cases h

theorem find_err {f : Sheet → Res (Schematic F)} {sub : Schematic F → Res (Component F)} {e : Err} (a b : List Sheet)
    (hl : ∀ x ∈ a, ∃ s, f x = .ok s) (h : sheetsFind f sub a = .err e) : sheetsFind f sub (a ++ b) = sheetsFind f sub b := by
  induction a with
  | nil => rfl
  | cons x a ih =>
    obtain ⟨s, hx⟩ := hl x (List.mem_cons_self ..)
    simp only [List.cons_append, sheetsFind, hx, Res.bind_ok] at h ⊢
    cases hs : sub s with
    | ok c' => rw [hs] at h; cases h
    | err e => rw [hs] at h; exact ih (fun y hy => hl y (List.mem_cons_of_mem _ hy)) h
    | panic => rw [hs] at h; cases h
    | diverge => rw [hs] at h; cases h

end Paste

/-- The components are those of the first schematic and then those of the second; references are unique exactly if they
are in both and none is in both. -/
theorem C139_components (s t : Schematic F) : (paste s t).components = s.components ++ t.components ∧
    ((refs (paste s t)).Nodup ↔ (refs s).Nodup ∧ (refs t).Nodup ∧ ∀ r ∈ refs s, r ∉ refs t) := by
  have h : (paste s t).components = s.components ++ t.components := List.filterMap_append
  refine ⟨h, ?_⟩
  simp only [refs, h, List.map_append, List.nodup_append]
  constructor
  · rintro ⟨h1, h2, h3⟩
    exact ⟨h1, h2, fun r hr hr' => h3 r hr r hr' rfl⟩
  · rintro ⟨h1, h2, h3⟩
    exact ⟨h1, h2, fun r hr r' hr' e => h3 r hr (e ▸ hr')⟩

/-- A change by reference is made in the first schematic if it has the reference, otherwise in the second. -/
theorem C139_modify (s t : Schematic F) (r : Str) (fn : Component F → Component F) :
    (paste s t).modifyComponent r fn =
      if r ∈ refs s then paste (s.modifyComponent r fn) t else paste s (t.modifyComponent r fn) := by
  have key : ∀ a b : List (Element F), modifyFirst r fn (a ++ b) =
      if r ∈ Renum.refsIn a then modifyFirst r fn a ++ b else a ++ modifyFirst r fn b := by
    intro a b
    induction a with
    | nil => simp [Renum.refsIn]
    | cons e a ih =>
      cases e with
      | component c =>
        rw [Renum.refsIn_component]
        by_cases h : c.reference = r
        · simp [modifyFirst, h]
        · have : ¬ r = c.reference := fun e => h e.symm
          simp only [List.cons_append, modifyFirst, h, if_false, ih, List.mem_cons, this, false_or]
          split <;> rfl
      | _ =>
        have hr : ∀ e : Element F, e.component? = none → Renum.refsIn (e :: a) = Renum.refsIn a := fun e he => by
          simp [Renum.refsIn, he]
        rw [hr _ rfl]
        simp only [List.cons_append, modifyFirst, ih]
        split <;> rfl
  have e : refs s = Renum.refsIn s.elements := rfl
  rw [e]
  simp only [paste, Schematic.modifyComponent, key]
  split <;> rfl

/-- Collecting all components: if both schematics look for the sheets of the second in the same files, it succeeds exactly
if it does for both, and gives the components of both. -/
theorem C139_all (w : World) (s t : Schematic F) (hw : SameSheetFiles w s t) (n : Nat) :
    (∀ v u, allComponents w n s = .ok v → allComponents w n t = .ok u →
      ∃ r, allComponents w n (paste s t) = .ok r ∧ r.Perm (v ++ u)) ∧
    (∀ r, allComponents w n (paste s t) = .ok r → ∃ v u, allComponents w n s = .ok v ∧ allComponents w n t = .ok u) := by
  cases n with
  | zero => exact ⟨fun v u h => (by cases h), fun r h => (by cases h)⟩
  | succ n =>
    let sub : Schematic F → Sheet → Res (List (Component F)) := fun s sheet => do
      let x ← parseFileForSheet w s sheet
      allComponents w n x
    have hs : ∀ x, sub (paste s t) x = sub s x := fun x => by
      simp only [sub, Paste.load_eq (s := s) (s' := paste s t) rfl]
    have ht : ∀ x ∈ t.sheets, sub s x = sub t x := fun x hx => by simp only [sub, Paste.load_same hw x hx]
    have e1 : allComponents w (n + 1) s = sheetsComponents (sub s) s.sheets s.components := rfl
    have e2 : allComponents w (n + 1) t = sheetsComponents (sub t) t.sheets t.components := rfl
    have e3 : allComponents w (n + 1) (paste s t) =
        sheetsComponents (sub s) s.sheets (s.components ++ t.components) >>= sheetsComponents (sub t) t.sheets := by
      have h1 : allComponents w (n + 1) (paste s t) =
        sheetsComponents (sub (paste s t)) (s.sheets ++ t.sheets) (paste s t).components := rfl
      rw [h1, Paste.walk_congr _ (fun x _ => hs x), Paste.walk_append, (C139_components s t).1]
      congr 1
      funext v
      exact Paste.walk_congr _ ht v
    rw [e1, e2, e3]
    constructor
    · intro v u hv hu
      obtain ⟨v', h1, rfl⟩ := (Paste.walk_from _ _ _ _).1 hv
      obtain ⟨u', h2, rfl⟩ := (Paste.walk_from _ _ _ _).1 hu
      refine ⟨(s.components ++ t.components) ++ v' ++ u', ?_, ?_⟩
      · rw [(Paste.walk_from _ _ _ _).2 ⟨v', h1, rfl⟩, Res.bind_ok, (Paste.walk_from _ _ _ _).2 ⟨u', h2, rfl⟩]
      · simp only [List.append_assoc]
        refine List.Perm.append_left _ ?_
        rw [← List.append_assoc, ← List.append_assoc]
        exact List.Perm.append_right _ List.perm_append_comm
    · intro r h
      obtain ⟨a, h1, h2⟩ := Res.bind_eq_ok.1 h
      obtain ⟨v', h3, rfl⟩ := (Paste.walk_from _ _ _ _).1 h1
      obtain ⟨u', h4, rfl⟩ := (Paste.walk_from _ _ _ _).1 h2
      exact ⟨_, _, (Paste.walk_from _ _ _ _).2 ⟨v', h3, rfl⟩, (Paste.walk_from _ _ _ _).2 ⟨u', h4, rfl⟩⟩

/-- Searching by reference.  What was found in the first schematic is still found, unless the second has the reference on
its first page; what the first does not have, although all of its sheets can be read, is searched in the second. -/
theorem C139_search (w : World) (s t : Schematic F) (hw : SameSheetFiles w s t) (r : Str) (n : Nat) :
    (∀ c, r ∉ refs t → componentByReference w r n s = .ok c → componentByReference w r n (paste s t) = .ok c) ∧
    (∀ c, r ∈ refs s → componentByReference w r n s = .ok c → componentByReference w r n (paste s t) = .ok c) ∧
    (∀ c, r ∉ refs s → r ∈ refs t → componentByReference w r n t = .ok c → componentByReference w r n (paste s t) = .ok c) ∧
    (∀ e, (∀ x ∈ s.sheets, ∃ s' : Schematic F, parseFileForSheet w s x = .ok s') → componentByReference w r n s = .err e →
      componentByReference w r n (paste s t) = componentByReference w r n t) := by
  cases n with
  | zero => exact ⟨fun c _ h => (by cases h), fun c _ h => (by cases h), fun c _ _ h => (by cases h), fun e _ h => (by cases h)⟩
  | succ n =>
    have none_iff : ∀ s : Schematic F, (s.components.find? fun c => c.reference = r) = none ↔ r ∉ refs s := by
      intro s
      simp [refs, List.find?_eq_none]
    have fnd : ((paste s t).components.find? fun c => c.reference = r) =
        (s.components.find? fun c => c.reference = r).or (t.components.find? fun c => c.reference = r) := by
      rw [(C139_components s t).1, List.find?_append]
    have hl : ∀ x, (parseFileForSheet w (paste s t) x : Res (Schematic F)) = parseFileForSheet w s x := Paste.load_eq rfl
    simp only [componentByReference, fnd]
    have hsheets : sheetsFind (parseFileForSheet w (paste s t)) (componentByReference w r n) (paste s t).sheets =
        sheetsFind (parseFileForSheet w s) (componentByReference w r n) (s.sheets ++ t.sheets) := Paste.find_congr _ fun x _ => hl x
    rw [hsheets]
    have htt : sheetsFind (parseFileForSheet w s) (componentByReference w r n) t.sheets =
        sheetsFind (parseFileForSheet w t) (componentByReference w r n) t.sheets :=
      Paste.find_congr _ fun x hx => Paste.load_same hw x hx
    cases h1 : s.components.find? fun c => c.reference = r with
    | some a =>
      have hm : r ∈ refs s := Classical.byContradiction fun h => by rw [(none_iff s).2 h] at h1; cases h1
      refine ⟨fun c _ h => h, fun c _ h => h, fun c h => absurd hm h, fun e _ h => by cases h⟩
    | none =>
      have hm : r ∉ refs s := (none_iff s).1 h1
      refine ⟨fun c ht h => ?_, fun c h => absurd h hm, fun c _ ht h => ?_, fun e ha h => ?_⟩
      · rw [(none_iff t).2 ht]
        exact Paste.find_ok _ _ h
      · cases h2 : t.components.find? fun c => c.reference = r with
        | none => exact absurd ht ((none_iff t).1 h2)
        | some a => rw [h2] at h; exact h
      · cases h2 : t.components.find? fun c => c.reference = r with
        | some a => rfl
        | none =>
          simp only [Option.or_none]
          rw [Paste.find_err _ _ ha h, htt]

/-- A first sheet that cannot be read hides everything that is not on the first pages. -/
theorem C139_hidden (w : World) (s t : Schematic F) (r : Str) (n : Nat) (x : Sheet) (xs : List Sheet) (e : Err)
    (hx : s.sheets = x :: xs) (he : (parseFileForSheet w s x : Res (Schematic F)) = .err e) (hs : r ∉ refs s) (ht : r ∉ refs t) :
    componentByReference w r (n + 1) (paste s t) = .err e := by
  have none_iff : ((paste s t).components.find? fun c => c.reference = r) = none := by
    rw [(C139_components s t).1]
    simp only [refs, List.mem_map, not_exists, not_and] at hs ht
    simp only [List.find?_eq_none, List.mem_append, decide_eq_true_eq]
    rintro c (h | h)
    · exact hs c h
    · exact ht c h
  have hp : (paste s t).sheets = x :: (xs ++ t.sheets) := by simp [paste, hx]
  simp only [componentByReference, none_iff, hp, sheetsFind, Paste.load_eq (s := s) (s' := paste s t) rfl, he]
  rfl

/-- There is a box exactly if there is one for both. -/
theorem C139_box (s t : Schematic F) : (∃ b, (paste s t).bound = .ok b) ↔ (∃ b, s.bound = .ok b) ∧ ∃ b, t.bound = .ok b := by
  rw [(C12_bound_total _).1, (C12_bound_total _).1, (C12_bound_total _).1]
  simp only [paste, List.mem_append, or_imp, forall_and]

/-- If both fit the format, so does the result, and it is read back. -/
theorem C139_saved [TextLaws F] (s t : Schematic F) (hs : FitsSchematic s) (ht : FitsSchematic t) (f : Str) :
    parse (some f) (paste s t).show = .ok { paste s t with filename := some f } := by
  refine C01_roundtrip_named _ ?_ f
  obtain ⟨a, b, c, k, d, e⟩ := hs
  obtain ⟨_, _, _, _, d', e'⟩ := ht
  exact ⟨a, b, c, k, fun x hx => (List.mem_append.1 hx).elim (d x) (d' x), fun x hx => (List.mem_append.1 hx).elim (e x) (e' x)⟩

/-! ### Cases -/

theorem Paste.sample_same (s t : Schematic Nm) (hs : s.filename.isSome) (ht : t.filename.isSome) : SameSheetFiles Spec.sampleWorld s t := by
  intro x _
  simp only [filenameForSheet]
  cases h : s.filename <;> cases h' : t.filename <;> simp_all [Spec.sampleWorld]

/-- Pasting the second file of the sample into the first. -/
example : ((parseFile Spec.sampleWorld (str! "a") >>= fun s : Schematic Nm => parseFile Spec.sampleWorld (str! "b") >>= fun t =>
    (allComponents Spec.sampleWorld 3 (paste s t)).map fun v => v.map (·.reference)) : Res (List Str)) =
    .ok [str! "R1", str! "R2", str! "R2", str! "R3", str! "R3", str! "R3"] := by decide +kernel

example : FitsSchematic (sampleSchematic Nm) ∧ (sampleSchematic Nm).elements ≠ [] := by decide +kernel

/-- Two directories: the sheet is next to the second schematic. -/
def Paste.twoDirs : World where
  read f := if f = str! "q/c" then some (Spec.sampleSheetText (str! "R3") []) else none
  resolve p f := if p = str! "q/b" then some (str! "q/" ++ f) else some (str! "p/" ++ f)

/-- If the schematics are in different directories, the sheets of the second are not found after pasting. -/
theorem C139_directory : ∃ (w : World) (s t : Schematic Nm) (v u : List (Component Nm)), allComponents w 3 s = .ok v ∧
    allComponents w 3 t = .ok u ∧ allComponents w 3 (paste s t) = .err .io := by
  let s : Schematic Nm := { (Schematic.dflt : Schematic Nm) with filename := some (str! "p/a") }
  let t : Schematic Nm := { (Schematic.dflt : Schematic Nm) with filename := some (str! "q/b"), sheets := [{ Sheet.dflt with filename := str! "c" }] }
  have h1 : (allComponents Paste.twoDirs 3 s).map (·.length) = .ok 0 := by decide +kernel
  have h2 : (allComponents Paste.twoDirs 3 t).map (·.length) = .ok 1 := by decide +kernel
  have h3 : allComponents Paste.twoDirs 3 (paste s t) = .err .io := by decide +kernel
  cases h : allComponents Paste.twoDirs 3 s with
  | ok v =>
    cases h' : allComponents Paste.twoDirs 3 t with
    | ok u => exact ⟨_, s, t, v, u, h, h', h3⟩
    | err e => rw [h'] at h2; cases h2
    | panic => rw [h'] at h2; cases h2
    | diverge => rw [h'] at h2; cases h2
  | err e => rw [h] at h1; cases h1
  | panic => rw [h] at h1; cases h1
  | diverge => rw [h] at h1; cases h1

end Verif
