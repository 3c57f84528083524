import Verif.Lemmas.Hier
import Verif.Basic.Nm
/-!
# C09: collecting all components walks the sheet hierarchy completely and in order
-/

namespace Verif
open Sch Spec

variable {F : Type} [Flt F]

/-- `all_components` returns `v` exactly if the files store a (finite) sheet
hierarchy under the schematic and `v` is the list of its components: first those
of the schematic itself, then sheet by sheet those of each sub-hierarchy, all in
file order.  `n` bounds the depth of the recursion; see
`C09_depth_irrelevant`. -/
theorem C09_all_components (w : World) (s : Schematic F) (v : List (Component F)) :
    (∃ n, allComponents w n s = .ok v) ↔
    ∃ h : Hier F, h.root = s ∧ Stored w h ∧ v = h.components := by
  constructor
  · rintro ⟨n, h⟩
    obtain ⟨k, h1, h2, h3, _⟩ := Spec.hier_of_all w n s v h
    exact ⟨k, h1, h2, h3⟩
  · rintro ⟨k, rfl, h2, rfl⟩
    exact ⟨k.depth, Spec.all_of_hier w k h2 _ (Nat.le_refl _)⟩

/-- The outcome of a call does not depend on the bound once it is large enough:
if a run with some bound ends, every run with a larger bound gives the same. -/
theorem C09_depth_irrelevant (w : World) (s : Schematic F) (n m : Nat) (h : n ≤ m)
    (he : allComponents w n s ≠ .diverge) : allComponents w m s = allComponents w n s :=
  Spec.all_le w h s he

/-- If the call succeeds, every sheet of the schematic could be read. -/
theorem C09_unreadable_sheet (w : World) (s : Schematic F) (sheet : Sheet) (hs : sheet ∈ s.sheets)
    (hu : ∀ t : Schematic F, parseFileForSheet w s sheet ≠ .ok t) :
    ∀ n v, allComponents w n s ≠ .ok v := by
  intro n v h
  obtain ⟨⟨s', subs⟩, rfl, hst, _⟩ := Spec.hier_of_all w n s v h
  obtain ⟨k, _, hk, _⟩ := Spec.storedAll_mem hst sheet hs
  exact hu _ hk

/-- A schematic text with one component and the given sheets. -/
def Spec.sampleSheetText (ref : Str) (sheets : List Str) : Str :=
  str! "EESchema Schematic File Version 2\nEELAYER 25 0\nEELAYER END\n$Comp\nL R " ++ ref ++
    str! "\nU 1 1 5\nP 1 2\n$EndComp\n" ++
    (sheets.map fun f => str! "$Sheet\nS 1 2 3 4\nU 5\nF0 \"n\" 60\nF1 \"" ++ f ++
      str! "\" 60\n$EndSheet\n").flatten ++ str! "$EndSCHEMATC\n"

/-- Files: `a` has sheets `b` and `c`, `b` has sheet `c`. -/
def Spec.sampleWorld : World where
  read f :=
    if f = str! "a" then some (sampleSheetText (str! "R1") [str! "b", str! "c"])
    else if f = str! "b" then some (sampleSheetText (str! "R2") [str! "c"])
    else if f = str! "c" then some (sampleSheetText (str! "R3") [])
    else none
  resolve _ f := some f

/-- The components of the sample, with the shared sheet counted at each place. -/
theorem Spec.sampleWorld_walk : (parseFile Spec.sampleWorld (str! "a") >>= fun s : Schematic Nm =>
    (allComponents Spec.sampleWorld 3 s).map fun v => v.map (·.reference)) =
    .ok [str! "R1", str! "R2", str! "R3", str! "R3"] := by decide +kernel

example : ∃ (s : Schematic Nm) (h : Hier Nm), s.sheets.length = 2 ∧ h.root = s ∧
    Stored Spec.sampleWorld h ∧ h.components.length = 4 := by
  have h := Spec.sampleWorld_walk
  obtain ⟨s, hs, h⟩ := Res.bind_eq_ok.1 h
  have h2 : (parseFile Spec.sampleWorld (str! "a")).map (fun s : Schematic Nm => s.sheets.length) = .ok 2 := by
    decide +kernel
  rw [hs] at h2
  cases hv : allComponents Spec.sampleWorld 3 s with
  | ok v =>
    rw [hv] at h
    obtain ⟨k, hk, hst, rfl⟩ := (C09_all_components _ s v).1 ⟨3, hv⟩
    refine ⟨s, k, Res.ok.inj h2, hk, hst, ?_⟩
    have := congrArg List.length (Res.ok.inj h)
    rwa [List.length_map] at this
  | _ => rw [hv] at h; cases h

end Verif
