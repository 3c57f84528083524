import Verif.Props.C09
/-!
# C10: collecting components terminates exactly on hierarchies without cycles
-/

namespace Verif
open Sch Spec

variable {F : Type} [Flt F]

/-- With finitely many readable files, and no schematic of the hierarchy reachable
from itself, the call terminates: some bound on the depth is enough, and then
every larger bound gives the same result. -/
theorem C10_terminates (w : World) (s : Schematic F) (files : List Str)
    (hf : ∀ f, w.read f ≠ none → f ∈ files) (hs : ∀ t, t = s ∨ Below w s t → ¬ Below w t t) :
    ∃ n r, r ≠ .diverge ∧ ∀ m, n ≤ m → allComponents w m s = r := by
  obtain ⟨n, hn⟩ := Spec.all_ends_of_acc w s (Spec.acc_of_acyclic w s files hf hs)
  exact ⟨n, _, hn, fun m hm => Spec.all_le w hm s hn⟩

/-- A schematic on a cycle, at the top or anywhere below: the call never returns
components, whatever the bound on the depth. -/
theorem C10_cycle_no_result (w : World) (s t : Schematic F) (ht : t = s ∨ Below w s t)
    (hc : Below w t t) : ∀ n v, allComponents w n s ≠ .ok v :=
  Spec.not_ok_of_cycle w s t ht hc

/-- If moreover every sheet in the hierarchy can be read, the recursion goes
deeper than any bound: the call does not terminate. -/
theorem C10_cycle_diverges (w : World) (s t : Schematic F) (ht : t = s ∨ Below w s t)
    (hc : Below w t t)
    (hr : ∀ t, t = s ∨ Below w s t → ∀ sheet ∈ t.sheets, ∃ u, parseFileForSheet w t sheet = .ok u) :
    ∀ n, allComponents w n s = .diverge := by
  intro n
  rcases Spec.all_not_err w n s hr with ⟨v, hv⟩ | h
  · exact absurd hv (Spec.not_ok_of_cycle w s t ht hc n v)
  · exact h

/-- The hypotheses of the first theorem hold for the sample files. -/
example : ∃ s : Schematic Nm, s.sheets ≠ [] ∧
    (∀ f, Spec.sampleWorld.read f ≠ none → f ∈ [str! "a", str! "b", str! "c"]) ∧
    ∀ t, t = s ∨ Below Spec.sampleWorld s t → ¬ Below Spec.sampleWorld t t := by
  obtain ⟨s, hs, h⟩ := Res.bind_eq_ok.1 Spec.sampleWorld_walk
  have h2 : (parseFile Spec.sampleWorld (str! "a")).map (fun s : Schematic Nm => s.sheets.length) = .ok 2 := by
    decide +kernel
  rw [hs] at h2
  refine ⟨s, ?_, ?_, ?_⟩
  · intro hn
    simp only [Res.map_ok, hn] at h2
    cases h2
  · intro f hf
    simp only [Spec.sampleWorld] at hf
    by_cases ha : f = str! "a"
    · simp [ha]
    by_cases hb : f = str! "b"
    · simp [hb]
    by_cases hc : f = str! "c"
    · simp [hc]
    · simp [ha, hb, hc] at hf
  · intro t ht hc
    cases hv : allComponents Spec.sampleWorld 3 s with
    | ok v => exact C10_cycle_no_result _ s t ht hc 3 v hv
    | _ => rw [hv] at h; cases h

/-- A file that contains itself as a sheet. -/
def Spec.loopWorld : World where
  read f := if f = str! "a" then some (sampleSheetText (str! "R1") [str! "a"]) else none
  resolve _ f := some f

example : ∃ s : Schematic Nm, Below Spec.loopWorld s s ∧ ∀ n, allComponents Spec.loopWorld n s = .diverge := by
  have h : ∃ s : Schematic Nm, parseFile Spec.loopWorld (str! "a") = .ok s ∧
      s.sheets.map (·.filename) = [str! "a"] ∧ s.filename = some (str! "a") := by
    have : (parseFile Spec.loopWorld (str! "a")).map
        (fun s : Schematic Nm => (s.sheets.map (·.filename), s.filename)) =
        .ok ([str! "a"], some (str! "a")) := by decide +kernel
    cases hs : parseFile (F := Nm) Spec.loopWorld (str! "a") with
    | ok s =>
      rw [hs] at this
      have := Res.ok.inj this
      exact ⟨s, rfl, congrArg Prod.fst this, congrArg Prod.snd this⟩
    | _ => rw [hs] at this; cases this
  obtain ⟨s, hs, hsh, hfn⟩ := h
  have hload : ∀ sheet ∈ s.sheets, parseFileForSheet Spec.loopWorld s sheet = .ok s := by
    intro sheet hm
    have hf : sheet.filename ∈ s.sheets.map (·.filename) := List.mem_map.2 ⟨sheet, hm, rfl⟩
    rw [hsh, List.mem_singleton] at hf
    simp only [parseFileForSheet, filenameForSheet, hfn, Spec.loopWorld, Res.bind_ok, hf]
    exact hs
  have hne : ∃ sheet, sheet ∈ s.sheets := by
    cases hl : s.sheets with
    | nil => rw [hl] at hsh; cases hsh
    | cons x l => exact ⟨x, by simp⟩
  have hb : Below Spec.loopWorld s s := by
    obtain ⟨sheet, hm⟩ := hne
    exact .one ⟨sheet, hm, hload sheet hm⟩
  have hall : ∀ a t, Below Spec.loopWorld a t → a = s → t = s := by
    intro a t h
    have key : ∀ {a t : Schematic Nm}, SubSheet Spec.loopWorld a t → a = s → t = s := by
      rintro a t ⟨sheet, hm, hp⟩ rfl
      rw [hload sheet hm] at hp
      exact (Res.ok.inj hp).symm
    induction h with
    | one h => exact key h
    | more h _ ih => intro ha; exact ih (key h ha)
  refine ⟨s, hb, C10_cycle_diverges _ s s (Or.inl rfl) hb ?_⟩
  rintro t (rfl | ht) sheet hm
  · exact ⟨_, hload sheet hm⟩
  · have := hall s t ht rfl
    subst this
    exact ⟨_, hload sheet hm⟩

end Verif
