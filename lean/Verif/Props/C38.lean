import Verif.Lemmas.LayNames
import Verif.Basic.Nm
/-!
# C38: a failing bulk net update stops at the first failure
-/

set_option linter.unusedSectionVars false

namespace Verif
open Flt Spec Lay

variable {F : Type} [Flt F]

/-- If the update function accepts every net name, every name is replaced by its
update and nothing else changes. -/
theorem C38_update_all (l : Layout F) (u : Update) (h : ∀ n ∈ layoutNames l, (u n).2 = none) :
    (l.updateNetNames u).2 = none ∧
    layoutNames (l.updateNetNames u).1 = (layoutNames l).map (fun n => (u n).1) ∧
    eraseLayoutNames (l.updateNetNames u).1 = eraseLayoutNames l := by
  obtain ⟨h1, h2, h3⟩ := Lay.updateNetNames_spec u l
  rw [Lay.updateNames_ok _ _ h] at h1 h2
  exact ⟨h2, h1, h3⟩

example : ∀ n ∈ layoutNames (sampleBoard : Layout Nm), ((fun n => (n ++ n, none) : Update) n).2 = none := by
  simp

/-- If the update function fails on a name, the call fails with the first such
error, the names before are updated, the names after are untouched, and nothing
else changes. -/
theorem C38_update_stops (l : Layout F) (u : Update) (a b : List Str) (x : Str) (e : Err)
    (hl : layoutNames l = a ++ x :: b) (ha : ∀ n ∈ a, (u n).2 = none) (hx : (u x).2 = some e) :
    (l.updateNetNames u).2 = some e ∧
    layoutNames (l.updateNetNames u).1 = a.map (fun n => (u n).1) ++ (u x).1 :: b ∧
    eraseLayoutNames (l.updateNetNames u).1 = eraseLayoutNames l := by
  obtain ⟨h1, h2, h3⟩ := Lay.updateNetNames_spec u l
  rw [hl, Lay.updateNames_fail _ _ _ _ _ ha hx] at h1 h2
  exact ⟨h2, h1, h3⟩

example : ∃ u : Update, ((sampleBoard : Layout Nm).updateNetNames u).2 = some .other ∧
    layoutNames ((sampleBoard : Layout Nm).updateNetNames u).1 =
      [str! "/a/gnd!", str! "vcc", str! "/a/gnd", str! "/a/gnd"] := by
  refine ⟨fun n => if n = str! "vcc" then (n, some .other) else (n ++ ['!'], none), ?_⟩
  decide +kernel

/-- The call fails exactly if the update function fails on some net name. -/
theorem C38_fails_iff (l : Layout F) (u : Update) :
    (l.updateNetNames u).2 = none ↔ ∀ n ∈ layoutNames l, (u n).2 = none := by
  obtain ⟨-, h2, -⟩ := Lay.updateNetNames_spec u l
  rw [h2]
  generalize layoutNames l = ns
  induction ns with
  | nil => simp [updateNames]
  | cons n ns ih =>
    rcases hn : u n with ⟨n', _ | e⟩ <;> simp [updateNames, hn, ih]

end Verif
