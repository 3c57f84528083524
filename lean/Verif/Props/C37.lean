import Verif.Lemmas.LayNames
import Verif.Basic.Nm
/-!
# C37: renaming a net in a layout
-/

set_option linter.unusedSectionVars false

namespace Verif
open Flt Spec Lay

variable {F : Type} [Flt F]

/-- A layout is determined by its net names, in order, and the rest: nothing
else is in it. -/
theorem C37_names_and_rest_determine (a b : Layout F) (h : eraseLayoutNames a = eraseLayoutNames b)
    (hn : layoutNames a = layoutNames b) : a = b := by
  obtain ⟨⟩ := a; obtain ⟨⟩ := b
  simp only [eraseLayoutNames, Layout.mk.injEq] at h
  obtain ⟨rfl, rfl, rfl, rfl, rfl, rfl, h⟩ := h
  simp only [layoutNames] at hn
  rw [Lay.elems_names_length _ _ h hn]

/-- `change_net_name(old, new)` never aborts; it renames every occurrence of the
old name, in nets, net classes, pads and zones, and nothing else. -/
theorem C37_rename_exact (l : Layout F) (old new : Str) :
    ∃ l', l.changeNetName old new = .ok l' ∧
      layoutNames l' = (layoutNames l).map (fun n => if n = old then new else n) ∧
      eraseLayoutNames l' = eraseLayoutNames l := by
  obtain ⟨h1, h2, h3⟩ := Lay.updateNetNames_spec (fun n => (rename n old new, none)) l
  rw [Lay.updateNames_ok _ _ (by simp)] at h1 h2
  rcases hl : l.updateNetNames (fun n => (rename n old new, none)) with ⟨l', e⟩
  rw [hl] at h1 h2 h3
  simp only at h2
  subst h2
  exact ⟨l', by simp [Layout.changeNetName, hl], h1, h3⟩

example : ∃ l' : Layout Nm, sampleBoard.changeNetName (str! "/a/gnd") (str! "GND") = .ok l' ∧
    layoutNames l' = [str! "GND", str! "vcc", str! "GND", str! "GND"] := by
  exact ⟨_, rfl, by decide +kernel⟩

/-- No occurrence of the old name remains, the new name is used where the old one
was, and renaming back restores the layout if the new name was unused. -/
theorem C37_rename_effect (l l' : Layout F) (old new : Str) (h : l.changeNetName old new = .ok l') :
    (old ≠ new → old ∉ layoutNames l') ∧
    (old ∈ layoutNames l → new ∈ layoutNames l') ∧
    (old ∉ layoutNames l → l' = l) ∧
    (new ∉ layoutNames l → l'.changeNetName new old = .ok l) := by
  obtain ⟨l'', h1, h2, h3⟩ := C37_rename_exact l old new
  rw [h] at h1
  cases h1
  refine ⟨fun hne hin => ?_, fun hin => ?_, fun hno => ?_, fun hno => ?_⟩
  · rw [h2, List.mem_map] at hin
    obtain ⟨n, _, hn⟩ := hin
    split at hn <;> simp_all
  · rw [h2, List.mem_map]
    exact ⟨old, hin, by simp⟩
  · apply C37_names_and_rest_determine _ _ h3
    rw [h2]
    conv => rhs; rw [← List.map_id (layoutNames l)]
    apply List.map_congr_left
    intro n hn
    have : n ≠ old := fun e => hno (e ▸ hn)
    simp [this]
  · obtain ⟨l3, g1, g2, g3⟩ := C37_rename_exact l' new old
    rw [g1]
    congr 1
    apply C37_names_and_rest_determine _ _ (g3.trans h3)
    rw [g2, h2, List.map_map]
    conv => rhs; rw [← List.map_id (layoutNames l)]
    apply List.map_congr_left
    intro n hn
    have : n ≠ new := fun e => hno (e ▸ hn)
    by_cases hn : n = old <;> simp [hn, this]

end Verif
