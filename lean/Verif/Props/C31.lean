import Verif.Spec.Footprint
import Verif.Basic.Nm
/-!
# C31: renaming a net inside a footprint
-/

namespace Verif
open Flt Fp Spec

variable {F : Type}

/-- Element by element: a pad on net `old` is now on net `new`, every other net
name is as before, and apart from net names nothing changed (also not the net
numbers). -/
theorem C31_rename_net (m : Module F) (old new : Str) :
    (m.renameNet old new).name = m.name ∧
    (m.renameNet old new).elements.map eraseNetName = m.elements.map eraseNetName ∧
    (m.renameNet old new).elements.map netNames =
      m.elements.map (fun e => (netNames e).map fun n => if n = old then new else n) := by
  refine ⟨rfl, ?_, ?_⟩ <;> simp only [Module.renameNet, List.map_map] <;>
    apply List.map_congr_left <;> intro e _ <;> cases e <;> try rfl
  all_goals
    rename_i p _
    simp only [Function.comp_apply, Module.renameNetElem, Pad.renameNet, eraseNetName, netNames]
    cases p.net with
    | none => rfl
    | some n => by_cases h : n.name = old <;> simp [h]

/-- No pad is left on the old net. -/
theorem C31_no_old_left (m : Module F) (old new : Str) (h : old ≠ new) :
    ∀ e ∈ (m.renameNet old new).elements, old ∉ netNames e := by
  intro e he hold
  have h2 := (C31_rename_net m old new).2.2
  have h1 : netNames e ∈ (m.renameNet old new).elements.map netNames := List.mem_map_of_mem he
  rw [h2] at h1
  obtain ⟨e', _, h4⟩ := List.mem_map.1 h1
  rw [← h4] at hold
  obtain ⟨n, _, h5⟩ := List.mem_map.1 hold
  split at h5
  · exact h h5.symm
  · contradiction

/-- Renaming to a net name that is not in use can be undone. -/
theorem C31_rename_back (m : Module F) (old new : Str) (h : ∀ e ∈ m.elements, new ∉ netNames e) :
    (m.renameNet old new).renameNet new old = m := by
  obtain ⟨n, es⟩ := m
  simp only [Module.renameNet, Module.mk.injEq, true_and, List.map_map] at *
  induction es with
  | nil => rfl
  | cons e es ih =>
    rw [List.forall_mem_cons] at h
    rw [List.map_cons, ih h.2]
    congr 1
    cases e <;> try rfl
    rename_i p
    obtain ⟨h, _⟩ := h
    obtain ⟨_, _, _, _, _, _, _, net, _, _, _, _, _, _⟩ := p
    simp only [Function.comp_apply, Module.renameNetElem, Pad.renameNet, netNames] at *
    cases net with
    | none => rfl
    | some n =>
      obtain ⟨i, nm⟩ := n
      by_cases h1 : nm = old
      · subst h1; simp
      · have : ¬ nm = new := by rintro rfl; simp at h
        simp [h1, this]

example : ∃ m : Module Nm, m.renameNet (str! "GND") (str! "VCC") ≠ m ∧
    ∀ e ∈ m.elements, (str! "VCC") ∉ netNames e :=
  ⟨⟨[], [.locked, .pad { Pad.new (str! "1") .smd .rect with net := some ⟨3, str! "GND"⟩ },
    .pad { Pad.new (str! "2") .smd .rect with net := some ⟨4, str! "A"⟩ }]⟩, by decide⟩

end Verif
