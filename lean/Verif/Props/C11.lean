import Verif.Props.C09
/-!
# C11: finding a component by reference
-/

namespace Verif
open Sch Spec

variable {F : Type} [Flt F]

theorem Spec.sheetsFind_ok {load : Sheet → Res (Schematic F)} {sub : Schematic F → Res (Component F)}
    {c : Component F} : ∀ {l : List Sheet}, sheetsFind load sub l = .ok c →
    ∃ sheet ∈ l, ∃ s, load sheet = .ok s ∧ sub s = .ok c
  | [], h => by simp [sheetsFind] at h
  | sheet :: l, h => by
    simp only [sheetsFind, Res.bind_eq_ok] at h
    obtain ⟨s, hs, h⟩ := h
    cases hr : sub s with
    | ok d => rw [hr] at h; cases h; exact ⟨sheet, by simp, s, hs, hr⟩
    | err e =>
      rw [hr] at h
      obtain ⟨x, hx, r⟩ := sheetsFind_ok h
      exact ⟨x, by simp [hx], r⟩
    | panic => rw [hr] at h; cases h
    | diverge => rw [hr] at h; cases h

/-- What is found has the reference asked for, and is a component of the
schematic or of a schematic below it; if the schematic itself has such a
component, it is the first of those. -/
theorem C11_found (w : World) (r : Str) (n : Nat) (s : Schematic F) (c : Component F)
    (h : componentByReference w r n s = .ok c) :
    c.reference = r ∧
    ((∃ a b, s.components = a ++ c :: b ∧ ∀ d ∈ a, d.reference ≠ r) ∨
      (∀ d ∈ s.components, d.reference ≠ r) ∧ ∃ t, Below w s t ∧ c ∈ t.components) := by
  induction n generalizing s with
  | zero => simp [componentByReference] at h
  | succ n ih =>
    rw [componentByReference] at h
    cases hf : s.components.find? fun c => c.reference = r with
    | some d =>
      rw [hf] at h
      cases h
      obtain ⟨hp, a, b, hab, ha⟩ := List.find?_eq_some_iff_append.1 hf
      exact ⟨by simpa using hp, Or.inl ⟨a, b, hab, by simpa using ha⟩⟩
    | none =>
      rw [hf] at h
      have hn : ∀ d ∈ s.components, d.reference ≠ r := by simpa using List.find?_eq_none.1 hf
      obtain ⟨sheet, hm, t, ht, hc⟩ := Spec.sheetsFind_ok h
      have hb : SubSheet w s t := ⟨sheet, hm, ht⟩
      obtain ⟨h1, h2⟩ := ih t hc
      refine ⟨h1, Or.inr ⟨hn, ?_⟩⟩
      rcases h2 with ⟨a, b, hab, _⟩ | ⟨_, u, hu, hcu⟩
      · exact ⟨t, .one hb, by rw [hab]; simp⟩
      · exact ⟨u, .more hb hu, hcu⟩

mutual
theorem Spec.find_hier (w : World) (r : Str) : ∀ (h : Hier F), Stored w h → ∀ n, h.depth ≤ n →
    componentByReference w r n h.root =
      match h.components.find? fun c => c.reference = r with | some c => .ok c | none => .err .other
  | .node s subs, hst, n, hd => by
    cases n with
    | zero => simp [Hier.depth] at hd
    | succ n =>
      have ih := find_hiers w r s s.sheets subs hst n (Nat.le_of_succ_le_succ hd)
      show componentByReference w r (n + 1) s = _
      rw [componentByReference, ih, Hier.components, List.find?_append]
      cases s.components.find? fun c => c.reference = r <;> rfl
theorem Spec.find_hiers (w : World) (r : Str) (s : Schematic F) : ∀ (l : List Sheet) (hs : List (Hier F)),
    StoredAll w s l hs → ∀ n, depthAll hs ≤ n →
    sheetsFind (parseFileForSheet w s) (componentByReference w r n) l =
      match (componentsAll hs).find? fun c => c.reference = r with | some c => .ok c | none => .err .other
  | [], [], _, _, _ => rfl
  | sheet :: l, h :: hs, ⟨h1, h2, h3⟩, n, hd => by
    have hd' := Nat.max_le.1 (show max h.depth (depthAll hs) ≤ n from hd)
    have ih1 := find_hier w r h h2 n hd'.1
    have ih2 := find_hiers w r s l hs h3 n hd'.2
    rw [sheetsFind, h1, Res.bind_ok, ih1, ih2, componentsAll, List.find?_append]
    cases h.components.find? fun c => c.reference = r <;> rfl
  | [], _ :: _, h, _, _ => by simp [StoredAll] at h
  | _ :: _, [], h, _, _ => by simp [StoredAll] at h
end

/-- When the hierarchy is completely stored, the search returns the first
component with the reference in the order in which `all_components` lists them,
and fails exactly if there is none. -/
theorem C11_complete (w : World) (r : Str) (h : Hier F) (hst : Stored w h) (n : Nat) (hn : h.depth ≤ n) :
    (∀ a c b, h.components = a ++ c :: b → c.reference = r → (∀ d ∈ a, d.reference ≠ r) →
      componentByReference w r n h.root = .ok c) ∧
    ((∀ d ∈ h.components, d.reference ≠ r) → componentByReference w r n h.root = .err .other) := by
  rw [Spec.find_hier w r h hst n hn]
  constructor
  · intro a c b hab hc ha
    have : (h.components.find? fun c => c.reference = r) = some c :=
      List.find?_eq_some_iff_append.2 ⟨by simpa using hc, a, b, hab, by simpa using ha⟩
    rw [this]
  · intro hall
    have : (h.components.find? fun c => c.reference = r) = none :=
      List.find?_eq_none.2 (by simpa using hall)
    rw [this]

/-- In the sample files `R3` is found although it is only in a sub-sheet. -/
example : (parseFile Spec.sampleWorld (str! "a") >>= fun s : Schematic Nm =>
    (componentByReference Spec.sampleWorld (str! "R3") 3 s).map (·.reference)) = .ok (str! "R3") := by
  decide +kernel

/-- A sheet that cannot be read hides what comes after it: even with the
component in a later, readable sheet the search fails. -/
theorem C11_unreadable_sheet_stops (w : World) (r : Str) (n : Nat) (s : Schematic F) (sheet : Sheet)
    (l : List Sheet) (hs : s.sheets = sheet :: l) (e : Err) (hload : parseFileForSheet (F := F) w s sheet = .err e)
    (hown : ∀ d ∈ s.components, d.reference ≠ r) : componentByReference w r (n + 1) s = .err e := by
  rw [componentByReference, List.find?_eq_none.2 (by simpa using hown), hs]
  simp only [sheetsFind, hload, Res.bind_err]

example : ∃ (s : Schematic Nm) (sheet : Sheet) (l : List Sheet), s.sheets = sheet :: l ∧ l ≠ [] ∧
    parseFileForSheet (F := Nm) Spec.sampleWorld s sheet = .err .io :=
  ⟨{ (Schematic.dflt : Schematic Nm) with
      filename := some (str! "x"),
      sheets := [{ Sheet.dflt with filename := str! "gone" }, { Sheet.dflt with filename := str! "a" }] },
    _, _, rfl, by simp, by decide +kernel⟩

end Verif
