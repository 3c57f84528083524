import Verif.Model.Layout.Data
/-!
# C41: board setup entries behave like a map
-/

namespace Verif
open Lay

theorem Lay.updateElementIn_none (k v : Str) (l : List SetupElement) :
    updateElementIn k v l = none ↔ ∀ e ∈ l, e.name ≠ k := by
  induction l with
  | nil => simp [updateElementIn]
  | cons e l ih =>
    by_cases h : e.name = k <;> simp [updateElementIn, h, ih]

theorem Lay.updateElementIn_some (k v : Str) (l r : List SetupElement)
    (h : updateElementIn k v l = some r) :
    ∃ a e b, l = a ++ e :: b ∧ e.name = k ∧ (∀ x ∈ a, x.name ≠ k) ∧
      r = a ++ { e with value1 := v } :: b := by
  induction l generalizing r with
  | nil => simp [updateElementIn] at h
  | cons e l ih =>
    by_cases hk : e.name = k
    · simp only [updateElementIn, if_pos hk, Option.some.injEq] at h
      exact ⟨[], e, l, rfl, hk, by simp, h.symm⟩
    · simp only [updateElementIn, hk, if_false, Option.map_eq_some_iff] at h
      obtain ⟨r', h1, rfl⟩ := h
      obtain ⟨a, x, b, rfl, h2, h3, rfl⟩ := ih r' h1
      exact ⟨e :: a, x, b, rfl, h2, by simpa [hk] using h3, rfl⟩

/-- What an update does to the list of entries: the first entry with the key gets
the value and all others stay as and where they are; if there is none, one is
added at the end.  The plot parameters are untouched. -/
theorem C41_update_entries (s : Setup) (k v : Str) :
    ((∃ a e b, s.elements = a ++ e :: b ∧ e.name = k ∧ (∀ x ∈ a, x.name ≠ k) ∧
        (s.updateElement k v).elements = a ++ { e with value1 := v } :: b) ∨
      ((∀ e ∈ s.elements, e.name ≠ k) ∧
        (s.updateElement k v).elements = s.elements ++ [⟨k, v, none⟩])) ∧
    (s.updateElement k v).pcbplotparams = s.pcbplotparams := by
  simp only [Setup.updateElement]
  cases h : updateElementIn k v s.elements with
  | none => exact ⟨Or.inr ⟨(Lay.updateElementIn_none k v _).1 h, rfl⟩, rfl⟩
  | some r => exact ⟨Or.inl (Lay.updateElementIn_some k v _ r h), rfl⟩

theorem Lay.find_skip (k : Str) (a b : List SetupElement) (h : ∀ x ∈ a, x.name ≠ k) :
    (a ++ b).find? (fun e => decide (e.name = k)) = b.find? (fun e => decide (e.name = k)) := by
  induction a with
  | nil => rfl
  | cons x a ih =>
    rw [List.forall_mem_cons] at h
    simp [h.1, ih h.2]

/-- The value just stored is found under its key. -/
theorem C41_get_updated (s : Setup) (k v : Str) : (s.updateElement k v).get k = some v := by
  rcases (C41_update_entries s k v).1 with ⟨a, e, b, -, hk, ha, h⟩ | ⟨ha, h⟩ <;>
    rw [Setup.get, h, Lay.find_skip k _ _ ha]
  · simp [hk]
  · simp

/-- All other keys keep their value (or stay absent). -/
theorem C41_get_other (s : Setup) (k k' v : Str) (hne : k' ≠ k) :
    (s.updateElement k v).get k' = s.get k' := by
  have hne' : k ≠ k' := fun h => hne h.symm
  rcases (C41_update_entries s k v).1 with ⟨a, e, b, h0, hk, -, h⟩ | ⟨-, h⟩
  · simp [Setup.get, h, h0, List.find?_append, hk, hne']
  · simp [Setup.get, h, List.find?_append, hne']

/-- A key is found exactly if some entry has it, and the value is that of the
first such entry. -/
theorem C41_get_spec (s : Setup) (k v : Str) :
    s.get k = some v ↔ ∃ a e b, s.elements = a ++ e :: b ∧ e.name = k ∧ e.value1 = v ∧
      ∀ x ∈ a, x.name ≠ k := by
  simp only [Setup.get, Option.map_eq_some_iff, List.find?_eq_some_iff_append]
  constructor
  · rintro ⟨e, ⟨h1, a, b, h2, h3⟩, h4⟩
    exact ⟨a, e, b, h2, by simpa using h1, h4, fun x hx => by simpa using h3 x hx⟩
  · rintro ⟨a, e, b, h1, h2, h3, h4⟩
    exact ⟨e, ⟨by simpa using h2, a, b, h1, fun x hx => by simpa using h4 x hx⟩, h3⟩

/-- Updating a key twice is the same as only the last update. -/
theorem C41_update_update (s : Setup) (k v w : Str) :
    (s.updateElement k v).updateElement k w = s.updateElement k w := by
  have step : ∀ (a b : List SetupElement) (e : SetupElement), (∀ x ∈ a, x.name ≠ k) → e.name = k →
      updateElementIn k w (a ++ e :: b) = some (a ++ { e with value1 := w } :: b) := by
    intro a b e ha he
    induction a with
    | nil => simp [updateElementIn, he]
    | cons x a ih =>
      rw [List.forall_mem_cons] at ha
      simp [updateElementIn, ha.1, ih ha.2]
  cases h : updateElementIn k v s.elements with
  | some r =>
    obtain ⟨a, e, b, h0, hk, ha, rfl⟩ := Lay.updateElementIn_some k v _ _ h
    have h1 : s.updateElement k v = { s with elements := a ++ { e with value1 := v } :: b } := by
      simp [Setup.updateElement, h]
    rw [h1, Setup.updateElement, Setup.updateElement, h0, step a b e ha hk]
    simp only
    rw [step a b { e with value1 := v } ha hk]
  | none =>
    have ha := (Lay.updateElementIn_none k v _).1 h
    have h2 := (Lay.updateElementIn_none k w _).2 ha
    have h1 : s.updateElement k v = { s with elements := s.elements ++ [⟨k, v, none⟩] } := by
      simp [Setup.updateElement, h]
    rw [h1, Setup.updateElement, Setup.updateElement, h2]
    simp only
    rw [step s.elements [] ⟨k, v, none⟩ ha rfl]

example : (Setup.updateElement ⟨[⟨str! "a", str! "1", some (str! "x")⟩, ⟨str! "b", str! "2", none⟩], []⟩
    (str! "a") (str! "9")) =
    ⟨[⟨str! "a", str! "9", some (str! "x")⟩, ⟨str! "b", str! "2", none⟩], []⟩ := by decide

end Verif
