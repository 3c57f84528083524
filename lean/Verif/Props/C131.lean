import Mathlib.Data.List.Perm.Basic
import Verif.Props.C50
import Verif.Props.C09
/-!
# C131: lists of parts in the order of their references

`reference_ord` is there to be sorted by.  A list of parts sorted by it contains every part once, `R2`
before `R10`, parts that it does not tell apart in the order in which they were collected.  The list is
the same for every order of collecting exactly if no two different parts have the same key.  An empty
reference, which a file may well contain, makes it panic.
-/

namespace Verif
open Sch Spec

set_option linter.unusedSectionVars false

variable {F : Type} [Flt F]

/-- The order on keys: by letter, then by number. -/
def Spec.keyLe (a b : Char × Int) : Bool := decide (a.1 < b.1 ∨ a.1 = b.1 ∧ a.2 ≤ b.2)

/-- Every component with its key, as computed by `reference_ord` (src/lib.rs 349-367). -/
def Spec.keyed : List (Component F) → Res (List ((Char × Int) × Component F))
  | [] => .ok []
  | c :: r => do
    let k ← referenceOrd c.reference
    let ks ← keyed r
    .ok ((k, c) :: ks)

/-- The list of parts: a stable sort by the keys. -/
def Spec.partsList (v : List (Component F)) : Res (List (Component F)) := do
  let ks ← keyed v
  .ok ((ks.mergeSort fun a b => keyLe a.1 b.1).map (·.2))

namespace Parts

/-- The key of a component with a reference. -/
def key (c : Component F) : Char × Int := match referenceOrd c.reference with | .ok k => k | _ => ('a', 0)

theorem le_trans (a b c : Char × Int) (h : keyLe a b = true) (h' : keyLe b c = true) : keyLe a c = true := by
  simp only [keyLe, decide_eq_true_eq] at *
  rcases h with h | ⟨h1, h2⟩ <;> rcases h' with h' | ⟨h3, h4⟩
  · exact Or.inl (Std.lt_trans h h')
  · exact Or.inl (h3 ▸ h)
  · exact Or.inl (h1 ▸ h')
  · exact Or.inr ⟨h1.trans h3, by omega⟩

theorem le_total (a b : Char × Int) : (keyLe a b || keyLe b a) = true := by
  simp only [keyLe, Bool.or_eq_true, decide_eq_true_eq]
  rcases Std.lt_trichotomy a.1 b.1 with h | h | h
  · exact Or.inl (Or.inl h)
  · rcases Int.le_total a.2 b.2 with h2 | h2
    · exact Or.inl (Or.inr ⟨h, h2⟩)
    · exact Or.inr (Or.inr ⟨h.symm, h2⟩)
  · exact Or.inr (Or.inl h)

theorem le_antisymm (a b : Char × Int) (h : keyLe a b = true) (h' : keyLe b a = true) : a = b := by
  simp only [keyLe, decide_eq_true_eq] at *
  rcases h with h | ⟨h1, h2⟩ <;> rcases h' with h' | ⟨h3, h4⟩
  · exact absurd (Std.lt_trans h h') (Std.lt_irrefl)
  · exact absurd (h3 ▸ h) (Std.lt_irrefl)
  · exact absurd (h1 ▸ h') (Std.lt_irrefl)
  · exact Prod.ext h1 (by omega)

theorem key_ok (c : Component F) (h : c.reference ≠ []) : referenceOrd c.reference = .ok (key c) := by
  obtain ⟨k, hk⟩ := (C50_panics_only_on_empty c.reference).2 h
  simp only [key, hk]

theorem keyed_ok (v : List (Component F)) (h : ∀ c ∈ v, c.reference ≠ []) :
    keyed v = .ok (v.map fun c => (key c, c)) := by
  induction v with
  | nil => rfl
  | cons c v ih =>
    rw [List.forall_mem_cons] at h
    simp only [keyed, key_ok c h.1, Res.bind_ok, ih h.2, List.map_cons]

/-- Sorting by the key. -/
def sorted (v : List (Component F)) : List (Component F) := v.mergeSort fun a b => keyLe (key a) (key b)

theorem list_ok (v : List (Component F)) (h : ∀ c ∈ v, c.reference ≠ []) : partsList v = .ok (sorted v) := by
  simp only [partsList, keyed_ok v h, Res.bind_ok, Res.ok.injEq, sorted]
  rw [← List.map_mergeSort (r := fun a b : Component F => keyLe (key a) (key b)) (f := fun c => (key c, c))
    (s := fun a b : (Char × Int) × Component F => keyLe a.1 b.1) (l := v) (fun a _ b _ => rfl)]
  rw [List.map_map]
  exact List.map_id _

theorem list_panic (v : List (Component F)) (h : ∃ c ∈ v, c.reference = []) : partsList v = .panic := by
  have : keyed v = .panic := by
    induction v with
    | nil => obtain ⟨c, hc, _⟩ := h; cases hc
    | cons c v ih =>
      by_cases hc : c.reference = []
      · simp only [keyed, hc, referenceOrd]; rfl
      · obtain ⟨d, hd, he⟩ := h
        rcases List.mem_cons.1 hd with rfl | hd
        · exact absurd he hc
        · simp only [keyed, key_ok c hc, Res.bind_ok, ih ⟨d, hd, he⟩]; rfl
  simp only [partsList, this]; rfl

theorem sorted_perm (v : List (Component F)) : (sorted v).Perm v := List.mergeSort_perm v _

theorem sorted_pairwise (v : List (Component F)) :
    (sorted v).Pairwise fun a b => keyLe (key a) (key b) = true :=
  List.pairwise_mergeSort (fun a b c => le_trans (key a) (key b) (key c)) (fun a b => le_total (key a) (key b)) v

theorem sorted_filter (v : List (Component F)) (k : Char × Int) :
    (sorted v).filter (fun c => decide (key c = k)) = v.filter fun c => decide (key c = k) := by
  have h1 : (v.filter fun c => decide (key c = k)).Pairwise fun a b => keyLe (key a) (key b) = true := by
    refine List.Pairwise.imp_of_mem ?_ (List.pairwise_of_forall (R := fun _ _ => True) fun _ _ => trivial)
    intro a b ha hb _
    have ha := of_decide_eq_true (List.mem_filter.1 ha).2
    have hb := of_decide_eq_true (List.mem_filter.1 hb).2
    rw [ha, hb]
    simp [keyLe]
  have h2 : (v.filter fun c => decide (key c = k)).Sublist (sorted v) :=
    List.sublist_mergeSort (fun a b c => le_trans (key a) (key b) (key c)) (fun a b => le_total (key a) (key b))
      h1 List.filter_sublist
  have h3 := h2.filter fun c => decide (key c = k)
  rw [List.filter_filter] at h3
  simp only [Bool.and_self] at h3
  exact (h3.eq_of_length ((sorted_perm v).symm.filter _).length_eq).symm

theorem list_of_sorted (v : List (Component F)) (h : ∀ c ∈ v, c.reference ≠ [])
    (h' : v.Pairwise fun a b => keyLe (key a) (key b) = true) : partsList v = .ok v := by
  rw [list_ok v h, sorted, List.mergeSort_of_pairwise h']

end Parts

/-- Making the list panics exactly if a part has an empty reference, and never fails otherwise. -/
theorem C131_panics (v : List (Component F)) :
    (partsList v = .panic ↔ ∃ c ∈ v, c.reference = []) ∧
    ((∀ c ∈ v, c.reference ≠ []) → ∃ r, partsList v = .ok r) := by
  refine ⟨⟨fun h => ?_, Parts.list_panic v⟩, fun h => ⟨_, Parts.list_ok v h⟩⟩
  by_contra hc
  rw [Parts.list_ok v fun c h1 h2 => hc ⟨c, h1, h2⟩] at h
  cases h

/-- The text of a file that reads well and has a component without a reference. -/
theorem C131_file_panics : ∃ (text : Str) (s : Schematic Nm), parseStr text = .ok s ∧ s.components ≠ [] ∧
    partsList s.components = .panic := by
  have h : (parseStr (sampleSheetText (str! "\"\"") []) : Res (Schematic Nm)).map
      (fun s => s.components.map (·.reference)) = .ok [[]] := by decide +kernel
  cases hs : (parseStr (sampleSheetText (str! "\"\"") []) : Res (Schematic Nm)) with
  | ok s =>
    rw [hs] at h
    have h1 : s.components.map (·.reference) = [[]] := Res.ok.inj h
    cases hc : s.components with
    | nil => rw [hc] at h1; cases h1
    | cons c r =>
      rw [hc] at h1
      refine ⟨_, s, hs, by simp [hc], ?_⟩
      rw [hc]
      exact (C131_panics _).1.2 ⟨c, by simp, (List.cons.inj h1).1⟩
  | _ => rw [hs] at h; cases h

/-- The list has every part as often as it was collected, is in order of the keys, and leaves parts
with the same key in the order in which they were collected. -/
theorem C131_sorted (v r : List (Component F)) (h : partsList v = .ok r) :
    r.Perm v ∧
    r.Pairwise (fun a b => ∃ j k, referenceOrd a.reference = .ok j ∧ referenceOrd b.reference = .ok k ∧
      (RefLt j k ∨ j = k)) ∧
    ∀ k, r.filter (fun c => decide (referenceOrd c.reference = .ok k)) =
      v.filter fun c => decide (referenceOrd c.reference = .ok k) := by
  have hv : ∀ c ∈ v, c.reference ≠ [] := fun c h1 h2 => by
    rw [Parts.list_panic v ⟨c, h1, h2⟩] at h; cases h
  rw [Parts.list_ok v hv] at h
  cases h
  have hp := Parts.sorted_perm v
  refine ⟨hp, ?_, fun k => ?_⟩
  · refine List.Pairwise.imp_of_mem ?_ (Parts.sorted_pairwise v)
    intro a b ha hb hab
    refine ⟨_, _, Parts.key_ok a (hv a (hp.mem_iff.1 ha)), Parts.key_ok b (hv b (hp.mem_iff.1 hb)), ?_⟩
    simp only [keyLe, decide_eq_true_eq] at hab
    rcases hab with h1 | ⟨h1, h2⟩
    · exact Or.inl (Or.inl h1)
    · by_cases h3 : (Parts.key a).2 < (Parts.key b).2
      · exact Or.inl (Or.inr ⟨h1, h3⟩)
      · exact Or.inr (Prod.ext h1 (by omega))
  · have e : ∀ l : List (Component F), (∀ c ∈ l, c ∈ v) →
        l.filter (fun c => decide (referenceOrd c.reference = .ok k)) = l.filter fun c => decide (Parts.key c = k) := by
      intro l hl
      refine List.filter_congr fun c hc => ?_
      simp only [Parts.key_ok c (hv c (hl c hc)), Res.ok.injEq]
    rw [e _ fun c hc => hp.mem_iff.1 hc, e _ fun _ hc => hc]
    exact Parts.sorted_filter v k

/-- `R2` comes before `R10`. -/
theorem C131_numbers (v r : List (Component F)) (h : partsList v = .ok r) (a b : Component F) (ha : a ∈ v) (hb : b ∈ v)
    (c : Char) (p : Str) (n m : Nat) (hp : ∀ d ∈ c :: p, ¬ DecDigit d ∧ d ≠ ',') (hn : n < m) (hm : m < 2 ^ 63)
    (ra : a.reference = c :: p ++ showNat n) (rb : b.reference = c :: p ++ showNat m) :
    ∃ x y z, r = x ++ a :: y ++ b :: z := by
  obtain ⟨h1, h2, _⟩ := C131_sorted v r h
  obtain ⟨x, y, hx⟩ := List.append_of_mem (h1.mem_iff.2 ha)
  have hb' := h1.mem_iff.2 hb
  obtain ⟨j, k, hj, hk, hlt, heq⟩ := C50_numeric_order c p n m hp (by omega) hm
  rw [← ra] at hj
  rw [← rb] at hk
  have hbad : ∀ j' k', referenceOrd b.reference = .ok j' → referenceOrd a.reference = .ok k' →
      ¬ (RefLt j' k' ∨ j' = k') := by
    intro j' k' e1 e2
    rw [hk] at e1; rw [hj] at e2
    cases e1; cases e2
    have l1 := hlt.2 hn
    rintro (l2 | rfl)
    · rcases l1 with l1 | ⟨e1, l1⟩ <;> rcases l2 with l2 | ⟨e2, l2⟩
      · exact absurd (Std.lt_trans l1 l2) Std.lt_irrefl
      · exact absurd (e2 ▸ l1) Std.lt_irrefl
      · exact absurd (e1 ▸ l2) Std.lt_irrefl
      · omega
    · have := heq.1 rfl; omega
  rw [hx] at h2 hb'
  rcases List.mem_append.1 hb' with h3 | h3
  · obtain ⟨j', k', e1, e2, e3⟩ := (List.pairwise_append.1 h2).2.2 b h3 a (by simp)
    exact absurd e3 (hbad j' k' e1 e2)
  · rcases List.mem_cons.1 h3 with rfl | h3
    · exact absurd (Or.inr rfl) (hbad k k hk hk)
    · obtain ⟨y1, y2, rfl⟩ := List.append_of_mem h3
      exact ⟨x, y1, y2, by rw [hx]; simp⟩

/-- The list does not depend on the order of collecting exactly if different parts have different keys. -/
theorem C131_any_order (v : List (Component F)) (hv : ∀ c ∈ v, c.reference ≠ []) :
    (∀ v' : List (Component F), v'.Perm v → partsList v' = partsList v) ↔
      ∀ a ∈ v, ∀ b ∈ v, referenceOrd a.reference = referenceOrd b.reference → a = b := by
  classical
  have hk : ∀ a ∈ v, ∀ b ∈ v, (referenceOrd a.reference = referenceOrd b.reference ↔ Parts.key a = Parts.key b) := by
    intro a ha b hb
    rw [Parts.key_ok a (hv a ha), Parts.key_ok b (hv b hb), Res.ok.injEq]
  have hl : ∀ v' : List (Component F), v'.Perm v → partsList v' = .ok (Parts.sorted v') := fun v' h =>
    Parts.list_ok v' fun c hc => hv c (h.mem_iff.1 hc)
  constructor
  · intro h a ha b hb hab
    rw [hk a ha b hb] at hab
    by_contra hne
    have p1 : (a :: b :: (v.erase a).erase b).Perm v := by
      refine ((List.perm_cons_erase ?_).symm.cons a).trans (List.perm_cons_erase ha).symm
      exact (List.mem_erase_of_ne (Ne.symm hne)).2 hb
    have p2 : (b :: a :: (v.erase a).erase b).Perm v := (List.Perm.swap a b _).trans p1
    have e := (h _ p1).trans (h _ p2).symm
    rw [hl _ p1, hl _ p2, Res.ok.injEq] at e
    have e2 := congrArg (List.filter fun c => decide (Parts.key c = Parts.key a)) e
    rw [Parts.sorted_filter, Parts.sorted_filter] at e2
    simp only [List.filter_cons, decide_true, if_true, ← hab] at e2
    exact hne (List.cons.inj e2).1
  · intro h v' hp
    rw [hl v' hp, hl v (List.Perm.refl v), Res.ok.injEq]
    refine List.Perm.eq_of_pairwise (fun a b ha hb h1 h2 => ?_) (Parts.sorted_pairwise v') (Parts.sorted_pairwise v)
      ((Parts.sorted_perm v').trans (hp.trans (Parts.sorted_perm v).symm))
    have ha' := hp.mem_iff.1 ((Parts.sorted_perm v').mem_iff.1 ha)
    have hb' := (Parts.sorted_perm v).mem_iff.1 hb
    exact h a ha' b hb' ((hk a ha' b hb').2 (Parts.le_antisymm _ _ h1 h2))

/-! ### Cases -/

/-- A part with a reference and nothing else. -/
def Parts.part (r : Str) : Component Nm := { (Component.dflt : Component Nm) with reference := r }

/-- `R10` and `R2`. -/
example : partsList [Parts.part (str! "R10"), Parts.part (str! "R2")] =
    .ok [Parts.part (str! "R2"), Parts.part (str! "R10")] := by
  rw [← Parts.list_of_sorted [Parts.part (str! "R2"), Parts.part (str! "R10")] (by decide +kernel) (by decide +kernel)]
  exact (C131_any_order _ (by decide +kernel)).2 (by decide +kernel) _ (List.Perm.swap _ _ _)

example : (Parts.part (str! "R2")).reference = 'R' :: [] ++ showNat 2 ∧
    (Parts.part (str! "R10")).reference = 'R' :: [] ++ showNat 10 := by decide +kernel

/-- `R1` and `RN1` have the same key, so that their order is the order of collecting. -/
example : referenceOrd (Parts.part (str! "R1")).reference = referenceOrd (Parts.part (str! "RN1")).reference ∧
    partsList [Parts.part (str! "R1"), Parts.part (str! "RN1")] = .ok [Parts.part (str! "R1"), Parts.part (str! "RN1")] ∧
    partsList [Parts.part (str! "RN1"), Parts.part (str! "R1")] = .ok [Parts.part (str! "RN1"), Parts.part (str! "R1")] :=
  ⟨by decide +kernel, Parts.list_of_sorted _ (by decide +kernel) (by decide +kernel),
    Parts.list_of_sorted _ (by decide +kernel) (by decide +kernel)⟩

end Verif
