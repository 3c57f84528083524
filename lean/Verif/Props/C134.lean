import Verif.Props.C08
/-!
# C134: renumbering a schematic

A program that gives components new references goes through a list of old and new ones with
`modify_component` and `update_reference`.  Each step changes the first component with the old reference
and no other, so that of a part with several units only one is renamed.  Going through the list renames
everything at once exactly as it says if the new references are new; otherwise it takes two rounds by way
of references that are not in use.
-/

namespace Verif
open Sch Spec

set_option linter.unusedSectionVars false

variable {F : Type} [Flt F]

/-- The references of a schematic, in order. -/
def Spec.refs (s : Schematic F) : List Str := s.components.map (·.reference)

/-- `for (old, new) in list { s.modify_component(old, |c| c.update_reference(new)) }`
(src/schematic.rs 87-103, 515-522). -/
def Spec.renumber (ps : List (Str × Str)) (s : Schematic F) : Schematic F :=
  ps.foldl (fun s p => s.modifyComponent p.1 fun c => c.updateReference p.2) s

/-- Renaming a component as the list says. -/
def Spec.renumbered (ps : List (Str × Str)) (c : Component F) : Component F :=
  match ps.lookup c.reference with
  | some n => c.updateReference n
  | none => c

namespace Renum

theorem lookup_mem {k v : Str} : ∀ {l : List (Str × Str)}, l.lookup k = some v → (k, v) ∈ l
  | (a, b) :: l, h => by
    rw [List.lookup_cons] at h
    by_cases e : k = a
    · subst e; simp at h; simp [h]
    · have : (k == a) = false := by simpa using e
      rw [this] at h
      exact List.mem_cons_of_mem _ (lookup_mem h)

theorem lookup_none {k : Str} : ∀ {l : List (Str × Str)}, l.lookup k = none ↔ k ∉ l.map (·.1)
  | [] => by simp
  | (a, b) :: l => by
    rw [List.lookup_cons]
    by_cases e : k = a
    · subst e; simp
    · have : (k == a) = false := by simpa using e
      rw [this]
      simp only [List.map_cons, List.mem_cons, not_or]
      exact (lookup_none (l := l)).trans ⟨fun h => ⟨e, h⟩, fun h => h.2⟩

theorem lookup_of_mem {k v : Str} : ∀ {l : List (Str × Str)}, (l.map (·.1)).Nodup → (k, v) ∈ l → l.lookup k = some v
  | (a, b) :: l, hn, h => by
    rw [List.map_cons, List.nodup_cons] at hn
    rw [List.lookup_cons]
    rcases List.mem_cons.1 h with e | h
    · cases e; simp
    · have : ¬ k = a := fun e => hn.1 (e ▸ List.mem_map.2 ⟨(k, v), h, rfl⟩)
      have : (k == a) = false := by simpa using this
      rw [this]
      exact lookup_of_mem hn.2 h

/-- The references of the elements. -/
def refsIn (es : List (Element F)) : List Str := (es.filterMap Element.component?).map (·.reference)

theorem refsIn_component (c : Component F) (es : List (Element F)) :
    refsIn (.component c :: es) = c.reference :: refsIn es := rfl

/-- With one component per reference the first one is all of them. -/
theorem first_all (r : Str) (fn : Component F → Component F) (es : List (Element F)) (h : (refsIn es).Nodup) :
    modifyFirst r fn es = es.map (Element.modify fun c => if c.reference = r then fn c else c) := by
  have none : ∀ es : List (Element F), r ∉ refsIn es →
      es.map (Element.modify fun c => if c.reference = r then fn c else c) = es := by
    intro es
    induction es with
    | nil => exact fun _ => rfl
    | cons e es ih =>
      intro hr
      cases e with
      | component c =>
        rw [refsIn_component, List.mem_cons, not_or] at hr
        rw [List.map_cons, ih hr.2]
        simp only [Element.modify, if_neg (fun e => hr.1 e.symm : ¬ c.reference = r)]
      | _ => rw [List.map_cons, ih hr]; rfl
  induction es with
  | nil => rfl
  | cons e es ih =>
    cases e with
    | component c =>
      rw [refsIn_component, List.nodup_cons] at h
      by_cases hc : c.reference = r
      · simp only [modifyFirst, hc, if_true, List.map_cons, Element.modify]
        rw [none es (hc ▸ h.1)]
      · simp only [modifyFirst, hc, if_false, List.map_cons, Element.modify, ih h.2]
    | _ =>
      simp only [modifyFirst, List.map_cons, ih h]
      rfl

theorem refs_modify (s : Schematic F) (fn : Component F → Component F) (g : Str → Str)
    (h : ∀ c, (fn c).reference = g c.reference) : refs (s.modifyComponents fn) = (refs s).map g := by
  simp only [refs, (C08_modify_components s fn).2.2, List.map_map]
  exact List.map_congr_left fun c _ => h c

theorem modify_modify (s : Schematic F) (f g : Component F → Component F) :
    (s.modifyComponents f).modifyComponents g = s.modifyComponents fun c => g (f c) := by
  simp only [Schematic.modifyComponents, List.map_map]
  congr 1
  refine List.map_congr_left fun e _ => ?_
  cases e <;> rfl

theorem update_update (c : Component F) (a b : Str) :
    (c.updateReference a).updateReference b = c.updateReference b := by
  simp only [Component.updateReference, List.map_map]
  congr 1
  refine List.map_congr_left fun f _ => ?_
  simp only [Function.comp_apply]
  by_cases h : f.i = 0 <;> simp [h]

theorem modify_congr (s : Schematic F) (f g : Component F → Component F) (h : ∀ c ∈ s.components, f c = g c) :
    s.modifyComponents f = s.modifyComponents g := by
  simp only [Schematic.modifyComponents]
  congr 1
  refine List.map_congr_left fun e he => ?_
  cases e with
  | component c => exact congrArg Element.component (h c ((C08_components s []).2 c |>.2 he))
  | _ => rfl

/-- The new reference. -/
def newRef (ps : List (Str × Str)) (r : Str) : Str := (ps.lookup r).getD r

theorem renumbered_ref (ps : List (Str × Str)) (c : Component F) : (renumbered ps c).reference = newRef ps c.reference := by
  simp only [renumbered, newRef]
  cases ps.lookup c.reference <;> rfl

end Renum

/-- Each step replaces the first occurrence of the old reference, and no other. -/
theorem C134_references (ps : List (Str × Str)) (s : Schematic F) :
    refs (renumber ps s) = ps.foldl (fun rs p => rs.replace p.1 p.2) (refs s) := by
  have one : ∀ (o n : Str) (es : List (Element F)),
      Renum.refsIn (modifyFirst o (fun c => c.updateReference n) es) = (Renum.refsIn es).replace o n := by
    intro o n es
    induction es with
    | nil => rfl
    | cons e es ih =>
      cases e with
      | component c =>
        by_cases hc : c.reference = o
        · simp only [modifyFirst, hc, if_true, Renum.refsIn_component, List.replace_cons, beq_self_eq_true]
          rfl
        · have hb : (o == c.reference) = false := by simpa using fun e : o = c.reference => hc e.symm
          simp only [modifyFirst, hc, if_false, Renum.refsIn_component, List.replace_cons, hb, ih]
      | _ => exact ih
  induction ps generalizing s with
  | nil => rfl
  | cons p ps ih =>
    show refs (renumber ps (s.modifyComponent p.1 fun c => c.updateReference p.2)) = _
    rw [ih]
    exact congrArg (fun rs => List.foldl (fun (rs : List Str) (p : Str × Str) => rs.replace p.1 p.2) rs ps)
      (one p.1 p.2 s.elements)

/-- If the references are all different and the new ones are new, going through the list is the same as renaming
all components at once, and the references are all different afterwards. -/
theorem C134_at_once (ps : List (Str × Str)) (s : Schematic F) (hs : (refs s).Nodup) (hn : (ps.map (·.2)).Nodup)
    (hf : ∀ p ∈ ps, p.2 ∉ refs s) (hc : ∀ p ∈ ps, ∀ q ∈ ps, p.2 ≠ q.1) :
    renumber ps s = s.modifyComponents (renumbered ps) ∧ (refs (renumber ps s)).Nodup := by
  induction ps generalizing s with
  | nil =>
    refine ⟨?_, hs⟩
    show s = _
    obtain ⟨a1, a2, a3, es, a5, a6⟩ := s
    simp only [Schematic.modifyComponents, Schematic.mk.injEq, true_and, and_true]
    conv_lhs => rw [← List.map_id es]
    refine List.map_congr_left fun e _ => ?_
    cases e <;> rfl
  | cons p ps ih =>
    obtain ⟨o, n⟩ := p
    rw [List.map_cons, List.nodup_cons] at hn
    have hfn : n ∉ refs s := hf (o, n) (List.mem_cons_self ..)
    have e1 : s.modifyComponent o (fun c => c.updateReference n) =
        s.modifyComponents fun c => if c.reference = o then c.updateReference n else c := by
      simp only [Schematic.modifyComponent, Schematic.modifyComponents]
      rw [Renum.first_all o _ s.elements hs]
    have e2 : refs (s.modifyComponents fun c => if c.reference = o then c.updateReference n else c) =
        (refs s).map fun r => if r = o then n else r := by
      refine Renum.refs_modify s _ _ fun c => ?_
      split <;> rfl
    have h1 : ((refs s).map fun r => if r = o then n else r).Nodup := by
      refine List.Nodup.map_on (fun x hx y hy hxy => ?_) hs
      by_cases h1 : x = o <;> by_cases h2 : y = o
      · rw [h1, h2]
      · rw [if_pos h1, if_neg h2] at hxy; exact absurd (hxy ▸ hy) hfn
      · rw [if_neg h1, if_pos h2] at hxy; exact absurd (hxy ▸ hx) hfn
      · rwa [if_neg h1, if_neg h2] at hxy
    have h2 := ih (s.modifyComponents fun c => if c.reference = o then c.updateReference n else c) (e2 ▸ h1) hn.2
      (fun q hq hm => by
        rw [e2] at hm
        obtain ⟨x, hx, hxq⟩ := List.mem_map.1 hm
        by_cases hxo : x = o
        · rw [if_pos hxo] at hxq
          exact hn.1 (hxq ▸ List.mem_map.2 ⟨q, hq, rfl⟩)
        · rw [if_neg hxo] at hxq
          exact hf q (List.mem_cons_of_mem _ hq) (hxq ▸ hx))
      (fun q hq q' hq' => hc q (List.mem_cons_of_mem _ hq) q' (List.mem_cons_of_mem _ hq'))
    have e3 : renumber ((o, n) :: ps) s =
        renumber ps (s.modifyComponents fun c => if c.reference = o then c.updateReference n else c) := by
      show renumber ps (s.modifyComponent o fun c => c.updateReference n) = _
      rw [e1]
    rw [e3]
    refine ⟨?_, h2.2⟩
    rw [h2.1, Renum.modify_modify]
    congr 1
    funext c
    by_cases hco : c.reference = o
    · have hl : ps.lookup n = none := Renum.lookup_none.2 fun hm => by
        obtain ⟨q, hq, hqn⟩ := List.mem_map.1 hm
        exact hc (o, n) (List.mem_cons_self ..) q (List.mem_cons_of_mem _ hq) hqn.symm
      have hr : (c.updateReference n).reference = n := rfl
      simp only [renumbered, hco, if_true, hr, hl, List.lookup_cons, beq_self_eq_true]
    · have hb : (c.reference == o) = false := by simpa using hco
      simp only [renumbered, hco, if_false, List.lookup_cons, hb]

/-- Any renaming that keeps references different is done in two rounds, by way of references that are not in use. -/
theorem C134_two_rounds (ps : List (Str × Str × Str)) (s : Schematic F) (hs : (refs s).Nodup)
    (ho : (ps.map fun p => p.1).Nodup) (ht : (ps.map fun p => p.2.1).Nodup) (hn : (ps.map fun p => p.2.2).Nodup)
    (hft : ∀ p ∈ ps, p.2.1 ∉ refs s ∧ (∀ q ∈ ps, p.2.1 ≠ q.1) ∧ ∀ q ∈ ps, p.2.1 ≠ q.2.2)
    (hfn : ∀ p ∈ ps, p.2.2 ∈ refs s → ∃ q ∈ ps, q.1 = p.2.2) :
    renumber (ps.map fun p => (p.2.1, p.2.2)) (renumber (ps.map fun p => (p.1, p.2.1)) s) =
      s.modifyComponents (renumbered (ps.map fun p => (p.1, p.2.2))) ∧
    (refs (s.modifyComponents (renumbered (ps.map fun p => (p.1, p.2.2))))).Nodup := by
  obtain ⟨h1, h2⟩ := C134_at_once (ps.map fun p => (p.1, p.2.1)) s hs (by rw [List.map_map]; exact ht)
    (fun p hp => by obtain ⟨x, hx, rfl⟩ := List.mem_map.1 hp; exact (hft x hx).1)
    (fun p hp q hq => by
      obtain ⟨x, hx, rfl⟩ := List.mem_map.1 hp
      obtain ⟨y, hy, rfl⟩ := List.mem_map.1 hq
      exact (hft x hx).2.1 y hy)
  rw [h1] at h2 ⊢
  have e2 := Renum.refs_modify s _ _ (Renum.renumbered_ref (ps.map fun p => (p.1, p.2.1)))
  obtain ⟨h3, h4⟩ := C134_at_once (ps.map fun p => (p.2.1, p.2.2)) _ h2 (by rw [List.map_map]; exact hn)
    (fun p hp hm => by
      obtain ⟨x, hx, rfl⟩ := List.mem_map.1 hp
      rw [e2] at hm
      obtain ⟨r, hr, hrx⟩ := List.mem_map.1 hm
      simp only [Renum.newRef] at hrx
      cases hl : (ps.map fun p => (p.1, p.2.1)).lookup r with
      | none =>
        rw [hl] at hrx
        have hrx : r = x.2.2 := hrx
        obtain ⟨q, hq, hq'⟩ := hfn x hx (hrx ▸ hr)
        refine Renum.lookup_none.1 hl ?_
        rw [List.map_map]
        exact List.mem_map.2 ⟨q, hq, hq'.trans hrx.symm⟩
      | some t =>
        rw [hl] at hrx
        have hrx : t = x.2.2 := hrx
        obtain ⟨y, hy, hy'⟩ := List.mem_map.1 (Renum.lookup_mem hl)
        cases hy'
        exact (hft y hy).2.2 x hx hrx)
    (fun p hp q hq => by
      obtain ⟨x, hx, rfl⟩ := List.mem_map.1 hp
      obtain ⟨y, hy, rfl⟩ := List.mem_map.1 hq
      exact fun e => (hft y hy).2.2 x hx e.symm)
  have key : (s.modifyComponents (renumbered (ps.map fun p => (p.1, p.2.1)))).modifyComponents
      (renumbered (ps.map fun p => (p.2.1, p.2.2))) = s.modifyComponents (renumbered (ps.map fun p => (p.1, p.2.2))) := by
    rw [Renum.modify_modify]
    refine Renum.modify_congr s _ _ fun c hcm => ?_
    have hcr : c.reference ∈ refs s := List.mem_map.2 ⟨c, hcm, rfl⟩
    by_cases hm : ∃ x ∈ ps, x.1 = c.reference
    · obtain ⟨x, hx, hxr⟩ := hm
      have l1 : (ps.map fun p => (p.1, p.2.1)).lookup c.reference = some x.2.1 :=
        Renum.lookup_of_mem (by rw [List.map_map]; exact ho) (List.mem_map.2 ⟨x, hx, by rw [hxr]⟩)
      have l2 : (ps.map fun p => (p.2.1, p.2.2)).lookup x.2.1 = some x.2.2 :=
        Renum.lookup_of_mem (by rw [List.map_map]; exact ht) (List.mem_map.2 ⟨x, hx, rfl⟩)
      have l3 : (ps.map fun p => (p.1, p.2.2)).lookup c.reference = some x.2.2 :=
        Renum.lookup_of_mem (by rw [List.map_map]; exact ho) (List.mem_map.2 ⟨x, hx, by rw [hxr]⟩)
      have hr : (c.updateReference x.2.1).reference = x.2.1 := rfl
      simp only [renumbered, l1, l3, hr, l2, Renum.update_update]
    · have no : ∀ g : Str × Str × Str → Str, (ps.map fun p => (p.1, g p)).lookup c.reference = none := fun g =>
        Renum.lookup_none.2 fun h => by
          rw [List.map_map] at h
          obtain ⟨x, hx, hxr⟩ := List.mem_map.1 h
          exact hm ⟨x, hx, hxr⟩
      have l2 : (ps.map fun p => (p.2.1, p.2.2)).lookup c.reference = none := Renum.lookup_none.2 fun h => by
        rw [List.map_map] at h
        obtain ⟨x, hx, hxr⟩ := List.mem_map.1 h
        exact (hft x hx).1 ((show x.2.1 = c.reference from hxr) ▸ hcr)
      simp only [renumbered, no fun p => p.2.1, no fun p => p.2.2, l2]
  rw [h3, key] at h4
  exact ⟨h3.trans key, h4⟩

/-! ### Cases -/

/-- A schematic with components with these references. -/
def Renum.sheet (rs : List Str) : Schematic Nm :=
  { (Schematic.dflt : Schematic Nm) with
    elements := rs.map fun r => .component { (Component.dflt : Component Nm) with reference := r } }

/-- One list cannot exchange two references: the second step takes the first back. -/
theorem C134_no_exchange : renumber [(str! "R1", str! "R2"), (str! "R2", str! "R1")] (Renum.sheet [str! "R1", str! "R2"]) =
    Renum.sheet [str! "R1", str! "R2"] := by decide +kernel

/-- Only one unit of a part with two is renamed. -/
theorem C134_units : refs (renumber [(str! "U1", str! "U7")] (Renum.sheet [str! "U1", str! "R1", str! "U1"])) =
    [str! "U7", str! "R1", str! "U1"] := by
  rw [C134_references]
  decide +kernel

/-- In two rounds they are exchanged. -/
example : refs (renumber [(str! "x", str! "R2"), (str! "y", str! "R1")]
    (renumber [(str! "R1", str! "x"), (str! "R2", str! "y")] (Renum.sheet [str! "R1", str! "R2"]))) =
    [str! "R2", str! "R1"] := by decide +kernel

example : let ps := [(str! "R1", str! "x", str! "R2"), (str! "R2", str! "y", str! "R1")]
    let s := Renum.sheet [str! "R1", str! "R2"]
    (refs s).Nodup ∧ (ps.map fun p => p.1).Nodup ∧ (ps.map fun p => p.2.1).Nodup ∧ (ps.map fun p => p.2.2).Nodup ∧
    (∀ p ∈ ps, p.2.1 ∉ refs s ∧ (∀ q ∈ ps, p.2.1 ≠ q.1) ∧ ∀ q ∈ ps, p.2.1 ≠ q.2.2) ∧
    ∀ p ∈ ps, p.2.2 ∈ refs s → ∃ q ∈ ps, q.1 = p.2.2 := by
  decide +kernel

end Verif
