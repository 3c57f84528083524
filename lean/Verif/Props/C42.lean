import Verif.Spec.Layout
import Verif.Basic.Nm
/-!
# C42: looking up and modifying a board module by reference
-/

set_option linter.unusedSectionVars false

namespace Verif
open Flt Spec Lay

variable {F : Type} [Flt F]

/-- The module carries the reference: one of its texts is named `reference` and
has that value. -/
def Spec.HasReference (r : Str) (m : Fp.Module F) : Prop :=
  ∃ t, Fp.Elem.text t ∈ m.elements ∧ t.name = str! "reference" ∧ t.value = r

/-- The element is a module with the reference. -/
def Spec.IsModule (r : Str) (e : Elem F) : Prop := ∃ m, e = .module_ m ∧ HasReference r m

theorem Lay.isReference_iff (r : Str) (m : Fp.Module F) :
    m.isReferenceWithName r = true ↔ HasReference r m := by
  simp only [Fp.Module.isReferenceWithName, List.any_eq_true, HasReference]
  constructor
  · rintro ⟨e, he, h⟩
    cases e <;> simp_all
    rename_i t
    exact ⟨t, he, h.1, h.2⟩
  · rintro ⟨t, ht, h1, h2⟩
    exact ⟨.text t, ht, by simp [h1, h2]⟩

/-- `get_module` returns the first module with the reference. -/
theorem C42_get_first (l : Layout F) (r : Str) (m : Fp.Module F) :
    l.getModule r = some m ↔ HasReference r m ∧
      ∃ a b, l.elements = a ++ .module_ m :: b ∧ ∀ e ∈ a, ¬ IsModule r e := by
  simp only [Layout.getModule]
  generalize l.elements = es
  induction es with
  | nil => simp [getModuleIn]
  | cons e es ih =>
    have skip : ¬ IsModule r e → getModuleIn r (e :: es) = getModuleIn r es := by
      intro hn
      cases e with
      | module_ m' =>
        have : ¬ m'.isReferenceWithName r = true := fun h =>
          hn ⟨m', rfl, (Lay.isReference_iff r m').1 h⟩
        simp [getModuleIn, this]
      | _ => rfl
    by_cases he : IsModule r e
    · obtain ⟨m', rfl, hm'⟩ := he
      have h1 := (Lay.isReference_iff r m').2 hm'
      simp only [getModuleIn, h1, if_true, Option.some.injEq]
      constructor
      · rintro rfl
        exact ⟨hm', [], es, rfl, by simp⟩
      · rintro ⟨hm, a, b, h2, h3⟩
        cases a with
        | nil => simp only [List.nil_append, List.cons.injEq, Elem.module_.injEq] at h2; exact h2.1
        | cons x a =>
          simp only [List.cons_append, List.cons.injEq] at h2
          exact absurd ⟨m', h2.1.symm, hm'⟩ (h3 x (by simp))
    · rw [skip he, ih]
      constructor
      · rintro ⟨hm, a, b, rfl, h3⟩
        exact ⟨hm, e :: a, b, rfl, by simpa [he] using h3⟩
      · rintro ⟨hm, a, b, h2, h3⟩
        cases a with
        | nil =>
          simp only [List.nil_append, List.cons.injEq] at h2
          exact absurd ⟨m, h2.1, hm⟩ he
        | cons x a =>
          simp only [List.cons_append, List.cons.injEq] at h2
          exact ⟨hm, a, b, h2.2, fun y hy => h3 y (by simp [hy])⟩

example : ((sampleBoard : Layout Nm).getModule (str! "R1")).isSome = true := by decide +kernel

/-- `get_module` fails exactly if no module has the reference. -/
theorem C42_get_none (l : Layout F) (r : Str) :
    l.getModule r = none ↔ ∀ e ∈ l.elements, ¬ IsModule r e := by
  simp only [Layout.getModule]
  generalize l.elements = es
  induction es with
  | nil => simp [getModuleIn]
  | cons e es ih =>
    rw [List.forall_mem_cons]
    cases e with
    | module_ m =>
      by_cases h : m.isReferenceWithName r = true
      · simp only [getModuleIn, h, if_true, reduceCtorEq, false_iff, not_and]
        exact fun hn => absurd ⟨m, rfl, (Lay.isReference_iff r m).1 h⟩ hn
      · have : ¬ IsModule r (.module_ m) := by
          rintro ⟨m', h1, h2⟩
          cases h1
          exact h ((Lay.isReference_iff r m).2 h2)
        simp [getModuleIn, h, ih, this]
    | _ =>
      have : ∀ e : Elem F, (∀ m, e ≠ .module_ m) → ¬ IsModule r e := fun e h ⟨m, h1, _⟩ => h m h1
      simp [getModuleIn, ih, this]

/-- `modify_module` replaces the module found by `get_module`, at its place, and
leaves everything else as it is; it fails exactly if there is none. -/
theorem C42_modify (l : Layout F) (r : Str) (f : Fp.Module F → Fp.Module F) :
    (∀ m, l.getModule r = some m → ∃ a b, l.elements = a ++ .module_ m :: b ∧
      (∀ e ∈ a, ¬ IsModule r e) ∧
      l.modifyModule r f = .ok { l with elements := a ++ .module_ (f m) :: b }) ∧
    (l.getModule r = none → l.modifyModule r f = .err .other) := by
  have hit : ∀ (a b : List (Elem F)) (m : Fp.Module F), (∀ e ∈ a, ¬ IsModule r e) →
      HasReference r m →
      modifyModuleIn r f (a ++ .module_ m :: b) = some (a ++ .module_ (f m) :: b) := by
    intro a b m ha hm
    induction a with
    | nil => simp [modifyModuleIn, (Lay.isReference_iff r m).2 hm]
    | cons x a ih =>
      rw [List.forall_mem_cons] at ha
      cases x with
      | module_ m' =>
        have : ¬ m'.isReferenceWithName r = true := fun h =>
          ha.1 ⟨m', rfl, (Lay.isReference_iff r m').1 h⟩
        simp [modifyModuleIn, this, ih ha.2]
      | _ => simp [modifyModuleIn, ih ha.2]
  constructor
  · intro m hm
    obtain ⟨h1, a, b, h2, h3⟩ := (C42_get_first l r m).1 hm
    exact ⟨a, b, h2, h3, by simp [Layout.modifyModule, h2, hit a b m h3 h1]⟩
  · intro h
    have h := (C42_get_none l r).1 h
    have : modifyModuleIn r f l.elements = none := by
      generalize l.elements = es at h
      induction es with
      | nil => rfl
      | cons x a ih =>
        rw [List.forall_mem_cons] at h
        cases x with
        | module_ m' =>
          have : ¬ m'.isReferenceWithName r = true := fun h' =>
            h.1 ⟨m', rfl, (Lay.isReference_iff r m').1 h'⟩
          simp [modifyModuleIn, this, ih h.2]
        | _ => simp [modifyModuleIn, ih h.2]
    simp [Layout.modifyModule, this]

end Verif
