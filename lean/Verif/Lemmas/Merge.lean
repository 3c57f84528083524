import Verif.Spec.Merge
import Verif.Spec.TreeGrammar
import Verif.Lemmas.Difference
/-!
# Lemmas about merging
-/

namespace Verif.Mrg
open Verif Spec

theorem flatMap {α β : Type} {b o t r : List α} (f : α → List β) (h : Merged b o t r) :
    Merged (b.flatMap f) (o.flatMap f) (t.flatMap f) (r.flatMap f) := by
  induction h with
  | nil => exact .nil
  | same u _ ih => simp only [List.flatMap_append]; exact .same _ ih
  | ours u v _ ih => simp only [List.flatMap_append]; exact .ours _ _ ih
  | theirs u v _ ih => simp only [List.flatMap_append]; exact .theirs _ _ ih

theorem map {α β : Type} {b o t r : List α} (f : α → β) (h : Merged b o t r) :
    Merged (b.map f) (o.map f) (t.map f) (r.map f) := by
  simpa [List.map_eq_flatMap] using flatMap (fun x => [f x]) h

theorem filterMap {α β : Type} {b o t r : List α} (f : α → Option β) (h : Merged b o t r) :
    Merged (b.filterMap f) (o.filterMap f) (t.filterMap f) (r.filterMap f) := by
  simpa [List.filterMap_eq_flatMap_toList] using flatMap (fun x => (f x).toList) h

theorem suffix {α : Type} {b o t r : List α} (c : List α) (h : Merged b o t r) :
    Merged (b ++ c) (o ++ c) (t ++ c) (r ++ c) := by
  induction h with
  | nil => simpa using Merged.same c .nil
  | same u _ ih => simp only [List.append_assoc]; exact .same _ ih
  | ours u v _ ih => simp only [List.append_assoc]; exact .ours _ _ ih
  | theirs u v _ ih => simp only [List.append_assoc]; exact .theirs _ _ ih

theorem perm_mem {α : Type} {b o t r : List α} (h : Merged b o t r) : ∀ x ∈ r, x ∈ o ∨ x ∈ t := by
  induction h with
  | nil => simp
  | same u _ ih =>
    intro x hx
    rcases List.mem_append.1 hx with hx | hx
    · exact .inl (by simp [hx])
    · rcases ih x hx with h | h <;> simp [h]
  | ours u v _ ih =>
    intro x hx
    rcases List.mem_append.1 hx with hx | hx
    · exact .inl (by simp [hx])
    · rcases ih x hx with h | h <;> simp [h]
  | theirs u v _ ih =>
    intro x hx
    rcases List.mem_append.1 hx with hx | hx
    · exact .inr (by simp [hx])
    · rcases ih x hx with h | h <;> simp [h]

theorem no_base {α : Type} {b o t r : List α} (h : Merged b o t r) (hb : b = []) :
    (t = [] → r = o) ∧ (o = [] → r = t) := by
  induction h with
  | nil => simp
  | same u _ ih =>
    obtain ⟨rfl, hb⟩ := List.append_eq_nil_iff.1 hb
    simpa using ih hb
  | ours u v _ ih =>
    obtain ⟨rfl, hb⟩ := List.append_eq_nil_iff.1 hb
    obtain ⟨h1, h2⟩ := ih hb
    refine ⟨fun h => by rw [h1 (by simpa using h)], fun h => ?_⟩
    obtain ⟨rfl, h⟩ := List.append_eq_nil_iff.1 h
    simpa using h2 h
  | theirs u v _ ih =>
    obtain ⟨rfl, hb⟩ := List.append_eq_nil_iff.1 hb
    obtain ⟨h1, h2⟩ := ih hb
    refine ⟨fun h => ?_, fun h => by rw [h2 (by simpa using h)]⟩
    obtain ⟨rfl, h⟩ := List.append_eq_nil_iff.1 h
    simpa using h1 h

/-- Of something that is there once, one of the two versions has the old value. -/
theorem single {α : Type} {b o t r : List α} (h : Merged b o t r) (hb : b.length = 1) (ho : o.length ≤ 1)
    (ht : t.length ≤ 1) : MergedValue b o t r := by
  induction h with
  | nil => simp at hb
  | @same u b o t r h ih =>
    simp only [List.length_append] at hb ho ht
    rcases Nat.eq_zero_or_pos u.length with h0 | h0
    · obtain rfl := List.length_eq_zero_iff.1 h0
      simpa using ih (by simpa using hb) (by omega) (by omega)
    · have hb0 : b = [] := List.length_eq_zero_iff.1 (by omega)
      have ho0 : o = [] := List.length_eq_zero_iff.1 (by omega)
      have ht0 : t = [] := List.length_eq_zero_iff.1 (by omega)
      have := (no_base h hb0).1 ht0
      subst hb0 ho0 ht0 this
      exact .inl ⟨rfl, rfl⟩
  | @ours u v b o t r h ih =>
    simp only [List.length_append] at hb ho ht
    rcases Nat.eq_zero_or_pos u.length with h0 | h0
    · obtain rfl := List.length_eq_zero_iff.1 h0
      simp only [List.length_nil, Nat.zero_add] at hb ht
      rcases Nat.eq_zero_or_pos v.length with h1 | h1
      · obtain rfl := List.length_eq_zero_iff.1 h1
        simpa using ih hb (by simpa using ho) ht
      · -- ours has nothing left: theirs kept the base
        have ho0 : o = [] := List.length_eq_zero_iff.1 (by omega)
        rcases ih hb (by omega) ht with ⟨h2, -⟩ | ⟨h2, h3⟩
        · rw [ho0] at h2; subst h2; simp at hb
        · exact .inr ⟨by simpa using h2, by rw [h3]⟩
    · have hb0 : b = [] := List.length_eq_zero_iff.1 (by omega)
      have ht0 : t = [] := List.length_eq_zero_iff.1 (by omega)
      have := (no_base h hb0).1 ht0
      subst hb0 ht0 this
      exact .inr ⟨rfl, rfl⟩
  | @theirs u v b o t r h ih =>
    simp only [List.length_append] at hb ho ht
    rcases Nat.eq_zero_or_pos u.length with h0 | h0
    · obtain rfl := List.length_eq_zero_iff.1 h0
      simp only [List.length_nil, Nat.zero_add] at hb ho
      rcases Nat.eq_zero_or_pos v.length with h1 | h1
      · obtain rfl := List.length_eq_zero_iff.1 h1
        simpa using ih hb ho (by simpa using ht)
      · have ht0 : t = [] := List.length_eq_zero_iff.1 (by omega)
        rcases ih hb ho (by omega) with ⟨h2, h3⟩ | ⟨h2, -⟩
        · exact .inl ⟨by simpa using h2, by rw [h3]⟩
        · rw [ht0] at h2; subst h2; simp at hb
    · have hb0 : b = [] := List.length_eq_zero_iff.1 (by omega)
      have ho0 : o = [] := List.length_eq_zero_iff.1 (by omega)
      have := (no_base h hb0).2 ho0
      subst hb0 ho0 this
      exact .inl ⟨rfl, rfl⟩

theorem value {α β : Type} {b o t r : α} (f : α → β) (h : MergedValue b o t r) : MergedValue (f b) (f o) (f t) (f r) := by
  rcases h with ⟨rfl, rfl⟩ | ⟨rfl, rfl⟩
  · exact .inl ⟨rfl, rfl⟩
  · exact .inr ⟨rfl, rfl⟩

/-! ## Readings of merged parts -/

theorem many_append {α : Type} {P : Sexp → α → Prop} {l m : List Sexp} {as bs : List α} (h : Many P l as) (h' : Many P m bs) :
    Many P (l ++ m) (as ++ bs) := by
  induction h with
  | nil => exact h'
  | cons hx _ ih => exact .cons hx ih

theorem many_split {α : Type} {P : Sexp → α → Prop} {l m : List Sexp} {as : List α} (h : Many P (l ++ m) as) :
    ∃ bs cs, as = bs ++ cs ∧ Many P l bs ∧ Many P m cs := by
  induction l generalizing as with
  | nil => exact ⟨[], as, rfl, .nil, h⟩
  | cons x l ih =>
    cases h with
    | cons hx h =>
      obtain ⟨bs, cs, rfl, h1, h2⟩ := ih h
      exact ⟨_ :: bs, cs, rfl, .cons hx h1, h2⟩

theorem many_unique {α : Type} {P : Sexp → α → Prop} (hP : ∀ x a b, P x a → P x b → a = b) {l : List Sexp} {as bs : List α}
    (h : Many P l as) (h' : Many P l bs) : as = bs := by
  induction h generalizing bs with
  | nil => cases h'; rfl
  | cons hx _ ih =>
    cases h' with
    | cons hy h' => rw [hP _ _ _ hx hy, ih h']

theorem many {α : Type} {P : Sexp → α → Prop} (hP : ∀ x a b, P x a → P x b → a = b) {b o t r : List Sexp}
    (h : Merged b o t r) : ∀ {bs os ts : List α}, Many P b bs → Many P o os → Many P t ts →
      ∃ rs, Many P r rs ∧ Merged bs os ts rs := by
  induction h with
  | nil => intro _ _ _ h1 h2 h3; cases h1; cases h2; cases h3; exact ⟨[], .nil, .nil⟩
  | same u _ ih =>
    intro _ _ _ h1 h2 h3
    obtain ⟨b1, b2, rfl, g1, g2⟩ := many_split h1
    obtain ⟨o1, o2, rfl, g3, g4⟩ := many_split h2
    obtain ⟨t1, t2, rfl, g5, g6⟩ := many_split h3
    obtain rfl := many_unique hP g1 g3
    obtain rfl := many_unique hP g1 g5
    obtain ⟨rs, k1, k2⟩ := ih g2 g4 g6
    exact ⟨b1 ++ rs, many_append g1 k1, .same _ k2⟩
  | ours u v _ ih =>
    intro _ _ _ h1 h2 h3
    obtain ⟨b1, b2, rfl, g1, g2⟩ := many_split h1
    obtain ⟨o1, o2, rfl, g3, g4⟩ := many_split h2
    obtain ⟨t1, t2, rfl, g5, g6⟩ := many_split h3
    obtain rfl := many_unique hP g1 g5
    obtain ⟨rs, k1, k2⟩ := ih g2 g4 g6
    exact ⟨o1 ++ rs, many_append g3 k1, .ours _ _ k2⟩
  | theirs u v _ ih =>
    intro _ _ _ h1 h2 h3
    obtain ⟨b1, b2, rfl, g1, g2⟩ := many_split h1
    obtain ⟨o1, o2, rfl, g3, g4⟩ := many_split h2
    obtain ⟨t1, t2, rfl, g5, g6⟩ := many_split h3
    obtain rfl := many_unique hP g1 g3
    obtain ⟨rs, k1, k2⟩ := ih g2 g4 g6
    exact ⟨t1 ++ rs, many_append g5 k1, .theirs _ _ k2⟩

/-! ## Lines of merged texts -/

/-- Texts made of blocks that end with a line break. -/
theorem lines_before {α : Type} (f : α → Str) (l : List α) (rest : Str) :
    fileLines (l.flatMap (fun x => f x ++ str! "\n") ++ rest) = l.flatMap (fun x => fileLines (f x)) ++ fileLines rest := by
  induction l with
  | nil => rfl
  | cons x l ih =>
    simp only [List.flatMap_cons, List.append_assoc, List.cons_append, List.nil_append]
    rw [Diff.lines_break]
    exact congrArg _ ih

/-- Texts made of blocks that begin with a line break. -/
theorem lines_after {α : Type} (f : α → Str) (l : List α) (first rest : Str) :
    fileLines (first ++ l.flatMap (fun x => '\n' :: f x) ++ '\n' :: rest) =
      fileLines first ++ l.flatMap (fun x => fileLines (f x)) ++ fileLines rest := by
  induction l generalizing first with
  | nil => simp [Diff.lines_break]
  | cons x l ih =>
    have := ih (f x)
    simp only [List.flatMap_cons, List.append_assoc, List.cons_append] at this ⊢
    rw [Diff.lines_break, this]

end Verif.Mrg
