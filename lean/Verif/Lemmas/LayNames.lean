import Verif.Spec.Layout
/-!
# Helper lemmas: updating the net names of a layout
-/

set_option linter.unusedSectionVars false

namespace Verif
open Flt Spec Lay

variable {F : Type} [Flt F]

theorem Lay.updateNames_append (u : Update) (a b : List Str) :
    updateNames u (a ++ b) =
      match updateNames u a with
      | (a', some e) => (a' ++ b, some e)
      | (a', none) => (a' ++ (updateNames u b).1, (updateNames u b).2) := by
  induction a with
  | nil => simp [updateNames]
  | cons n a ih =>
    simp only [List.cons_append, updateNames]
    rcases hn : u n with ⟨n', _ | e⟩
    · simp only [ih]
      rcases updateNames u a with ⟨a', _ | e⟩ <;> simp
    · simp

theorem Lay.updateNames_ok (u : Update) (a : List Str) (h : ∀ n ∈ a, (u n).2 = none) :
    updateNames u a = (a.map fun n => (u n).1, none) := by
  induction a with
  | nil => rfl
  | cons n a ih =>
    rw [List.forall_mem_cons] at h
    rcases hn : u n with ⟨n', e⟩
    have h1 := h.1
    rw [hn] at h1
    subst h1
    simp [updateNames, hn, ih h.2]

theorem Lay.updateNames_fail (u : Update) (a b : List Str) (x : Str) (e : Err)
    (h : ∀ n ∈ a, (u n).2 = none) (hx : (u x).2 = some e) :
    updateNames u (a ++ x :: b) = ((a.map fun n => (u n).1) ++ (u x).1 :: b, some e) := by
  rw [Lay.updateNames_append, Lay.updateNames_ok u a h]
  rcases hn : u x with ⟨n', e'⟩
  rw [hn] at hx
  subst hx
  simp [updateNames, hn]

theorem Lay.updatePads_spec (u : Update) (es : List (Fp.Elem F)) :
    (updatePads u es).1.flatMap netNames = (updateNames u (es.flatMap netNames)).1 ∧
    (updatePads u es).2 = (updateNames u (es.flatMap netNames)).2 ∧
    (updatePads u es).1.map eraseNetName = es.map eraseNetName := by
  induction es with
  | nil => simp [updatePads, updateNames]
  | cons e es ih =>
    obtain ⟨h1, h2, h3⟩ := ih
    cases e with
    | pad p =>
      obtain ⟨_, _, _, _, _, _, _, net⟩ := p
      cases net with
      | none => simp [updatePads, netNames, eraseNetName, h1, h2, h3]
      | some net =>
        rcases hn : u net.name with ⟨n', _ | e⟩ <;>
          simp [updatePads, updateNames, hn, netNames, eraseNetName, h1, h2, h3]
    | _ => simp [updatePads, netNames, eraseNetName, h1, h2, h3]

theorem Lay.elem_updateNames_spec (u : Update) (e : Elem F) :
    boardNames (e.updateNames u).1 = (updateNames u (boardNames e)).1 ∧
    (e.updateNames u).2 = (updateNames u (boardNames e)).2 ∧
    eraseBoardNames (e.updateNames u).1 = eraseBoardNames e := by
  cases e with
  | net n =>
    rcases hn : u n.name with ⟨n', _ | e⟩ <;>
      simp [Elem.updateNames, boardNames, eraseBoardNames, updateNames, hn]
  | zone z =>
    rcases hn : u z.netName with ⟨n', _ | e⟩ <;>
      simp [Elem.updateNames, boardNames, eraseBoardNames, updateNames, hn]
  | module_ m =>
    obtain ⟨h1, h2, h3⟩ := Lay.updatePads_spec u m.elements
    simp [Elem.updateNames, boardNames, eraseBoardNames, h1, h2, h3]
  | netClass nc =>
    have : ∀ l : List Str, ((updateNames u l).1.map fun _ => ([] : Str)) = l.map fun _ => [] := by
      intro l
      induction l with
      | nil => rfl
      | cons n l ih =>
        simp only [updateNames]
        rcases hn : u n with ⟨n', _ | e⟩ <;> simp_all
    simp [Elem.updateNames, boardNames, eraseBoardNames, this]
  | _ => simp [Elem.updateNames, boardNames, updateNames]

theorem Lay.updateElems_spec (u : Update) (es : List (Elem F)) :
    (updateElems u es).1.flatMap boardNames = (updateNames u (es.flatMap boardNames)).1 ∧
    (updateElems u es).2 = (updateNames u (es.flatMap boardNames)).2 ∧
    (updateElems u es).1.map eraseBoardNames = es.map eraseBoardNames := by
  induction es with
  | nil => simp [updateElems, updateNames]
  | cons x es ih =>
    obtain ⟨h1, h2, h3⟩ := ih
    obtain ⟨g1, g2, g3⟩ := Lay.elem_updateNames_spec u x
    simp only [updateElems, List.flatMap_cons, Lay.updateNames_append]
    rcases hx : x.updateNames u with ⟨x', _ | e⟩ <;>
      rcases hy : updateNames u (boardNames x) with ⟨y', _ | e'⟩ <;> rw [hx, hy] at g1 g2 <;>
      rw [hx] at g3 <;> simp_all

theorem Lay.updateNetNames_spec (u : Update) (l : Layout F) :
    layoutNames (l.updateNetNames u).1 = (updateNames u (layoutNames l)).1 ∧
    (l.updateNetNames u).2 = (updateNames u (layoutNames l)).2 ∧
    eraseLayoutNames (l.updateNetNames u).1 = eraseLayoutNames l := by
  obtain ⟨h1, h2, h3⟩ := Lay.updateElems_spec u l.elements
  exact ⟨h1, h2, by simp [eraseLayoutNames, Layout.updateNetNames, h3]⟩

/-! ### The names and the rest determine the layout -/

theorem Lay.append_inj_of_length {α : Type} {a b c d : List α} (h : a ++ b = c ++ d)
    (hl : a.length = c.length) : a = c ∧ b = d := List.append_inj h hl

theorem Lay.fp_names_length (a b : Fp.Elem F) (h : eraseNetName a = eraseNetName b) :
    (netNames a).length = (netNames b).length ∧ (netNames a = netNames b → a = b) := by
  cases a <;> cases b <;> simp [eraseNetName, netNames] at h ⊢
  case pad.pad p q =>
    obtain ⟨_, _, _, _, _, _, _, net⟩ := p
    obtain ⟨_, _, _, _, _, _, _, net2⟩ := q
    cases net <;> cases net2 <;> simp_all
    case some.some n m =>
      intro h1; obtain ⟨_, _⟩ := n; obtain ⟨_, _⟩ := m; simp_all
  all_goals exact h

theorem Lay.fps_names_length (a b : List (Fp.Elem F)) (h : a.map eraseNetName = b.map eraseNetName) :
    (a.flatMap netNames).length = (b.flatMap netNames).length ∧
    (a.flatMap netNames = b.flatMap netNames → a = b) := by
  induction a generalizing b with
  | nil => cases b <;> simp_all
  | cons x a ih =>
    cases b with
    | nil => simp at h
    | cons y b =>
      simp only [List.map_cons, List.cons.injEq] at h
      obtain ⟨i1, i2⟩ := ih b h.2
      obtain ⟨j1, j2⟩ := Lay.fp_names_length x y h.1
      simp only [List.flatMap_cons, List.length_append]
      refine ⟨by omega, fun e => ?_⟩
      obtain ⟨e1, e2⟩ := Lay.append_inj_of_length e j1
      rw [j2 e1, i2 e2]

theorem Lay.names_length (a b : Elem F) (h : eraseBoardNames a = eraseBoardNames b) :
    (boardNames a).length = (boardNames b).length ∧ (boardNames a = boardNames b → a = b) := by
  cases a <;> cases b <;> simp only [eraseBoardNames, reduceCtorEq, Elem.net.injEq,
    Elem.netClass.injEq, Elem.zone.injEq, Elem.module_.injEq] at h
  case net.net n m =>
    obtain ⟨_, _⟩ := n; obtain ⟨_, _⟩ := m; simp_all [boardNames]
  case netClass.netClass n m =>
    obtain ⟨⟩ := n; obtain ⟨⟩ := m
    simp_all only [boardNames, NetClass.mk.injEq, Elem.netClass.injEq]
    have := congrArg List.length h.2.2.2.2.2.2.2.2.2.2
    simp only [List.length_map] at this
    simp [this]
  case zone.zone n m =>
    obtain ⟨⟩ := n; obtain ⟨⟩ := m; simp_all [boardNames]
  case module_.module_ n m =>
    obtain ⟨_, es⟩ := n; obtain ⟨_, es'⟩ := m
    simp only [Fp.Module.mk.injEq] at h
    obtain ⟨h1, h2⟩ := Lay.fps_names_length es es' h.2
    exact ⟨h1, fun e => by rw [h.1, h2 e]⟩
  all_goals exact ⟨by simp [boardNames], fun _ => h⟩

theorem Lay.elems_names_length (a b : List (Elem F))
    (h : a.map eraseBoardNames = b.map eraseBoardNames) :
    a.flatMap boardNames = b.flatMap boardNames → a = b := by
  induction a generalizing b with
  | nil => cases b <;> simp_all
  | cons x a ih =>
    cases b with
    | nil => simp at h
    | cons y b =>
      simp only [List.map_cons, List.cons.injEq] at h
      obtain ⟨j1, j2⟩ := Lay.names_length x y h.1
      simp only [List.flatMap_cons]
      intro e
      obtain ⟨e1, e2⟩ := Lay.append_inj_of_length e j1
      rw [j2 e1, ih b h.2 e2]

end Verif
