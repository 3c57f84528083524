import Verif.Props.C99
import Verif.Props.C35
import Verif.Props.C42
/-!
# C132: carrying values over to a board

A program goes through a list of references and values, as collected from a schematic, and sets the
value text of each module that it finds with `modify_module`.  It fails exactly if a reference is not
on the board.  Afterwards every reference on the list shows its last value, everything else is as it
was, the order of the list does not matter and doing it again changes nothing.
-/

namespace Verif
open Flt Spec Lay

set_option linter.unusedSectionVars false

variable {F : Type} [Flt F]

/-- `if let Some(t) = m.get_value_text_mut() { t.value = v }` (src/footprint/data.rs 112-114). -/
def Spec.setValue (v : Str) (m : Fp.Module F) : Fp.Module F :=
  { m with elements := Fp.Module.modText (str! "value") (fun t => { t with value := v }) m.elements }

/-- `for (r, v) in list { layout.modify_module(r, |m| ..)? }` (src/layout/data.rs 731-754). -/
def Spec.carry : List (Str × Str) → Layout F → Res (Layout F)
  | [], l => .ok l
  | (r, v) :: ps, l => do
    let l ← l.modifyModule r (setValue v)
    carry ps l

/-- The last value on the list for a reference. -/
def Spec.lastValue (r : Str) (ps : List (Str × Str)) : Option Str :=
  ((ps.filter fun p => decide (p.1 = r)).getLast?).map (·.2)

namespace Carry

/-- Setting the value text, on the elements. -/
abbrev setIn (v : Str) (es : List (Fp.Elem F)) : List (Fp.Elem F) :=
  Fp.Module.modText (str! "value") (fun t => { t with value := v }) es

theorem setIn_keeps (v s : Str) (m : Fp.Module F) :
    (setValue v m).isReferenceWithName s = m.isReferenceWithName s := by
  obtain ⟨n, es⟩ := m
  simp only [setValue, Fp.Module.isReferenceWithName]
  induction es with
  | nil => rfl
  | cons e es ih =>
    cases e with
    | text t =>
      simp only [Fp.Module.modText]
      split
      · rename_i h
        simp only [List.any_cons, h]
        rfl
      · simp only [List.any_cons, ih]
    | _ => simp only [Fp.Module.modText, List.any_cons, ih]

theorem setIn_setIn (v w : Str) (m : Fp.Module F) : setValue v (setValue w m) = setValue v m := by
  obtain ⟨n, es⟩ := m
  simp only [setValue, Fp.Module.mk.injEq, true_and]
  induction es with
  | nil => rfl
  | cons e es ih =>
    cases e with
    | text t =>
      by_cases h : t.name = str! "value"
      · simp only [Fp.Module.modText, h, if_true]
      · simp only [Fp.Module.modText, h, if_false, ih]
    | _ => simp only [Fp.Module.modText, ih]

theorem getText (v which : Str) (m : Fp.Module F) : (setValue v m).getText which =
    if which = str! "value" then (m.getText which).map fun t => { t with value := v } else m.getText which := by
  obtain ⟨n, es⟩ := m
  simp only [setValue, Fp.Module.getText]
  induction es with
  | nil => simp [Fp.Module.modText]
  | cons e es ih =>
    cases e with
    | text t =>
      by_cases h : t.name = str! "value"
      · by_cases h' : which = str! "value"
        · simp only [Fp.Module.modText, h, h', if_true, List.findSome?_cons, Option.map_some]
        · have h2 : ¬ str! "value" = which := fun e => h' e.symm
          simp only [Fp.Module.modText, h, h', h2, if_true, if_false, List.findSome?_cons]
      · by_cases h' : t.name = which
        · have h2 : ¬ which = str! "value" := fun e => h (h'.trans e)
          simp only [Fp.Module.modText, h', h2, if_true, if_false, List.findSome?_cons]
        · simp only [Fp.Module.modText, h, h', if_false, List.findSome?_cons, ih]
    | _ => simp only [Fp.Module.modText, List.findSome?_cons, ih]

/-- The list of elements after going through the list of values. -/
def run (ps : List (Str × Str)) (es : List (Elem F)) : List (Elem F) :=
  ps.foldl (fun es p => Order.modify p.1 (setValue p.2) es) es

/-- The module after the values that hit it. -/
def sets (ps : List (Str × Str)) (m : Fp.Module F) : Fp.Module F := ps.foldl (fun m p => setValue p.2 m) m

theorem sets_keeps (ps : List (Str × Str)) (s : Str) : ∀ m : Fp.Module F,
    (sets ps m).isReferenceWithName s = m.isReferenceWithName s := by
  induction ps with
  | nil => exact fun _ => rfl
  | cons p ps ih => exact fun m => (ih _).trans (setIn_keeps p.2 s m)

theorem sets_last (ps : List (Str × Str)) : ∀ m : Fp.Module F,
    sets ps m = match ps.getLast? with | none => m | some p => setValue p.2 m := by
  induction ps with
  | nil => exact fun _ => rfl
  | cons p ps ih =>
    intro m
    show sets ps (setValue p.2 m) = _
    rw [ih]
    cases ps with
    | nil => rfl
    | cons q ps =>
      rw [List.getLast?_cons_cons]
      cases h : (q :: ps).getLast? with
      | none => simp at h
      | some x => exact setIn_setIn _ _ _

theorem sets_sets (ps : List (Str × Str)) (m : Fp.Module F) : sets ps (sets ps m) = sets ps m := by
  rw [sets_last ps m, sets_last ps]
  cases ps.getLast? with
  | none => rfl
  | some x => exact setIn_setIn _ _ _

theorem run_nil (ps : List (Str × Str)) : run ps ([] : List (Elem F)) = [] := by
  induction ps with
  | nil => rfl
  | cons p ps ih => exact ih

theorem run_plain (ps : List (Str × Str)) (e : Elem F) (he : Order.Plain e) : ∀ es : List (Elem F),
    run ps (e :: es) = e :: run ps es := by
  induction ps with
  | nil => exact fun _ => rfl
  | cons p ps ih =>
    intro es
    show run ps (Order.modify p.1 (setValue p.2) (e :: es)) = _
    rw [Order.modify_plain _ _ e he, ih]
    rfl

/-- The values for the first module hit it, the others pass it by. -/
theorem run_module (ps : List (Str × Str)) : ∀ (m : Fp.Module F) (es : List (Elem F)),
    run ps (.module_ m :: es) = .module_ (sets (ps.filter fun p => m.isReferenceWithName p.1) m) ::
      run (ps.filter fun p => !m.isReferenceWithName p.1) es := by
  induction ps with
  | nil => exact fun _ _ => rfl
  | cons p ps ih =>
    intro m es
    show run ps (Order.modify p.1 (setValue p.2) (.module_ m :: es)) = _
    rw [Order.modify_module]
    by_cases h : m.isReferenceWithName p.1 = true
    · rw [if_pos h, ih]
      simp only [setIn_keeps, List.filter_cons, h, Bool.not_true, if_true, Bool.false_eq_true, if_false]
      rfl
    · rw [if_neg h, ih]
      have h : m.isReferenceWithName p.1 = false := by simpa using h
      simp only [List.filter_cons, h, Bool.not_false, if_true, Bool.false_eq_true, if_false]
      rfl

theorem run_run (es : List (Elem F)) : ∀ ps : List (Str × Str), run ps (run ps es) = run ps es := by
  induction es with
  | nil => exact fun ps => by rw [run_nil, run_nil]
  | cons e es ih =>
    intro ps
    rcases Order.elem_cases e with ⟨m, rfl⟩ | he
    · rw [run_module, run_module]
      simp only [sets_keeps, sets_sets, ih]
    · rw [run_plain ps e he, run_plain ps e he, ih]

theorem run_get (r : Str) (es : List (Elem F))
    (h1 : ∀ m, Elem.module_ m ∈ es → ∀ a b : Str, m.isReferenceWithName a = true → m.isReferenceWithName b = true → a = b) :
    ∀ ps : List (Str × Str), getModuleIn r (run ps es) = (getModuleIn r es).map fun m =>
      match lastValue r ps with | some v => setValue v m | none => m := by
  induction es with
  | nil => intro ps; rw [run_nil]; rfl
  | cons e es ih =>
    intro ps
    have ih := ih fun m hm => h1 m (List.mem_cons_of_mem _ hm)
    rcases Order.elem_cases e with ⟨m, rfl⟩ | he
    · rw [run_module]
      have hm := h1 m (List.mem_cons_self ..)
      by_cases h : m.isReferenceWithName r = true
      · have e1 : (ps.filter fun p => m.isReferenceWithName p.1) = ps.filter fun p => decide (p.1 = r) := by
          refine List.filter_congr fun p _ => ?_
          by_cases hp : p.1 = r
          · simp [hp, h]
          · have : m.isReferenceWithName p.1 = false := by
              by_contra hc
              exact hp (hm _ _ (by simpa using hc) h)
            simp [hp, this]
        simp only [getModuleIn, sets_keeps, h, if_true, Option.map_some, e1, lastValue]
        rw [sets_last]
        cases (ps.filter fun p => decide (p.1 = r)).getLast? <;> rfl
      · have e1 : lastValue r (ps.filter fun p => !m.isReferenceWithName p.1) = lastValue r ps := by
          simp only [lastValue, List.filter_filter]
          congr 2
          refine List.filter_congr fun p _ => ?_
          by_cases hp : p.1 = r
          · have h : m.isReferenceWithName r = false := by simpa using h
            simp [hp, h]
          · simp [hp]
        simp only [getModuleIn, sets_keeps, h, if_false, ih, e1, Bool.false_eq_true]
    · have e1 : ∀ l : List (Elem F), getModuleIn r (e :: l) = getModuleIn r l := by
        intro l
        cases e with
        | module_ m => exact absurd rfl (he m)
        | _ => rfl
      rw [run_plain ps e he, e1, e1, ih]

theorem modify_none (r r' v : Str) (es : List (Elem F)) :
    getModuleIn r (Order.modify r' (setValue v) es) = none ↔ getModuleIn r es = none := by
  induction es with
  | nil => rfl
  | cons e es ih =>
    rcases Order.elem_cases e with ⟨m, rfl⟩ | he
    · rw [Order.modify_module]
      by_cases h : m.isReferenceWithName r = true
      · split <;> simp [getModuleIn, setIn_keeps, h]
      · split <;> simp [getModuleIn, setIn_keeps, h, ih]
    · rw [Order.modify_plain _ _ e he]
      cases e with
      | module_ m => exact absurd rfl (he m)
      | _ => exact ih

theorem step (r v : Str) (l : Layout F) :
    (l.getModule r ≠ none → l.modifyModule r (setValue v) = .ok { l with elements := Order.modify r (setValue v) l.elements }) ∧
    (l.getModule r = none → l.modifyModule r (setValue v) = .err .other) := by
  refine ⟨fun h => ?_, (C42_modify l r (setValue v)).2⟩
  obtain ⟨m, hm⟩ := Option.ne_none_iff_exists'.1 h
  obtain ⟨a, b, _, _, h3⟩ := (C42_modify l r (setValue v)).1 m hm
  rw [h3]
  simp only [Layout.modifyModule] at h3
  simp only [Order.modify]
  cases hc : modifyModuleIn r (setValue v) l.elements with
  | none => rw [hc] at h3; cases h3
  | some es => rw [hc] at h3; cases h3; rfl

theorem carry_ok (ps : List (Str × Str)) : ∀ l : Layout F, (∀ p ∈ ps, l.getModule p.1 ≠ none) →
    carry ps l = .ok { l with elements := run ps l.elements } := by
  induction ps with
  | nil => exact fun _ _ => rfl
  | cons p ps ih =>
    intro l h
    rw [List.forall_mem_cons] at h
    simp only [carry, (step p.1 p.2 l).1 h.1, Res.bind_ok]
    exact ih { l with elements := Order.modify p.1 (setValue p.2) l.elements }
      fun q hq hn => h.2 q hq ((modify_none q.1 p.1 p.2 l.elements).1 hn)

theorem carry_err (ps : List (Str × Str)) : ∀ l : Layout F, (∃ p ∈ ps, l.getModule p.1 = none) →
    carry ps l = .err .other := by
  induction ps with
  | nil => rintro l ⟨p, hp, _⟩; cases hp
  | cons p ps ih =>
    intro l h
    by_cases hp : l.getModule p.1 = none
    · simp only [carry, (step p.1 p.2 l).2 hp]; rfl
    · simp only [carry, (step p.1 p.2 l).1 hp, Res.bind_ok]
      obtain ⟨q, hq, hn⟩ := h
      rcases List.mem_cons.1 hq with rfl | hq
      · exact absurd hn hp
      · exact ih _ ⟨q, hq, (modify_none q.1 p.1 p.2 l.elements).2 hn⟩

theorem found_of_ok (ps : List (Str × Str)) (l l' : Layout F) (h : carry ps l = .ok l') :
    (∀ p ∈ ps, l.getModule p.1 ≠ none) ∧ l' = { l with elements := run ps l.elements } := by
  have h1 : ∀ p ∈ ps, l.getModule p.1 ≠ none := fun p hp hn => by
    rw [carry_err ps l ⟨p, hp, hn⟩] at h; cases h
  rw [carry_ok ps l h1] at h
  cases h
  exact ⟨h1, rfl⟩

/-- What becomes of one element. -/
def Touched (ps : List (Str × Str)) (e e' : Elem F) : Prop :=
  e' = e ∨ ∃ m p, p ∈ ps ∧ e = .module_ m ∧ HasReference p.1 m ∧ e' = .module_ (setValue p.2 m)

theorem run_touched (es : List (Elem F)) : ∀ ps : List (Str × Str), List.Forall₂ (Touched ps) es (run ps es) := by
  induction es with
  | nil => intro ps; rw [run_nil]; exact .nil
  | cons e es ih =>
    intro ps
    rcases Order.elem_cases e with ⟨m, rfl⟩ | he
    · rw [run_module]
      refine .cons ?_ ?_
      · rw [sets_last]
        cases h : (ps.filter fun p => m.isReferenceWithName p.1).getLast? with
        | none => exact Or.inl rfl
        | some p =>
          have hp := List.mem_filter.1 (List.mem_of_getLast? h)
          exact Or.inr ⟨m, p, hp.1, rfl, (Lay.isReference_iff p.1 m).1 hp.2, rfl⟩
      · refine (ih _).imp fun a b hab => ?_
        rcases hab with h | ⟨m', p, h1, h2⟩
        · exact Or.inl h
        · exact Or.inr ⟨m', p, (List.mem_filter.1 h1).1, h2⟩
    · rw [run_plain ps e he]
      exact .cons (Or.inl rfl) (ih ps)

theorem run_perm (es : List (Elem F))
    (h1 : ∀ m, Elem.module_ m ∈ es → ∀ a b : Str, m.isReferenceWithName a = true → m.isReferenceWithName b = true → a = b) :
    ∀ ps qs : List (Str × Str), ps.Perm qs → (ps.map (·.1)).Nodup → run ps es = run qs es := by
  induction es with
  | nil => intro ps qs _ _; rw [run_nil, run_nil]
  | cons e es ih =>
    intro ps qs hp hn
    have ih := ih fun m hm => h1 m (List.mem_cons_of_mem _ hm)
    rcases Order.elem_cases e with ⟨m, rfl⟩ | he
    · rw [run_module, run_module]
      have hm := h1 m (List.mem_cons_self ..)
      have e2 := ih _ _ (hp.filter fun p => !m.isReferenceWithName p.1)
        (hn.sublist (List.filter_sublist.map _))
      have e1 : (ps.filter fun p => m.isReferenceWithName p.1) = qs.filter fun p => m.isReferenceWithName p.1 := by
        have hq := hp.filter fun p => m.isReferenceWithName p.1
        have hl : ((ps.filter fun p => m.isReferenceWithName p.1).map (·.1)).Nodup :=
          hn.sublist (List.filter_sublist.map _)
        have hall : ∀ p ∈ ps.filter (fun p => m.isReferenceWithName p.1), m.isReferenceWithName p.1 = true :=
          fun p hp => (List.mem_filter.1 hp).2
        revert hq hl hall
        generalize ps.filter (fun p => m.isReferenceWithName p.1) = x
        intro hq hl hall
        match x, hl, hall, hq with
        | [], _, _, hq => exact (List.nil_perm.1 hq).symm
        | [a], _, _, hq => exact List.singleton_perm.1 hq
        | a :: b :: r, hl, hall, _ =>
          have := hm a.1 b.1 (hall a (by simp)) (hall b (by simp))
          simp [this] at hl
      rw [e1, e2]
    · rw [run_plain ps e he, run_plain qs e he, ih ps qs hp hn]

theorem good (v : Str) (hv : Clean v) (m : Fp.Module F) (h : GoodModule m) : GoodModule (setValue v m) := by
  obtain ⟨n, es⟩ := m
  obtain ⟨hn, h⟩ := h
  refine ⟨hn, ?_⟩
  simp only [setValue] at *
  induction es with
  | nil => exact h
  | cons e es ih =>
    rw [List.forall_mem_cons] at h
    cases e with
    | text t =>
      by_cases ht : t.name = str! "value"
      · simp only [Fp.Module.modText, ht, if_true, List.forall_mem_cons]
        refine ⟨⟨h.1.1, ?_⟩, h.2⟩
        have := h.1.2
        simp only [strings, List.forall_mem_cons] at this ⊢
        exact ⟨ht ▸ this.1, hv, this.2.2⟩
      · simp only [Fp.Module.modText, ht, if_false, List.forall_mem_cons]
        exact ⟨h.1, ih h.2⟩
    | _ =>
      simp only [Fp.Module.modText, List.forall_mem_cons]
      exact ⟨h.1, ih h.2⟩

end Carry

/-- It fails exactly if some reference on the list is not on the board. -/
theorem C132_fails (ps : List (Str × Str)) (l : Layout F) :
    ((∃ l', carry ps l = .ok l') ↔ ∀ p ∈ ps, ∃ m, l.getModule p.1 = some m) ∧
    ((∃ p ∈ ps, l.getModule p.1 = none) → carry ps l = .err .other) := by
  refine ⟨⟨fun ⟨l', h⟩ p hp => ?_, fun h => ⟨_, Carry.carry_ok ps l fun p hp hn => ?_⟩⟩, Carry.carry_err ps l⟩
  · exact Option.ne_none_iff_exists'.1 ((Carry.found_of_ok ps l l' h).1 p hp)
  · obtain ⟨m, hm⟩ := h p hp
    rw [hm] at hn; cases hn

/-- Afterwards every reference leads to the module it led to before, with the last value that the list has
for it. -/
theorem C132_values (ps : List (Str × Str)) (l l' : Layout F) (ho : OneReference l) (h : carry ps l = .ok l') (r : Str)
    (m : Fp.Module F) (hm : l.getModule r = some m) : ∃ m', l'.getModule r = some m' ∧
    (∀ v, lastValue r ps = some v → m' = setValue v m ∧
      m'.getText (str! "value") = (m.getText (str! "value")).map (fun t => { t with value := v }) ∧
      ∀ w, w ≠ str! "value" → m'.getText w = m.getText w) ∧
    (lastValue r ps = none → m' = m) := by
  obtain ⟨_, rfl⟩ := Carry.found_of_ok ps l l' h
  have h1 := Carry.run_get r l.elements ho ps
  have hm' : getModuleIn r l.elements = some m := hm
  rw [hm', Option.map_some] at h1
  refine ⟨_, h1, fun v hv => ?_, fun hv => by rw [hv]⟩
  rw [hv]
  refine ⟨rfl, ?_, fun w hw => ?_⟩
  · rw [Carry.getText, if_pos rfl]
  · rw [Carry.getText, if_neg hw]

/-- Nothing else changes: the board keeps its other sections, its elements stay in their places, and an
element that changes is a module with a reference on the list of which the value text changes. -/
theorem C132_rest (ps : List (Str × Str)) (l l' : Layout F) (h : carry ps l = .ok l') :
    l' = { l with elements := l'.elements } ∧
    List.Forall₂ (fun e e' => e' = e ∨ ∃ m r v, (r, v) ∈ ps ∧ e = .module_ m ∧ HasReference r m ∧
      e' = .module_ (setValue v m)) l.elements l'.elements := by
  obtain ⟨_, rfl⟩ := Carry.found_of_ok ps l l' h
  refine ⟨rfl, (Carry.run_touched l.elements ps).imp fun a b hab => ?_⟩
  rcases hab with h | ⟨m, p, h⟩
  · exact Or.inl h
  · exact Or.inr ⟨m, p.1, p.2, h⟩

/-- The order of the list does not matter as long as no reference is on it twice. -/
theorem C132_order (ps qs : List (Str × Str)) (hp : ps.Perm qs) (hn : (ps.map (·.1)).Nodup) (l : Layout F)
    (ho : OneReference l) : carry ps l = carry qs l := by
  by_cases hf : ∀ p ∈ ps, l.getModule p.1 ≠ none
  · rw [Carry.carry_ok ps l hf, Carry.carry_ok qs l fun p h => hf p (hp.mem_iff.2 h),
      Carry.run_perm l.elements ho ps qs hp hn]
  · have hf : ∃ p ∈ ps, l.getModule p.1 = none := by
      by_contra hc
      exact hf fun p h1 h2 => hc ⟨p, h1, h2⟩
    obtain ⟨p, h1, h2⟩ := hf
    rw [Carry.carry_err ps l ⟨p, h1, h2⟩, Carry.carry_err qs l ⟨p, hp.mem_iff.1 h1, h2⟩]

/-- Doing it again changes nothing. -/
theorem C132_again (ps : List (Str × Str)) (l l' : Layout F) (h : carry ps l = .ok l') : carry ps l' = .ok l' := by
  obtain ⟨h1, rfl⟩ := Carry.found_of_ok ps l l' h
  have : ∀ (qs : List (Str × Str)) (es : List (Elem F)) (r : Str),
      getModuleIn r (Carry.run qs es) = none ↔ getModuleIn r es = none := by
    intro qs
    induction qs with
    | nil => exact fun _ _ => Iff.rfl
    | cons q qs ih => exact fun es r => (ih _ r).trans (Carry.modify_none r q.1 q.2 es)
  rw [Carry.carry_ok ps { l with elements := Carry.run ps l.elements }
    fun p hp hn => h1 p hp ((this ps l.elements p.1).1 hn)]
  simp only [Carry.run_run]

/-- A board that can be saved can be saved afterwards, if the values survive quoting. -/
theorem C132_saved [TextLaws F] [ZeroLaws F] [EqLaws F] (q : Str → Bool) (hq : QuotesWhenNeeded q) (level : Int) (ps : List (Str × Str))
    (hv : ∀ p ∈ ps, Clean p.2) (l l' : Layout F) (hs : SavableLayout l) (hc : CleanLayout l) (h : carry ps l = .ok l') :
    Lay.parse (Lay.toText q level l') = .ok l' := by
  obtain ⟨h1, h2⟩ := C132_rest ps l l' h
  have key : ∀ e' ∈ l'.elements, GoodBoardElem e' ∧ (∀ s ∈ boardStrings e', Clean s) ∧ ∀ t ∈ boardTrees e', CleanTree t := by
    intro e' he'
    obtain ⟨i, hi, rfl⟩ := List.mem_iff_getElem.1 he'
    have hlen := h2.length_eq
    have hi' : i < l.elements.length := by omega
    have hg := hs.2.2.2.2 l.elements[i] (List.getElem_mem hi')
    have hcl := hc.2 l.elements[i] (List.getElem_mem hi')
    have h3 := List.forall₂_iff_get.1 h2
    have h3 := h3.2 i hi' hi
    simp only [List.get_eq_getElem] at h3
    rcases h3 with h3 | ⟨m, r, v, h4, h5, _, h6⟩
    · rw [h3]; exact ⟨hg, hcl⟩
    · rw [h6]
      rw [h5] at hg hcl
      have hm : GoodModule m := by
        refine ⟨hcl.1 _ (by simp [boardStrings]), fun e he => ⟨hg e he, fun s hs => hcl.1 s ?_⟩⟩
        simp only [boardStrings, List.mem_cons, List.mem_flatMap]
        exact Or.inr ⟨e, he, hs⟩
      have hm' := Carry.good v (hv _ h4) m hm
      refine ⟨fun e he => (hm'.2 e he).1, fun s hs => ?_, fun t ht => (List.not_mem_nil ht).elim⟩
      simp only [boardStrings, List.mem_cons, List.mem_flatMap] at hs
      rcases hs with rfl | ⟨e, he, hs⟩
      · exact hm'.1
      · exact (hm'.2 e he).2 s hs
  have := C35_layout_roundtrip q hq level l' ?_ ?_ [] Sexp.Text.blank_nil
  · rwa [List.append_nil] at this
  · rw [h1]
    exact ⟨hs.1, hs.2.1, hs.2.2.1, hs.2.2.2.1, fun e he => (key e he).1⟩
  · rw [h1]
    exact ⟨hc.1, fun e he => (key e he).2⟩

/-! ### Cases -/

/-- A module with a reference and a value. -/
def Carry.part (r v : Str) : Fp.Module Nm :=
  ⟨str! "R_0603", [.text (Fp.FpText.new (str! "reference") r),
    .text (Fp.FpText.new (str! "value") v)]⟩

/-- A board with two resistors. -/
def Carry.board : Layout Nm :=
  { (Layout.dflt : Layout Nm) with elements := [.module_ (Carry.part (str! "R1") (str! "1k")),
      .module_ (Carry.part (str! "R2") (str! "1k"))] }

example : OneReference Carry.board := by
  intro m hm a b ha hb
  simp only [Carry.board, List.mem_cons, Elem.module_.injEq, List.not_mem_nil, or_false] at hm
  rcases hm with rfl | rfl <;> simp_all [Carry.part, Fp.Module.isReferenceWithName, Fp.FpText.new]

example : carry [(str! "R2", str! "4k7"), (str! "R1", str! "10k")] Carry.board = .ok { Carry.board with
    elements := [.module_ (Carry.part (str! "R1") (str! "10k")), .module_ (Carry.part (str! "R2") (str! "4k7"))] } :=
  (Carry.carry_ok _ _ (by decide +kernel)).trans rfl

/-- A power symbol is a component without a module: the whole list fails. -/
example : carry [(str! "R2", str! "4k7"), (str! "#PWR01", str! "GND")] Carry.board = .err .other :=
  (C132_fails _ _).2 ⟨(str! "#PWR01", str! "GND"), by decide +kernel, by decide +kernel⟩

/-- Of two modules with one reference only the first gets the value, and a module without a value text gets none;
neither is reported. -/
theorem C132_silent : ∃ (l l' : Layout Nm) (a b c : Fp.Module Nm), OneReference l ∧ l.elements = [.module_ a, .module_ b, .module_ c] ∧
    HasReference (str! "R1") a ∧ HasReference (str! "R1") b ∧ HasReference (str! "R2") c ∧
    carry [(str! "R1", str! "10k"), (str! "R2", str! "10k")] l = .ok l' ∧
    l'.elements = [.module_ (setValue (str! "10k") a), .module_ b, .module_ c] ∧ setValue (str! "10k") a ≠ a ∧
    (b.getText (str! "value")).map (·.value) = some (str! "1k") := by
  let c : Fp.Module Nm := ⟨str! "R_0603", [.text (Fp.FpText.new (str! "reference") (str! "R2"))]⟩
  refine ⟨{ (Layout.dflt : Layout Nm) with elements := [.module_ (Carry.part (str! "R1") (str! "1k")),
      .module_ (Carry.part (str! "R1") (str! "1k")), .module_ c] }, _, Carry.part (str! "R1") (str! "1k"),
    Carry.part (str! "R1") (str! "1k"), c, ?_, rfl, (Lay.isReference_iff _ _).1 (by decide +kernel),
    (Lay.isReference_iff _ _).1 (by decide +kernel), (Lay.isReference_iff _ _).1 (by decide +kernel),
    Carry.carry_ok _ _ (by decide +kernel), rfl, by decide +kernel, by decide +kernel⟩
  intro m hm a b ha hb
  simp only [List.mem_cons, Elem.module_.injEq, List.not_mem_nil, or_false] at hm
  rcases hm with rfl | rfl | rfl <;> simp_all [c, Carry.part, Fp.Module.isReferenceWithName, Fp.FpText.new]

end Verif
