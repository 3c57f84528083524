import Verif.Props.C137
/-!
# C143: taking parts off a board

A program removes the footprints with a designator, or any other elements, from a board.
-/

namespace Verif
open Flt Spec Lay

set_option linter.unusedSectionVars false

variable {F : Type} [Flt F]

/-- `layout.elements.retain(keep)`, on the public field (src/layout/data.rs 26-27). -/
def Spec.retain (keep : Elem F → Bool) (l : Layout F) : Layout F := { l with elements := l.elements.filter keep }

/-- Not a footprint with this designator (`is_reference_with_name`, src/footprint/data.rs 51-60). -/
def Spec.notPart (r : Str) : Elem F → Bool
  | .module_ m => !m.isReferenceWithName r
  | _ => true

/-- The board without the footprints with this designator. -/
def Spec.takeOff (r : Str) (l : Layout F) : Layout F := retain (notPart r) l

namespace Off

theorem isModule_iff (r : Str) (e : Elem F) : IsModule r e ↔ notPart r e = false := by
  cases e with
  | module_ m =>
    simp only [notPart, Bool.not_eq_false', Lay.isReference_iff, IsModule]
    exact ⟨fun ⟨_, h1, h2⟩ => by cases h1; exact h2, fun h => ⟨m, rfl, h⟩⟩
  | _ => simp [notPart, IsModule]

/-- The second box is as large as the first. -/
def Sub (a b : Bound F) : Prop := a.isBounded = true → b.isBounded = true ∧ Encloses b a

theorem enc_refl [OrdLaws F] (a : Bound F) : Encloses a a := ⟨OrdLaws.le_refl _, OrdLaws.le_refl _, OrdLaws.le_refl _, OrdLaws.le_refl _⟩

theorem enc_trans [OrdLaws F] {a b c : Bound F} (h : Encloses a b) (h' : Encloses b c) : Encloses a c :=
  ⟨OrdLaws.le_trans _ _ _ h.1 h'.1, OrdLaws.le_trans _ _ _ h.2.1 h'.2.1, OrdLaws.le_trans _ _ _ h'.2.2.1 h.2.2.1, OrdLaws.le_trans _ _ _ h'.2.2.2 h.2.2.2⟩

theorem update_unbounded (a z : Bound F) (hz : z.isBounded = false) : a.update z = a := (C49_default_neutral a z hz).1

theorem grow [OrdLaws F] {a b : Bound F} (z : Bound F) (h : Sub a b) : Sub a (b.update z) := by
  intro ha
  obtain ⟨h1, h2⟩ := h ha
  cases hz : z.isBounded with
  | false => rw [update_unbounded b z hz]; exact ⟨h1, h2⟩
  | true =>
    obtain ⟨k1, k2⟩ := C49_update_least b z (b.update z) h1 hz
    exact ⟨k1, enc_trans (k2.1 (enc_refl _)).1 h2⟩

theorem both [OrdLaws F] {a b : Bound F} (z : Bound F) (h : Sub a b) : Sub (a.update z) (b.update z) := by
  cases hz : z.isBounded with
  | false => rw [update_unbounded a z hz, update_unbounded b z hz]; exact h
  | true =>
    have hb : (b.update z).isBounded = true ∧ Encloses (b.update z) z := by
      cases hb : b.isBounded with
      | true =>
        obtain ⟨k1, k2⟩ := C49_update_least b z (b.update z) hb hz
        exact ⟨k1, (k2.1 (enc_refl _)).2⟩
      | false =>
        have : b.update z = z := (C49_default_neutral z b hb).2.1 hz
        rw [this]
        exact ⟨hz, enc_refl _⟩
    intro _
    cases ha : a.isBounded with
    | true =>
      refine ⟨hb.1, (C49_update_least a z _ ha hz).2.2 ⟨(grow z h ha).2, hb.2⟩⟩
    | false =>
      have : a.update z = z := (C49_default_neutral z a ha).2.1 hz
      rw [this]
      exact hb

theorem fold [OrdLaws F] (keep : Elem F → Bool) (es : List (Elem F)) : ∀ {a b : Bound F}, Sub a b →
    Sub ((es.filter keep).foldl (fun b e => b.update e.bound) a) (es.foldl (fun b e => b.update e.bound) b) := by
  induction es with
  | nil => exact fun h => h
  | cons e es ih =>
    intro a b h
    by_cases hk : keep e = true
    · rw [List.filter_cons_of_pos hk]
      exact ih (both _ h)
    · rw [List.filter_cons_of_neg hk]
      exact ih (grow _ h)

end Off

/-- No part of that designator is found; all others are found as before unless they have that designator too. -/
theorem C143_found (r : Str) (l : Layout F) : (takeOff r l).getModule r = none ∧
    ∀ s, (∀ m, Elem.module_ m ∈ l.elements → HasReference s m → ¬ HasReference r m) → (takeOff r l).getModule s = l.getModule s := by
  refine ⟨(C42_get_none _ _).2 fun e he h => ?_, fun s hs => ?_⟩
  · have := (List.mem_filter.1 he).2
    rw [(Off.isModule_iff r e).1 h] at this
    cases this
  · simp only [Layout.getModule, takeOff, retain]
    generalize l.elements = es at hs
    induction es with
    | nil => rfl
    | cons e es ih =>
      have ih := ih fun m hm => hs m (List.mem_cons_of_mem _ hm)
      by_cases hk : notPart r e = true
      · rw [List.filter_cons_of_pos hk]
        cases e with
        | module_ m => simp only [getModuleIn, ih]
        | _ => simpa only [getModuleIn] using ih
      · rw [List.filter_cons_of_neg hk, ih]
        cases e with
        | module_ m =>
          have hr : HasReference r m := by
            have : m.isReferenceWithName r = true := by simpa [notPart] using hk
            exact (Lay.isReference_iff r m).1 this
          have : ¬ m.isReferenceWithName s = true := fun h => hs m (List.mem_cons_self ..) ((Lay.isReference_iff s m).1 h) hr
          simp only [getModuleIn, if_neg this]
        | _ => exact absurd rfl hk

/-- The netlist loses the wires of the footprints taken off and no others; nets and net classes stay. -/
theorem C143_netlist (r : Str) (l : Layout F) :
    netlist (takeOff r l) = (l.getModules.filter fun m => !m.isReferenceWithName r).flatMap wires ∧
    (takeOff r l).nets = l.nets ∧ (takeOff r l).netclasses = l.netclasses ∧
    ((∀ m, Elem.module_ m ∈ l.elements → (m.isReferenceWithName r = true ↔ m.getReference = some r)) →
      netlist (takeOff r l) = (netlist l).filter fun w => decide (w.1 ≠ some r)) := by
  have h1 : (takeOff r l).getModules = l.getModules.filter fun m => !m.isReferenceWithName r := by
    simp only [Layout.getModules, takeOff, retain]
    generalize l.elements = es
    induction es with
    | nil => rfl
    | cons e es ih =>
      cases e with
      | module_ m =>
        cases hk : m.isReferenceWithName r with
        | true => simpa [List.filter_cons, notPart, hk] using ih
        | false => simpa [List.filter_cons, notPart, hk] using ih
      | _ => simpa [List.filter_cons, notPart] using ih
  refine ⟨by rw [netlist, h1], ?_, ?_, fun h => ?_⟩
  · simp only [Layout.nets, takeOff, retain, List.filterMap_filter]
    congr 1
    funext e
    cases e <;> simp [notPart]
  · simp only [Layout.netclasses, takeOff, retain, List.filterMap_filter]
    congr 1
    funext e
    cases e <;> simp [notPart]
  · rw [netlist, h1, netlist]
    have hm : ∀ m ∈ l.getModules, m.isReferenceWithName r = true ↔ m.getReference = some r := by
      intro m hm
      obtain ⟨e, he, h2⟩ := List.mem_filterMap.1 hm
      cases e with
      | module_ m' => cases h2; exact h m he
      | _ => cases h2
    generalize l.getModules = ms at hm
    induction ms with
    | nil => rfl
    | cons m ms ih =>
      have ih := ih fun x hx => hm x (List.mem_cons_of_mem _ hx)
      have hd := hm m (List.mem_cons_self ..)
      have hw : ∀ w ∈ wires m, w.1 = m.getReference := by
        intro w hw
        obtain ⟨p, _, h2⟩ := List.mem_filterMap.1 hw
        obtain ⟨n, _, rfl⟩ := Option.map_eq_some_iff.1 h2
        rfl
      rw [List.flatMap_cons, List.filter_append]
      cases hk : m.isReferenceWithName r with
      | true =>
        rw [List.filter_cons_of_neg (by simp [hk]), ih]
        have : (wires m).filter (fun w => decide (w.1 ≠ some r)) = [] := List.filter_eq_nil_iff.2 fun w h2 => by
          simp [hw w h2, hd.1 hk]
        rw [this, List.nil_append]
      | false =>
        rw [List.filter_cons_of_pos (by simp [hk]), List.flatMap_cons, ih]
        have : (wires m).filter (fun w => decide (w.1 ≠ some r)) = wires m := List.filter_eq_self.2 fun w h2 => by
          have : ¬ m.getReference = some r := fun e => by rw [hd.2 e] at hk; cases hk
          simp [hw w h2, this]
        rw [this]

/-- Placing a part and taking it off again gives the board there was, if the designator was not on it. -/
theorem C143_put (r : Str) (l : Layout F) (m : Fp.Module F) (hm : HasReference r m) (hl : l.getModule r = none) : takeOff r (put m l) = l := by
  have h1 : l.elements.filter (notPart r) = l.elements := List.filter_eq_self.2 fun e he => by
    have := (C42_get_none _ _).1 hl e he
    rw [Off.isModule_iff] at this
    simpa using this
  have h2 : notPart r (Elem.module_ m : Elem F) = false := (Off.isModule_iff r _).1 ⟨m, rfl, hm⟩
  simp only [takeOff, retain, put, List.filter_append, h1, List.filter_cons, h2, Bool.false_eq_true, if_false, List.filter_nil, List.append_nil]

/-- Taking off commutes with putting boards together and with moving, and parts come off in any order. -/
theorem C143_order (r s : Str) (a b : Layout F) (x y : F) :
    takeOff r (panel a b x y) = panel (takeOff r a) (takeOff r b) x y ∧ takeOff r (a.adjust x y) = (takeOff r a).adjust x y ∧
    takeOff r (takeOff s a) = takeOff s (takeOff r a) ∧ takeOff r (takeOff r a) = takeOff r a := by
  have hd : ∀ (m : Fp.Module F), (m.adjust x y).isReferenceWithName r = m.isReferenceWithName r := by
    intro m
    simp only [Fp.Module.isReferenceWithName, Fp.Module.adjust, List.any_map]
    congr 1
    funext e
    cases e <;> rfl
  have hk : (notPart r ∘ Elem.adjust x y) = (notPart r : Elem F → Bool) := by
    funext e
    cases e with
    | module_ m => simp only [Function.comp, notPart, Elem.adjust, hd]
    | _ => rfl
  have hm : ∀ es : List (Elem F), (es.map (Elem.adjust x y)).filter (notPart r) = (es.filter (notPart r)).map (Elem.adjust x y) := by
    intro es
    rw [List.filter_map, hk]
  refine ⟨?_, ?_, ?_, ?_⟩
  · simp only [takeOff, retain, panel, Layout.adjust, List.filter_append, hm]
  · simp only [takeOff, retain, Layout.adjust, hm]
  · simp only [takeOff, retain, List.filter_filter, Bool.and_comm]
  · simp only [takeOff, retain, List.filter_filter, Bool.and_self]

/-- Whatever is removed, the box gets no larger. -/
theorem C143_box [MonoLaws F] (keep : Elem F → Bool) (l : Layout F) (hv : ∀ v, .via v ∈ l.elements → le zero v.size = true) (x y : F)
    (h : Inside (retain keep l).bound x y) : Inside l.bound x y := by
  have hd : Upright (Bound.dflt : Bound F) := ⟨OrdLaws.le_refl _, OrdLaws.le_refl _⟩
  have up : ∀ es : List (Elem F), (∀ v, .via v ∈ es → le zero v.size = true) →
      (es.foldl (fun b e => b.update e.bound) Bound.dflt).swapIfNeeded = es.foldl (fun b e => b.update e.bound) Bound.dflt :=
    fun es h => (C49_swap_upright _).2.2.2.2.2.2 (Panel.upright_fold es h _ hd)
  simp only [Layout.bound, retain] at h ⊢
  rw [up _ fun v hm => hv v (List.mem_filter.1 hm).1] at h
  rw [up _ hv]
  have hs := Off.fold keep l.elements (a := (Bound.dflt : Bound F)) (b := Bound.dflt) fun h => ⟨h, Off.enc_refl _⟩
  obtain ⟨k1, k2⟩ := hs h.1
  exact ⟨k1, OrdLaws.le_trans _ _ _ k2.1 h.2.1, OrdLaws.le_trans _ _ _ h.2.2.1 k2.2.2.1, OrdLaws.le_trans _ _ _ k2.2.1 h.2.2.2.1,
    OrdLaws.le_trans _ _ _ h.2.2.2.2 k2.2.2.2⟩

/-- Whatever is removed, what could be saved and read back still can. -/
theorem C143_saved [TextLaws F] [ZeroLaws F] (q : Str → Bool) (hq : QuotesWhenNeeded q) (level : Int) (keep : Elem F → Bool) (l : Layout F)
    (h : SavableLayout l) (h' : CleanLayout l) : Lay.parse (Lay.toText q level (retain keep l)) = .ok (retain keep l) := by
  have := C35_layout_roundtrip q hq level (retain keep l) ⟨h.1, h.2.1, h.2.2.1, h.2.2.2.1, fun e he => h.2.2.2.2 e (List.mem_filter.1 he).1⟩
    ⟨h'.1, fun e he => h'.2 e (List.mem_filter.1 he).1⟩ [] Sexp.Text.blank_nil
  rwa [List.append_nil] at this

/-! ### Cases -/

example : netlist (takeOff (str! "R1") Netlist.board) = [(some (str! "R2"), str! "1", str! "OUT"), (some (str! "R2"), str! "2", str! "GND")] := by
  decide +kernel

example : HasReference (str! "R7") (Netlist.part (str! "R7") (str! "A") (str! "B")) ∧ Netlist.board.getModule (str! "R7") = none :=
  ⟨⟨_, List.mem_cons_self .., rfl, rfl⟩, by
    refine (C42_get_none _ _).2 fun e he h => ?_
    rw [Off.isModule_iff] at h
    have : ∀ e ∈ Netlist.board.elements, notPart (str! "R7") e = true := by
      intro e he
      rcases List.mem_cons.1 he with rfl | he
      · decide +kernel
      · rw [List.mem_singleton.1 he]; decide +kernel
    rw [this e he] at h
    cases h⟩

example : ∀ m, Elem.module_ m ∈ Netlist.board.elements → (m.isReferenceWithName (str! "R1") = true ↔ m.getReference = some (str! "R1")) := by
  intro m hm
  rcases List.mem_cons.1 hm with h | h
  · cases h; decide +kernel
  · cases List.mem_singleton.1 h; decide +kernel

/-- A footprint with two designators is taken off with either. -/
theorem C143_two : ∃ (l : Layout Nm) (r s : Str), r ≠ s ∧ (l.getModule s).isSome ∧ (takeOff r l).getModule s = none := by
  refine ⟨{ (Layout.dflt : Layout Nm) with elements := [.module_ ⟨str! "X", [.text (Fp.FpText.new (str! "reference") (str! "A")),
    .text (Fp.FpText.new (str! "reference") (str! "B"))]⟩] }, str! "A", str! "B", by decide, by decide +kernel, ?_⟩
  rfl

end Verif
