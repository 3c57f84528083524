import Verif.Props.C136
import Verif.Props.C44
import Verif.Props.C49
import Verif.Props.C94
/-!
# C137: putting two boards together

A program moves a board with `adjust` and appends its elements to those of another board (a panel).
-/

namespace Verif
open Flt Spec Lay

set_option linter.unusedSectionVars false

variable {F : Type} [Flt F]

/-- `b.adjust(x, y); a.elements.append(&mut b.elements)` (src/layout/data.rs 616-622). -/
def Spec.panel (a b : Layout F) (x y : F) : Layout F := { a with elements := a.elements ++ (b.adjust x y).elements }

/-- `b.update_net_names(|n| Ok(n.0.insert_str(0, p)))` (src/layout/data.rs 657-683). -/
def Spec.prefixed (p : Str) (b : Layout F) : Layout F := (b.updateNetNames fun n => (p ++ n, none)).1

/-- The number stands for the name on this board. -/
def Spec.StandsFor (l : Layout F) (i : Int) (n : Str) : Prop := (⟨i, n⟩ : Fp.Net) ∈ l.nets

namespace Panel

theorem netlist_adjust (b : Layout F) (x y : F) : netlist (b.adjust x y) = netlist b :=
  C133_session [.move x y] (fun e he => by rw [List.mem_singleton.1 he]; exact trivial) b _ rfl

theorem fold_from [OrdLaws F] {α : Type} (f : α → Bound F) (l : List α) (c : Bound F) :
    l.foldl (fun b e => b.update (f e)) c = c.update (l.foldl (fun b e => b.update (f e)) Bound.dflt) := by
  have dd : ∀ c z : Bound F, c.update ((Bound.dflt : Bound F).update z) = c.update z := by
    intro c z
    obtain ⟨_, _, _, _, cb⟩ := c
    obtain ⟨_, _, _, _, zb⟩ := z
    cases cb <;> cases zb <;> simp [Bound.update, Bound.dflt]
  induction l generalizing c with
  | nil =>
    obtain ⟨_, _, _, _, cb⟩ := c
    cases cb <;> simp [Bound.update, Bound.dflt]
  | cons e l ih =>
    rw [List.foldl_cons, List.foldl_cons, ih, ih ((Bound.dflt : Bound F).update (f e)), C49_update_assoc, C49_update_assoc, dd]

theorem upright_elem [MonoLaws F] (e : Elem F) (hv : ∀ v, e = .via v → le zero v.size = true) : Upright e.bound := by
  have hd : Upright (Bound.dflt : Bound F) := ⟨OrdLaws.le_refl _, OrdLaws.le_refl _⟩
  cases e with
  | module_ m => exact inside_upright (C26_bound_covers_partial m).1
  | net n => exact hd
  | netClass n => exact hd
  | other n => exact hd
  | zone z => exact (C49_swap_upright _).1
  | dimension d =>
    cases h : boardExtent (.dimension d : Elem F) with
    | nil => simp [boardExtent, boardPoints] at h
    | cons p ps => exact inside_upright (Lay.elem_covers _ hv p (by rw [h]; exact List.mem_cons_self ..))
  | _ =>
    refine inside_upright (Lay.elem_covers _ hv _ (List.mem_of_mem_head? (List.head?_eq_some_head (?_)))) 
    simp [boardExtent, boardPoints]

theorem upright_fold [MonoLaws F] (es : List (Elem F)) (hv : ∀ v, .via v ∈ es → le zero v.size = true) :
    ∀ c : Bound F, Upright c → Upright (es.foldl (fun b e => b.update e.bound) c) := by
  induction es with
  | nil => exact fun c h => h
  | cons e es ih =>
    intro c h
    exact ih (fun v hm => hv v (List.mem_cons_of_mem _ hm)) _
      (upright_update h (upright_elem e fun v hv' => hv v (by rw [hv']; exact List.mem_cons_self ..)))

theorem via_adjust (b : Layout F) (x y : F) (h : ∀ v, .via v ∈ b.elements → le zero v.size = true) :
    ∀ v, .via v ∈ (b.adjust x y).elements → le zero v.size = true := by
  intro v hv
  simp only [Layout.adjust, List.mem_map] at hv
  obtain ⟨e, he, e2⟩ := hv
  cases e with
  | via w => cases e2; exact h w he
  | _ => cases e2

end Panel

/-- The netlist is one after the other. -/
theorem C137_netlist (a b : Layout F) (x y : F) : netlist (panel a b x y) = netlist a ++ netlist b := by
  rw [← Panel.netlist_adjust b x y, Netlist.eq, Netlist.eq, Netlist.eq]
  exact List.flatMap_append

/-- Pads within one of the boards are connected as before; pads of different boards are connected exactly if the names of
their nets are the same. -/
theorem C137_connected (a b : Layout F) (x y : F) (i j : Nat) (hi : i < (netlist a).length) :
    (j < (netlist a).length → (SameNet (netlist (panel a b x y)) i j ↔ SameNet (netlist a) i j)) ∧
    (SameNet (netlist (panel a b x y)) i ((netlist a).length + j) ↔
      ∃ v w, (netlist a)[i]? = some v ∧ (netlist b)[j]? = some w ∧ v.2.2 = w.2.2) ∧
    (∀ k, SameNet (netlist (panel a b x y)) ((netlist a).length + k) ((netlist a).length + j) ↔ SameNet (netlist b) k j) := by
  rw [C137_netlist]
  have h1 : ∀ k, k < (netlist a).length → (netlist a ++ netlist b)[k]? = (netlist a)[k]? := fun k hk => List.getElem?_append_left hk
  have h2 : ∀ k, (netlist a ++ netlist b)[(netlist a).length + k]? = (netlist b)[k]? := by
    intro k
    rw [List.getElem?_append_right (Nat.le_add_right ..), Nat.add_sub_cancel_left]
  refine ⟨fun hj => ?_, ?_, fun k => ?_⟩
  · simp only [SameNet, h1 i hi, h1 j hj]
  · simp only [SameNet, h1 i hi, h2]
  · simp only [SameNet, h2]

/-- With a prefix that no name in use on the first board has, the boards are not connected, and within each board
everything is connected as before. -/
theorem C137_prefixed (a b : Layout F) (x y : F) (p : Str) (hp : ∀ n, InUse (netlist a) n → ¬ p <+: n) (i j k : Nat)
    (hi : i < (netlist a).length) :
    ¬ SameNet (netlist (panel a (prefixed p b) x y)) i ((netlist a).length + j) ∧
    (SameNet (netlist (panel a (prefixed p b) x y)) ((netlist a).length + k) ((netlist a).length + j) ↔ SameNet (netlist b) k j) := by
  have hb : netlist (prefixed p b) = withNames (fun n => p ++ n) (netlist b) := C133_update b (fun n => (p ++ n, none)) fun _ _ => rfl
  obtain ⟨_, h2, h3⟩ := C137_connected a (prefixed p b) x y i j hi
  refine ⟨fun h => ?_, (h3 k).trans ?_⟩
  · obtain ⟨v, w, hv, hw, e⟩ := h2.1 h
    rw [hb] at hw
    obtain ⟨u, _, rfl⟩ := List.mem_map.1 (List.mem_of_getElem? hw)
    exact hp _ ⟨v, List.mem_of_getElem? hv, rfl⟩ (by rw [e]; exact List.prefix_append ..)
  · rw [hb]
    exact (C133_connected (fun n => p ++ n) (netlist b)).2 (fun m n _ _ h => List.append_cancel_left h) k j

/-- Nets, classes and parts are one after the other; a part is found on the first board first. -/
theorem C137_lists (a b : Layout F) (x y : F) :
    (panel a b x y).nets = a.nets ++ b.nets ∧ (panel a b x y).netclasses = a.netclasses ++ b.netclasses ∧
    (panel a b x y).getModules = a.getModules ++ b.getModules.map (fun m => m.adjust x y) ∧
    ∀ r, (panel a b x y).getModule r = (a.getModule r).or ((b.getModule r).map fun m => m.adjust x y) := by
  refine ⟨?_, ?_, ?_, fun r => ?_⟩
  · simp only [Layout.nets, panel, Layout.adjust, List.filterMap_append, List.filterMap_map]
    congr 2
    funext e
    cases e <;> rfl
  · simp only [Layout.netclasses, panel, Layout.adjust, List.filterMap_append, List.filterMap_map]
    congr 2
    funext e
    cases e <;> rfl
  · simp only [Layout.getModules, panel, Layout.adjust, List.filterMap_append, List.filterMap_map, List.map_filterMap]
    congr 2
    funext e
    cases e <;> rfl
  · simp only [Layout.getModule, panel, Layout.adjust]
    have keep : ∀ m : Fp.Module F, (m.adjust x y).isReferenceWithName r = m.isReferenceWithName r := by
      intro m
      simp only [Fp.Module.isReferenceWithName, Fp.Module.adjust, List.any_map]
      congr 1
      funext e
      cases e <;> rfl
    have second : getModuleIn r (b.elements.map (Elem.adjust x y)) = (getModuleIn r b.elements).map fun m => m.adjust x y := by
      induction b.elements with
      | nil => rfl
      | cons e es ih =>
        cases e with
        | module_ m =>
          have e1 : Elem.adjust x y (.module_ m) = .module_ (m.adjust x y) := rfl
          simp only [List.map_cons, e1, getModuleIn, keep]
          split
          · rfl
          · exact ih
        | _ => exact ih
    rw [← second]
    induction a.elements with
    | nil => rfl
    | cons e es ih =>
      cases e with
      | module_ m =>
        simp only [List.cons_append, getModuleIn]
        split
        · rfl
        · exact ih
      | _ => exact ih

/-- The box of the panel is the union of the boxes of the boards (if no via has a negative size). -/
theorem C137_box [MonoLaws F] (a b : Layout F) (x y : F) (ha : ∀ v, .via v ∈ a.elements → le zero v.size = true)
    (hb : ∀ v, .via v ∈ b.elements → le zero v.size = true) :
    (panel a b x y).bound = a.bound.update (b.adjust x y).bound := by
  have hd : Upright (Bound.dflt : Bound F) := ⟨OrdLaws.le_refl _, OrdLaws.le_refl _⟩
  have hb' := Panel.via_adjust b x y hb
  have up : ∀ es : List (Elem F), (∀ v, .via v ∈ es → le zero v.size = true) →
      (es.foldl (fun b e => b.update e.bound) Bound.dflt).swapIfNeeded = es.foldl (fun b e => b.update e.bound) Bound.dflt :=
    fun es h => (C49_swap_upright _).2.2.2.2.2.2 (Panel.upright_fold es h _ hd)
  simp only [Layout.bound]
  rw [up _ ha, up _ hb', up (panel a b x y).elements (fun v hv => (List.mem_append.1 hv).elim (ha v) (hb' v))]
  simp only [panel, List.foldl_append]
  exact Panel.fold_from Elem.bound _ _

/-- Boards that save and read back do so together. -/
theorem C137_saved [TextLaws F] [ZeroLaws F] (q : Str → Bool) (hq : QuotesWhenNeeded q) (level : Int) (a b : Layout F) (x y : F)
    (ha : SavableLayout a) (ha' : CleanLayout a) (hb : SavableLayout b) (hb' : CleanLayout b) :
    Lay.parse (Lay.toText q level (panel a b x y)) = .ok (panel a b x y) := by
  have hf : ∀ e ∈ (b.adjust x y).elements, Lay.Fine e := by
    intro e he
    obtain ⟨e', h1, rfl⟩ := List.mem_map.1 he
    exact Lay.fine_adjust x y ⟨hb.2.2.2.2 e' h1, hb'.2 e' h1⟩
  have := C35_layout_roundtrip q hq level (panel a b x y) ⟨ha.1, ha.2.1, ha.2.2.1, ha.2.2.2.1, fun e he =>
      (List.mem_append.1 he).elim (ha.2.2.2.2 e) fun h => (hf e h).1⟩ ⟨ha'.1, fun e he =>
      (List.mem_append.1 he).elim (ha'.2 e) fun h => (hf e h).2⟩ [] Sexp.Text.blank_nil
  rwa [List.append_nil] at this

/-- What the numbers of nets stand for is what they stand for on either board: a number that both use for different nets
has two meanings. -/
theorem C137_numbers (a b : Layout F) (x y : F) (i : Int) (n : Str) :
    StandsFor (panel a b x y) i n ↔ StandsFor a i n ∨ StandsFor b i n := by
  simp only [StandsFor, (C137_lists a b x y).1, List.mem_append]

/-! ### Cases -/

/-- Two boards whose net numbers clash. -/
theorem C137_clash : ∃ (a b : Layout Nm) (i : Int) (m n : Str), m ≠ n ∧ StandsFor a i m ∧ StandsFor b i n ∧
    (∀ m' n', StandsFor a i m' → StandsFor a i n' → m' = n') ∧ (∀ m' n', StandsFor b i m' → StandsFor b i n' → m' = n') ∧
    StandsFor (panel a b zero zero) i m ∧ StandsFor (panel a b zero zero) i n := by
  have one : ∀ n n' : Str, StandsFor ((Layout.dflt : Layout Nm).addNet 1 n) 1 n' ↔ n' = n := by
    intro n n'
    have : ((Layout.dflt : Layout Nm).addNet 1 n).nets = [⟨1, n⟩] := rfl
    simp [StandsFor, this]
  refine ⟨(Layout.dflt : Layout Nm).addNet 1 (str! "VCC"), (Layout.dflt : Layout Nm).addNet 1 (str! "GND"), 1, str! "VCC",
    str! "GND", by decide, (one _ _).2 rfl, (one _ _).2 rfl, ?_, ?_, ?_, ?_⟩
  · exact fun m' n' h1 h2 => ((one _ _).1 h1).trans ((one _ _).1 h2).symm
  · exact fun m' n' h1 h2 => ((one _ _).1 h1).trans ((one _ _).1 h2).symm
  · exact (C137_numbers _ _ _ _ _ _).2 (Or.inl ((one _ _).2 rfl))
  · exact (C137_numbers _ _ _ _ _ _).2 (Or.inr ((one _ _).2 rfl))

/-- The same board twice: every net is connected to itself. -/
example : SameNet (netlist (panel Netlist.board Netlist.board ⟨5⟩ ⟨0⟩)) 0 4 := by
  rw [C137_netlist, Netlist.board_eq]
  exact ⟨_, _, rfl, rfl, rfl⟩

/-- With the prefix `b/` it is not. -/
example : ∀ n, InUse (netlist Netlist.board) n → ¬ str! "b/" <+: n := by
  rintro n ⟨w, hw, rfl⟩
  rw [Netlist.board_eq] at hw
  simp only [List.mem_cons, List.not_mem_nil, or_false] at hw
  rcases hw with rfl | rfl | rfl | rfl <;> decide

end Verif
