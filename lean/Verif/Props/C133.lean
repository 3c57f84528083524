import Verif.Props.C62
import Verif.Props.C38
import Verif.Props.C27
/-!
# C133: the netlist of a board

Which pad of which part is on which net, as read off with `get_modules`, `get_reference` and `pads`.
Updating net names changes the names in it one by one; which pads are connected stays the same exactly if
no two names in use become one.  Moving a board, adding nets and classes, and moving, turning and flipping
footprints leave the netlist as it is.  Fixing a footprint keeps its wires and takes its designator away.
-/

namespace Verif
open Flt Spec Lay

set_option linter.unusedSectionVars false

variable {F : Type} [Flt F]

/-- The wires of a part: its designator, the pad, the net. -/
def Spec.wires (m : Fp.Module F) : List (Option Str × Str × Str) :=
  m.pads.filterMap fun p => p.net.map fun n => (m.getReference, p.name, n.name)

/-- The netlist of a board. -/
def Spec.netlist (l : Layout F) : List (Option Str × Str × Str) := l.getModules.flatMap wires

/-- A netlist with other net names. -/
def Spec.withNames (g : Str → Str) (t : List (Option Str × Str × Str)) : List (Option Str × Str × Str) :=
  t.map fun w => (w.1, w.2.1, g w.2.2)

/-- The two entries are on the same net. -/
def Spec.SameNet (t : List (Option Str × Str × Str)) (i j : Nat) : Prop :=
  ∃ a b, t[i]? = some a ∧ t[j]? = some b ∧ a.2.2 = b.2.2

/-- The names in use. -/
def Spec.InUse (t : List (Option Str × Str × Str)) (n : Str) : Prop := ∃ w ∈ t, w.2.2 = n

/-- A call that has nothing to do with wires and designators. -/
def Spec.FpEdit.Wireless : FpEdit F → Prop
  | .flip | .rotate _ | .move _ _ => True
  | _ => False

/-- A call on a board that has nothing to do with wires and designators. -/
def Spec.BoardEdit.Wireless : BoardEdit F → Prop
  | .move _ _ | .addNet _ _ | .addNetclass _ | .setSetup _ _ => True
  | .editModule _ es => ∀ e ∈ es, e.Wireless
  | .append e => ∀ m, e ≠ .module_ m
  | .renameNet _ _ => False

namespace Netlist

/-- The wires of the elements of a board. -/
def ofElem : Elem F → List (Option Str × Str × Str)
  | .module_ m => wires m
  | _ => []

theorem eq (l : Layout F) : netlist l = l.elements.flatMap ofElem := by
  simp only [netlist, Layout.getModules]
  generalize l.elements = es
  induction es with
  | nil => rfl
  | cons e es ih => cases e <;> simp [ofElem, ih]

/-- The wire of one element. -/
def wire (r : Option Str) : Fp.Elem F → Option (Option Str × Str × Str)
  | .pad p => p.net.map fun n => (r, p.name, n.name)
  | _ => none

/-- The designator in one element. -/
def desig : Fp.Elem F → Option Str
  | .text t => if t.name = str! "reference" then some t.value else none
  | _ => none

/-- The wires of the elements of a part with this designator. -/
def padWires (r : Option Str) (es : List (Fp.Elem F)) : List (Option Str × Str × Str) := es.filterMap (wire r)

theorem desig_eq (n : Str) (es : List (Fp.Elem F)) :
    (Fp.Module.mk n es : Fp.Module F).getReference = es.findSome? desig := by
  simp only [Fp.Module.getReference, Fp.Module.getText]
  induction es with
  | nil => rfl
  | cons x es ih =>
    cases x with
    | text t =>
      by_cases ht : t.name = str! "reference"
      · simp only [List.findSome?_cons, ht, if_true, Option.map_some, desig]
      · simp only [List.findSome?_cons, ht, if_false, ih, desig]
    | _ => simp only [List.findSome?_cons, ih, desig]

theorem wires_eq (m : Fp.Module F) : wires m = padWires m.getReference m.elements := by
  simp only [wires, Fp.Module.pads, List.filterMap_filterMap, padWires]
  congr 1
  funext e
  cases e <;> rfl

theorem pads_ok (u : Update) (r : Option Str) (es : List (Fp.Elem F)) (h : (updatePads u es).2 = none) :
    padWires r (updatePads u es).1 = withNames (fun n => (u n).1) (padWires r es) ∧
    ∀ w, (Fp.Module.mk [] (updatePads u es).1 : Fp.Module F).getText w = (Fp.Module.mk [] es : Fp.Module F).getText w := by
  induction es with
  | nil => exact ⟨rfl, fun _ => rfl⟩
  | cons e es ih =>
    cases e with
    | pad p =>
      rcases hn : p.net with _ | n
      · simp only [updatePads, hn] at h ⊢
        obtain ⟨h1, h2⟩ := ih h
        refine ⟨?_, fun w => by simpa [Fp.Module.getText] using h2 w⟩
        simp only [padWires, List.filterMap_cons, wire, hn, Option.map_none] at h1 ⊢
        exact h1
      · rcases hu : u n.name with ⟨n', _ | x⟩
        · simp only [updatePads, hn, hu] at h ⊢
          obtain ⟨h1, h2⟩ := ih h
          refine ⟨?_, fun w => by simpa [Fp.Module.getText] using h2 w⟩
          simp only [padWires, withNames, List.filterMap_cons, wire, hn, Option.map_some, List.map_cons, hu] at h1 ⊢
          rw [h1]
        · simp [updatePads, hn, hu] at h
    | text t =>
      simp only [updatePads] at h ⊢
      obtain ⟨h1, h2⟩ := ih h
      refine ⟨h1, fun w => ?_⟩
      have h2 := h2 w
      simp only [Fp.Module.getText, List.findSome?_cons] at h2 ⊢
      rw [h2]
    | _ =>
      simp only [updatePads] at h ⊢
      obtain ⟨h1, h2⟩ := ih h
      exact ⟨h1, fun w => by simpa [Fp.Module.getText] using h2 w⟩

theorem elem_ok (u : Update) (e : Elem F) (h : (e.updateNames u).2 = none) :
    ofElem (e.updateNames u).1 = withNames (fun n => (u n).1) (ofElem e) := by
  cases e with
  | module_ m =>
    simp only [Elem.updateNames] at h ⊢
    simp only [ofElem, wires_eq]
    have h2 := (pads_ok u none m.elements h).2 (str! "reference")
    have e2 : Fp.Module.getReference { m with elements := (updatePads u m.elements).1 } = m.getReference := by
      simp only [Fp.Module.getReference]
      exact congrArg (Option.map fun t : Fp.FpText F => t.value) h2
    rw [e2]
    exact (pads_ok u _ m.elements h).1
  | _ => rfl

theorem elems_ok (u : Update) (es : List (Elem F)) (h : (updateElems u es).2 = none) :
    (updateElems u es).1.flatMap ofElem = withNames (fun n => (u n).1) (es.flatMap ofElem) := by
  induction es with
  | nil => rfl
  | cons e es ih =>
    rcases hu : e.updateNames u with ⟨e', _ | x⟩
    · simp only [updateElems, hu] at h ⊢
      have h1 := elem_ok u e (by rw [hu])
      rw [hu] at h1
      simp only [List.flatMap_cons, withNames, List.map_append] at h1 ⊢
      rw [h1, ih h]
      rfl
    · simp [updateElems, hu] at h

theorem fp_keeps (e : FpEdit F) (h : e.Wireless) (m : Fp.Module F) : wires (e.run m) = wires m := by
  have via : ∀ f : Fp.Elem F → Fp.Elem F, (∀ r x, wire r (f x) = wire r x) → (∀ x, desig (f x) = desig x) →
      wires { m with elements := m.elements.map f } = wires m := by
    intro f hf hg
    have e1 : (Fp.Module.mk m.name (m.elements.map f) : Fp.Module F).getReference = m.getReference := by
      refine (desig_eq _ _).trans (Eq.trans ?_ (desig_eq m.name _).symm)
      rw [List.findSome?_map]
      congr 1
      funext x
      exact hg x
    rw [wires_eq, wires_eq, e1]
    simp only [padWires, List.filterMap_map]
    congr 1
    funext x
    exact hf _ x
  cases e with
  | flip => exact via _ (fun r x => by cases x <;> rfl) fun x => by cases x <;> rfl
  | rotate a => exact via _ (fun r x => by cases x <;> rfl) fun x => by cases x <;> rfl
  | move x y => exact via _ (fun r x => by cases x <;> rfl) fun x => by cases x <;> rfl
  | _ => exact h.elim

theorem fps_keep (es : List (FpEdit F)) (h : ∀ e ∈ es, e.Wireless) : ∀ m : Fp.Module F, wires (runFp es m) = wires m := by
  induction es with
  | nil => exact fun _ => rfl
  | cons e es ih =>
    rw [List.forall_mem_cons] at h
    exact fun m => (ih h.2 (e.run m)).trans (fp_keeps e h.1 m)

end Netlist

/-- An update that accepts every name changes the names in the netlist one by one and nothing else in it. -/
theorem C133_update (l : Layout F) (u : Update) (h : ∀ n ∈ layoutNames l, (u n).2 = none) :
    netlist (l.updateNetNames u).1 = withNames (fun n => (u n).1) (netlist l) := by
  have h' := (C38_fails_iff l u).2 h
  rw [Netlist.eq, Netlist.eq]
  simp only [Layout.updateNetNames] at h' ⊢
  exact Netlist.elems_ok u l.elements h'

/-- Renaming a net renames it in the netlist. -/
theorem C133_rename (l l' : Layout F) (old new : Str) (h : l.changeNetName old new = .ok l') :
    netlist l' = withNames (fun n => if n = old then new else n) (netlist l) := by
  have h1 := C133_update l (fun n => (rename n old new, none)) fun _ _ => rfl
  simp only [Layout.changeNetName] at h
  rcases hu : l.updateNetNames fun n => (rename n old new, none) with ⟨a, _ | x⟩
  · rw [hu] at h h1
    cases h
    exact h1
  · rw [hu] at h; cases h

/-- With other names the same pads are connected exactly if no two names in use become one. -/
theorem C133_connected (g : Str → Str) (t : List (Option Str × Str × Str)) :
    (∀ i j, SameNet (withNames g t) i j ↔ SameNet t i j) ↔
      ∀ a b, InUse t a → InUse t b → g a = g b → a = b := by
  have hget : ∀ i, (withNames g t)[i]? = t[i]?.map fun w : Option Str × Str × Str => (w.1, w.2.1, g w.2.2) := fun i => List.getElem?_map ..
  constructor
  · rintro h a b ⟨v, hv, rfl⟩ ⟨w, hw, rfl⟩ hg
    obtain ⟨i, hi, rfl⟩ := List.mem_iff_getElem.1 hv
    obtain ⟨j, hj, rfl⟩ := List.mem_iff_getElem.1 hw
    obtain ⟨x, y, hx, hy, hxy⟩ := (h i j).1 ⟨_, _, by rw [hget, List.getElem?_eq_getElem hi]; rfl,
      by rw [hget, List.getElem?_eq_getElem hj]; rfl, hg⟩
    rw [List.getElem?_eq_getElem hi] at hx
    rw [List.getElem?_eq_getElem hj] at hy
    cases hx; cases hy
    exact hxy
  · intro h i j
    constructor
    · rintro ⟨a, b, ha, hb, hab⟩
      rw [hget, Option.map_eq_some_iff] at ha hb
      obtain ⟨x, hx, rfl⟩ := ha
      obtain ⟨y, hy, rfl⟩ := hb
      exact ⟨x, y, hx, hy, h _ _ ⟨x, List.mem_of_getElem? hx, rfl⟩ ⟨y, List.mem_of_getElem? hy, rfl⟩ hab⟩
    · rintro ⟨a, b, ha, hb, hab⟩
      refine ⟨(a.1, a.2.1, g a.2.2), (b.1, b.2.1, g b.2.2), ?_, ?_, congrArg g hab⟩
      · rw [hget, ha]; rfl
      · rw [hget, hb]; rfl

/-- Renaming a net keeps what is connected exactly if it does not join two nets that are in use. -/
theorem C133_rename_connected (l l' : Layout F) (old new : Str) (h : l.changeNetName old new = .ok l') :
    (∀ i j, SameNet (netlist l') i j ↔ SameNet (netlist l) i j) ↔
      (old = new ∨ ¬ InUse (netlist l) old ∨ ¬ InUse (netlist l) new) := by
  rw [C133_rename l l' old new h, C133_connected]
  constructor
  · intro h1
    by_cases h2 : old = new
    · exact Or.inl h2
    · by_cases h3 : InUse (netlist l) old
      · by_cases h4 : InUse (netlist l) new
        · refine absurd (h1 old new h3 h4 ?_) h2
          rw [if_pos rfl]
          split <;> rfl
        · exact Or.inr (Or.inr h4)
      · exact Or.inr (Or.inl h3)
  · rintro h1 a b ha hb hab
    by_cases ea : a = old <;> by_cases eb : b = old
    · rw [ea, eb]
    · rw [if_pos ea, if_neg eb] at hab
      subst ea hab
      rcases h1 with h1 | h1 | h1
      · exact h1
      · exact absurd ha h1
      · exact absurd hb h1
    · rw [if_neg ea, if_pos eb] at hab
      subst eb hab
      rcases h1 with h1 | h1 | h1
      · exact h1.symm
      · exact absurd hb h1
      · exact absurd ha h1
    · rwa [if_neg ea, if_neg eb] at hab

/-- Two nets are exchanged by way of a name that is not in use. -/
theorem C133_swap (l l1 l2 l3 : Layout F) (a b t : Str) (ha : t ≠ a) (hb : t ≠ b) (ht : ¬ InUse (netlist l) t)
    (h1 : l.changeNetName a t = .ok l1) (h2 : l1.changeNetName b a = .ok l2) (h3 : l2.changeNetName t b = .ok l3) :
    netlist l3 = withNames (fun n => if n = a then b else if n = b then a else n) (netlist l) ∧
    ∀ i j, SameNet (netlist l3) i j ↔ SameNet (netlist l) i j := by
  have e : netlist l3 = withNames (fun n => if n = a then b else if n = b then a else n) (netlist l) := by
    rw [C133_rename l2 l3 t b h3, C133_rename l1 l2 b a h2, C133_rename l l1 a t h1]
    simp only [withNames, List.map_map]
    refine List.map_congr_left fun w hw => ?_
    have hn : w.2.2 ≠ t := fun e => ht ⟨w, hw, e⟩
    simp only [Function.comp_apply]
    congr 2
    by_cases e1 : w.2.2 = a
    · simp [e1, hb]
    · by_cases e2 : w.2.2 = b
      · have e3 : ¬ b = a := fun e => e1 (e2.trans e)
        simp [e2, e3, Ne.symm ha]
      · simp [e1, e2, hn]
  refine ⟨e, ?_⟩
  rw [e, C133_connected]
  intro x y _ _ hxy
  by_cases x1 : x = a <;> by_cases x2 : x = b <;> by_cases y1 : y = a <;> by_cases y2 : y = b <;> simp_all

/-- Calls that have nothing to do with wires leave the netlist as it is. -/
theorem C133_session (edits : List (BoardEdit F)) (h : ∀ e ∈ edits, e.Wireless) (l l' : Layout F)
    (hr : runBoard edits l = .ok l') : netlist l' = netlist l := by
  have one : ∀ (e : BoardEdit F) (l l' : Layout F), e.Wireless → e.run l = .ok l' → netlist l' = netlist l := by
    intro e l l' he hr
    rw [Netlist.eq, Netlist.eq]
    cases e with
    | move x y =>
      cases hr
      simp only [Layout.adjust, List.flatMap_map]
      congr 1
      funext e
      cases e with
      | module_ m => exact Netlist.fp_keeps (.move x y) trivial m
      | _ => rfl
    | renameNet a b => exact he.elim
    | addNet n name => cases hr; simp [Layout.addNet, Netlist.ofElem]
    | addNetclass nc => cases hr; simp [Layout.addNetclass, Netlist.ofElem]
    | setSetup n v => cases hr; rfl
    | editModule r es =>
      simp only [BoardEdit.run, Layout.modifyModule] at hr
      cases hm : modifyModuleIn r (runFp es) l.elements with
      | none => rw [hm] at hr; cases hr
      | some es' =>
        rw [hm] at hr
        cases hr
        obtain ⟨a, m, b, e1, e2⟩ := Lay.modifyModuleIn_split r _ _ _ hm
        rw [e1, e2]
        simp [Netlist.ofElem, Netlist.fps_keep es he]
    | append e =>
      cases hr
      cases e with
      | module_ m => exact absurd rfl (he m)
      | _ => simp [Netlist.ofElem]
  induction edits generalizing l with
  | nil => cases hr; rfl
  | cons e es ih =>
    rw [List.forall_mem_cons] at h
    rw [runBoard] at hr
    cases h1 : e.run l with
    | ok l1 => rw [h1] at hr; exact (ih h.2 l1 hr).trans (one e l l1 h.1 h1)
    | err x => rw [h1] at hr; exact ih h.2 l hr
    | panic => rw [h1] at hr; cases hr
    | diverge => rw [h1] at hr; cases hr

/-- Replacing a block in all net names keeps what is connected exactly if no two names in use become one, which
happens when the new block has a net of the same name already. -/
theorem C133_block (l : Layout F) (a b : Str) :
    (∀ i j, SameNet (netlist (l.updateNetNames fun n => (replaceBlock n a b, none)).1) i j ↔ SameNet (netlist l) i j) ↔
      ∀ m n, InUse (netlist l) m → InUse (netlist l) n → replaceBlock m a b = replaceBlock n a b → m = n := by
  rw [C133_update l (fun n => (replaceBlock n a b, none)) fun _ _ => rfl, C133_connected]

example : replaceBlock (str! "/amp/OUT") (str! "amp") (str! "filter") =
    replaceBlock (str! "/filter/OUT") (str! "amp") (str! "filter") := by decide +kernel

/-- Fixing a footprint keeps its wires and replaces its designator by `REF**`. -/
theorem C133_fix (m : Fp.Module F) (cfg : Config F) :
    wires (m.fix cfg) = (wires m).map fun w => (w.1.map fun _ => str! "REF**", w.2) := by
  have e : (m.fix cfg).getReference = m.getReference.map fun _ => str! "REF**" := by
    simp only [Fp.Module.getReference, Fp.getText_fix, if_true, Option.map_map]
    rfl
  simp only [wires, Fp.pads_fix, e, List.map_filterMap, Option.map_map]
  rfl

/-! ### Cases -/

/-- A part with two pads. -/
def Netlist.part (r a b : Str) : Fp.Module Nm :=
  ⟨str! "R_0603", [.text (Fp.FpText.new (str! "reference") r),
    .pad { (Fp.Pad.new (str! "1") .smd .rect : Fp.Pad Nm) with net := some ⟨1, a⟩ },
    .pad { (Fp.Pad.new (str! "2") .smd .rect : Fp.Pad Nm) with net := some ⟨2, b⟩ }]⟩

/-- A board with two parts. -/
def Netlist.board : Layout Nm :=
  { (Layout.dflt : Layout Nm) with elements := [.module_ (Netlist.part (str! "R1") (str! "VCC") (str! "OUT")),
      .module_ (Netlist.part (str! "R2") (str! "OUT") (str! "GND"))] }

theorem Netlist.board_eq : netlist Netlist.board = [(some (str! "R1"), str! "1", str! "VCC"),
    (some (str! "R1"), str! "2", str! "OUT"), (some (str! "R2"), str! "1", str! "OUT"),
    (some (str! "R2"), str! "2", str! "GND")] := by decide +kernel

/-- Renaming a net to one that is in use is a short circuit. -/
theorem C133_short : ∃ (l l' : Layout Nm) (a b : Str), l.changeNetName a b = .ok l' ∧
    ¬ SameNet (netlist l) 0 3 ∧ SameNet (netlist l') 0 3 := by
  obtain ⟨l', h⟩ : ∃ l', Netlist.board.changeNetName (str! "VCC") (str! "GND") = .ok l' := ⟨_, Lay.changeNetName_eq _ _ _⟩
  refine ⟨_, l', _, _, h, ?_, ?_⟩
  · rintro ⟨a, b, ha, hb, hab⟩
    rw [Netlist.board_eq] at ha hb
    cases ha; cases hb
    exact absurd hab (by decide)
  · rw [C133_rename _ _ _ _ h, Netlist.board_eq]
    exact ⟨_, _, rfl, rfl, by decide⟩

/-- Fixing a part on a board makes it impossible to find. -/
theorem C133_fix_lost : ∃ (l l' : Layout Nm) (cfg : Config Nm), l.modifyModule (str! "R1") (fun m => m.fix cfg) = .ok l' ∧
    l'.getModule (str! "R1") = none ∧ l'.getModule (str! "REF**") ≠ none := by
  let m : Fp.Module Nm := (Netlist.part (str! "R1") (str! "VCC") (str! "OUT")).fix Config.klc
  refine ⟨Netlist.board, { Netlist.board with elements := [.module_ m,
    .module_ (Netlist.part (str! "R2") (str! "OUT") (str! "GND"))] }, Config.klc, ?_, by decide +kernel, by decide +kernel⟩
  obtain ⟨a, b, h1, h2, h3⟩ := (C42_modify Netlist.board (str! "R1") (fun m => m.fix Config.klc)).1
    (Netlist.part (str! "R1") (str! "VCC") (str! "OUT")) (by decide +kernel)
  rw [h3]
  cases a with
  | nil => cases h1; rfl
  | cons x a =>
    have hx : Elem.module_ (Netlist.part (str! "R1") (str! "VCC") (str! "OUT")) = x := (List.cons.inj h1).1
    exact absurd ⟨_, hx.symm, (Lay.isReference_iff _ _).1 (by decide +kernel)⟩ (h2 x (List.mem_cons_self ..))

example : ¬ InUse (netlist Netlist.board) (str! "tmp") := by
  rintro ⟨w, hw, h⟩
  rw [Netlist.board_eq] at hw
  revert w
  decide

example : BoardEdit.Wireless (.editModule (str! "R1") [.flip, .rotate (Flt.zero : Nm)] : BoardEdit Nm) := by
  intro e he
  simp only [List.mem_cons, List.not_mem_nil, or_false] at he
  rcases he with rfl | rfl <;> trivial

end Verif
