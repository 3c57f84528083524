import Verif.Props.C133
import Verif.Props.C40
import Verif.Props.C37
/-!
# C135: automatic net names follow the parts they are named after

A part gets another designator with `modify_module` and `set_reference`; a closure given to
`update_net_names` carries the change over to the automatic net names with `is_unnamed_net` and
`set_unnamed_net`.  Together they keep the board consistent; a single pass can exchange designators and
passes combine; what is connected stays connected as long as the names have nothing after the closing
parenthesis, no two designators become one and the new ones contain none of `-`, `(` and `)`.
-/

namespace Verif
open Flt Spec Lay

set_option linter.unusedSectionVars false

variable {F : Type} [Flt F]

/-- The automatic name of a net after a pin of a part. -/
def Spec.autoName (r d : Str) : Str := str! "Net-(" ++ r ++ str! "-" ++ d ++ str! ")"

/-- The closure `|n| if let Some((r, _)) = n.is_unnamed_net() { n.set_unnamed_net(&new(r)) } else { Ok(()) }`
(src/layout/data.rs 904-925), as given to `update_net_names`. -/
def Spec.follow (ρ : Str → Str) : Update := fun n =>
  match isUnnamedNet n with
  | none => (n, none)
  | some (r, _) =>
    match setUnnamedNet n (ρ r) with
    | .ok n' => (n', none)
    | .err e => (n, some e)
    | .panic => (n, none)
    | .diverge => (n, none)

/-- Nothing follows the closing parenthesis and the separators are the usual ones. -/
def Spec.StandardName (n : Str) : Prop := ∀ r d, isUnnamedNet n = some (r, d) → n = autoName r d

/-- A net in use is named after this part. -/
def Spec.NamesPart (t : List (Option Str × Str × Str)) (r : Str) : Prop :=
  ∃ n d, InUse t n ∧ NoSep r ∧ NoSep d ∧ n = autoName r d

/-- Every net with an automatic name has the pad that it is named after. -/
def Spec.WellNamed (t : List (Option Str × Str × Str)) : Prop :=
  ∀ r d, NoSep r → NoSep d → InUse t (autoName r d) →
    ∃ p, d = str! "Pad" ++ p ∧ (some r, p, autoName r d) ∈ t

namespace Auto

theorem recognised (r d : Str) (hr : NoSep r) (hd : NoSep d) : isUnnamedNet (autoName r d) = some (r, d) :=
  (C40_recognised_iff _ _ _).2 ⟨'-', ')', [], by simp [isSep], by simp [isSep], hr, hd, by simp [NoSep], by
    simp [autoName]⟩

theorem noSep {n r d : Str} (h : isUnnamedNet n = some (r, d)) : NoSep r ∧ NoSep d := by
  obtain ⟨_, _, _, _, _, hr, hd, _⟩ := (C40_recognised_iff _ _ _).1 h
  exact ⟨hr, hd⟩

theorem follow_none (ρ : Str → Str) (n : Str) (h : isUnnamedNet n = none) : follow ρ n = (n, none) := by
  simp only [follow, h]

theorem follow_some (ρ : Str → Str) (n r d : Str) (h : isUnnamedNet n = some (r, d)) :
    follow ρ n = (autoName (ρ r) d, none) := by
  simp only [follow, h, setUnnamedNet]
  rfl

theorem follow_ok (ρ : Str → Str) (n : Str) : (follow ρ n).2 = none := by
  cases h : isUnnamedNet n with
  | none => rw [follow_none ρ n h]
  | some x => rw [follow_some ρ n x.1 x.2 h]

/-- How many separators there are. -/
def seps (s : Str) : Nat := s.countP fun c => c == '-' || c == '(' || c == ')'

theorem seps_zero {s : Str} : seps s = 0 ↔ NoSep s := by
  simp only [seps, List.countP_eq_zero, NoSep, Lay.sep_true]

theorem seps_append (a b : Str) : seps (a ++ b) = seps a + seps b := List.countP_append ..

theorem seps_one {c : Char} (h : isSep c) : seps [c] = 1 := by
  rcases h with rfl | rfl | rfl <;> decide

end Auto

/-- The closure never fails.  It puts the new designator in the automatic names and leaves other names as
they are. -/
theorem C135_names (ρ : Str → Str) (n : Str) :
    (follow ρ n).2 = none ∧
    (∀ r d, NoSep r → NoSep d → n = autoName r d → (follow ρ n).1 = autoName (ρ r) d) ∧
    (isUnnamedNet n = none → (follow ρ n).1 = n) := by
  refine ⟨Auto.follow_ok ρ n, ?_, fun h => by rw [Auto.follow_none ρ n h]⟩
  rintro r d hr hd rfl
  rw [Auto.follow_some ρ _ r d (Auto.recognised r d hr hd)]

/-- A pass over a board succeeds, changes the names of its nets one by one and nothing else. -/
theorem C135_pass (l : Layout F) (ρ : Str → Str) :
    (l.updateNetNames (follow ρ)).2 = none ∧
    layoutNames (l.updateNetNames (follow ρ)).1 = (layoutNames l).map (fun n => (follow ρ n).1) ∧
    eraseLayoutNames (l.updateNetNames (follow ρ)).1 = eraseLayoutNames l ∧
    netlist (l.updateNetNames (follow ρ)).1 = withNames (fun n => (follow ρ n).1) (netlist l) := by
  have h : ∀ n ∈ layoutNames l, (follow ρ n).2 = none := fun n _ => Auto.follow_ok ρ n
  obtain ⟨h1, h2, h3⟩ := C38_update_all l (follow ρ) h
  exact ⟨(C38_fails_iff l (follow ρ)).2 h, h2, h3, C133_update l (follow ρ) h⟩

/-- Two passes are one with both changes. -/
theorem C135_passes (l : Layout F) (ρ σ : Str → Str) (h : ∀ r, NoSep r → NoSep (ρ r)) :
    ((l.updateNetNames (follow ρ)).1.updateNetNames (follow σ)).1 = (l.updateNetNames (follow fun r => σ (ρ r))).1 := by
  have one : ∀ n, (follow σ (follow ρ n).1).1 = (follow (fun r => σ (ρ r)) n).1 := by
    intro n
    cases hn : isUnnamedNet n with
    | none => rw [Auto.follow_none _ _ hn, Auto.follow_none _ _ hn, Auto.follow_none _ _ hn]
    | some x =>
      obtain ⟨hr, hd⟩ := Auto.noSep hn
      rw [Auto.follow_some _ _ _ _ hn, Auto.follow_some _ _ _ _ hn,
        Auto.follow_some _ _ _ _ (Auto.recognised _ _ (h _ hr) hd)]
  obtain ⟨_, a2, a3, _⟩ := C135_pass l ρ
  obtain ⟨_, b2, b3, _⟩ := C135_pass (l.updateNetNames (follow ρ)).1 σ
  obtain ⟨_, c2, c3, _⟩ := C135_pass l fun r => σ (ρ r)
  refine C37_names_and_rest_determine _ _ (b3.trans (a3.trans c3.symm)) ?_
  rw [b2, a2, c2, List.map_map]
  exact List.map_congr_left fun n _ => one n

/-- What is connected stays connected, and nothing else gets connected, if the automatic names are standard
names and no two designators they are named after become one. -/
theorem C135_connected (l : Layout F) (ρ : Str → Str) (hs : ∀ n, InUse (netlist l) n → StandardName n)
    (hn : ∀ r, NamesPart (netlist l) r → NoSep (ρ r))
    (hi : ∀ r s, NamesPart (netlist l) r → NamesPart (netlist l) s → ρ r = ρ s → r = s) :
    ∀ i j, SameNet (netlist (l.updateNetNames (follow ρ)).1) i j ↔ SameNet (netlist l) i j := by
  rw [(C135_pass l ρ).2.2.2, C133_connected]
  intro a b ha hb hab
  cases ea : isUnnamedNet a with
  | none =>
    cases eb : isUnnamedNet b with
    | none => rwa [Auto.follow_none _ _ ea, Auto.follow_none _ _ eb] at hab
    | some y =>
      obtain ⟨hr, hd⟩ := Auto.noSep eb
      rw [Auto.follow_none _ _ ea, Auto.follow_some _ _ _ _ eb] at hab
      rw [show a = _ from hab, Auto.recognised _ _ (hn _ ⟨b, y.2, hb, hr, hd, hs b hb _ _ eb⟩) hd] at ea
      cases ea
  | some x =>
    obtain ⟨hr, hd⟩ := Auto.noSep ea
    have hx := hn _ ⟨a, x.2, ha, hr, hd, hs a ha _ _ ea⟩
    cases eb : isUnnamedNet b with
    | none =>
      rw [Auto.follow_none _ _ eb, Auto.follow_some _ _ _ _ ea] at hab
      rw [show b = _ from hab.symm, Auto.recognised _ _ hx hd] at eb
      cases eb
    | some y =>
      obtain ⟨hr', hd'⟩ := Auto.noSep eb
      have hy := hn _ ⟨b, y.2, hb, hr', hd', hs b hb _ _ eb⟩
      rw [Auto.follow_some _ _ _ _ ea, Auto.follow_some _ _ _ _ eb] at hab
      have h1 := Auto.recognised _ _ hx hd
      rw [show autoName (ρ x.1) x.2 = autoName (ρ y.1) y.2 from hab, Auto.recognised _ _ hy hd'] at h1
      have h2 := Option.some.inj h1
      have e1 : ρ y.1 = ρ x.1 := (Prod.mk.inj h2).1
      have e2 : y.2 = x.2 := (Prod.mk.inj h2).2
      rw [hs a ha _ _ ea, hs b hb _ _ eb, e2, hi _ _ ⟨b, y.2, hb, hr', hd', hs b hb _ _ eb⟩
        ⟨a, x.2, ha, hr, hd, hs a ha _ _ ea⟩ e1]

/-- A designator with one of the separators in it makes a name that is not recognised any more: it never follows
its part again. -/
theorem C135_separator (r d : Str) (h : ¬ NoSep r) : isUnnamedNet (autoName r d) = none := by
  cases e : isUnnamedNet (autoName r d) with
  | none => rfl
  | some x =>
    obtain ⟨s1, s2, rest, h1, h2, hr, hd, hx, e2⟩ := (C40_recognised_iff _ x.1 x.2).1 e
    have e3 := congrArg Auto.seps e2
    have h0 : Auto.seps r ≠ 0 := fun e => h (Auto.seps_zero.1 e)
    simp only [autoName, Auto.seps_append, Auto.seps_one h1, Auto.seps_one h2, Auto.seps_zero.2 hr, Auto.seps_zero.2 hd,
      Auto.seps_zero.2 hx] at e3
    have e4 : Auto.seps (str! "-") = 1 := by decide
    have e5 : Auto.seps (str! ")") = 1 := by decide
    omega

namespace Auto

/-- A designator for another. -/
def swapRef (r s : Str) (x : Str) : Str := if x = r then s else x

theorem desig_set (r s : Str) (es : List (Fp.Elem F)) :
    (es.map (Fp.Module.setReferenceElem r s)).findSome? Netlist.desig = (es.findSome? Netlist.desig).map (swapRef r s) := by
  induction es with
  | nil => rfl
  | cons e es ih =>
    cases e with
    | text t =>
      by_cases h1 : t.name = str! "reference"
      · by_cases h2 : t.value = r
        · simp [Fp.Module.setReferenceElem, Netlist.desig, h1, h2, swapRef]
        · simp [Fp.Module.setReferenceElem, Netlist.desig, h1, h2, swapRef]
      · simp [Fp.Module.setReferenceElem, Netlist.desig, h1, ih]
    | _ => exact ih

theorem wires_set (r s : Str) (m : Fp.Module F) :
    wires (m.setReference r s) = (wires m).map fun w => (w.1.map (swapRef r s), w.2) := by
  have e1 : (m.setReference r s).getReference = m.getReference.map (swapRef r s) := by
    have h1 := Netlist.desig_eq m.name (m.elements.map (Fp.Module.setReferenceElem r s))
    have h2 := Netlist.desig_eq m.name m.elements
    rw [desig_set, ← h2] at h1
    exact h1
  rw [Netlist.wires_eq, Netlist.wires_eq, e1]
  generalize m.getReference = o
  simp only [Fp.Module.setReference, Netlist.padWires, List.filterMap_map, List.map_filterMap]
  congr 1
  funext x
  cases x with
  | text t => simp only [Function.comp_apply, Fp.Module.setReferenceElem]; split <;> rfl
  | pad p => simp [Fp.Module.setReferenceElem, Netlist.wire, Function.comp_def]
  | _ => rfl

theorem wires_other (r s : Str) (m : Fp.Module F) (h : m.isReferenceWithName r = false) :
    (wires m).map (fun w => (w.1.map (swapRef r s), w.2)) = wires m := by
  have hn : m.getReference ≠ some r := by
    intro e
    simp only [Fp.Module.getReference, Option.map_eq_some_iff, Fp.Module.getText] at e
    obtain ⟨t, ht, rfl⟩ := e
    obtain ⟨x, hx, e⟩ := List.exists_of_findSome?_eq_some ht
    cases x with
    | text u =>
      simp only at e
      split at e
      · rename_i hu
        cases e
        have := (Lay.isReference_iff t.value m).2 ⟨t, hx, hu, rfl⟩
        rw [h] at this
        cases this
      · cases e
    | _ => cases e
  rw [Netlist.wires_eq]
  simp only [Netlist.padWires, List.map_filterMap]
  congr 1
  funext x
  cases x with
  | pad p =>
    simp only [Netlist.wire, Option.map_map, Function.comp_def]
    congr 1
    funext n
    congr 1
    cases hm : m.getReference with
    | none => rfl
    | some y =>
      have : y ≠ r := fun e => hn (by rw [hm, e])
      simp [swapRef, this]
  | _ => rfl

theorem modify (l l1 : Layout F) (r s : Str) (h1 : (l.getModules.filter fun m => m.isReferenceWithName r).length ≤ 1)
    (h : l.modifyModule r (fun m => m.setReference r s) = .ok l1) :
    netlist l1 = (netlist l).map fun w => (w.1.map (swapRef r s), w.2) := by
  cases hg : l.getModule r with
  | none => rw [(C42_modify l r _).2 hg] at h; cases h
  | some m =>
    obtain ⟨a, b, e1, e2, e3⟩ := (C42_modify l r fun m => m.setReference r s).1 m hg
    rw [e3] at h
    cases h
    have hm := ((C42_get_first l r m).1 hg).1
    have hm' := (Lay.isReference_iff r m).2 hm
    have out : ∀ es : List (Elem F), (∀ e ∈ es, ¬ IsModule r e) →
        (es.flatMap Netlist.ofElem).map (fun w => (w.1.map (Auto.swapRef r s), w.2)) = es.flatMap Netlist.ofElem := by
      intro es hes
      induction es with
      | nil => rfl
      | cons x es ih =>
        rw [List.forall_mem_cons] at hes
        rw [List.flatMap_cons, List.map_append, ih hes.2]
        congr 1
        cases x with
        | module_ k =>
          refine Auto.wires_other r s k ?_
          cases hk : k.isReferenceWithName r with
          | false => rfl
          | true => exact absurd ⟨k, rfl, (Lay.isReference_iff r k).1 hk⟩ hes.1
        | _ => rfl
    have hb : ∀ e ∈ b, ¬ IsModule r e := by
      rintro e he ⟨k, rfl, hk⟩
      have hk' := (Lay.isReference_iff r k).2 hk
      have split : l.getModules = Layout.getModules { l with elements := a } ++ m :: Layout.getModules { l with elements := b } := by
        simp [Layout.getModules, e1]
      rw [split, List.filter_append, List.filter_cons, hm', if_pos rfl, List.length_append, List.length_cons] at h1
      have h2 : k ∈ (Layout.getModules { l with elements := b }).filter fun m => m.isReferenceWithName r :=
        List.mem_filter.2 ⟨List.mem_filterMap.2 ⟨_, he, rfl⟩, hk'⟩
      have h3 := List.length_pos_of_mem h2
      omega
    rw [Netlist.eq, Netlist.eq, e1]
    simp only [List.flatMap_append, List.flatMap_cons, List.map_append, Netlist.ofElem, Auto.wires_set]
    rw [out a e2, out b hb]

end Auto

/-- Giving a part another designator and letting the net names follow: if no second part has the designator, the
netlist is what it was with the new designator for the old one, in front and in the net names. -/
theorem C135_renumber (l l1 : Layout F) (r s : Str)
    (h1 : (l.getModules.filter fun m => m.isReferenceWithName r).length ≤ 1)
    (h : l.modifyModule r (fun m => m.setReference r s) = .ok l1) :
    netlist (l1.updateNetNames (follow fun x => if x = r then s else x)).1 =
      (netlist l).map fun w => (w.1.map (fun x => if x = r then s else x), w.2.1,
        (follow (fun x => if x = r then s else x) w.2.2).1) := by
  rw [(C135_pass l1 _).2.2.2, Auto.modify l l1 r s h1 h, withNames, List.map_map]
  rfl

/-- On a board whose automatic nets have the pads that they are named after, that is so afterwards. -/
theorem C135_consistent (l l1 : Layout F) (r s : Str)
    (h1 : (l.getModules.filter fun m => m.isReferenceWithName r).length ≤ 1) (hs : NoSep s)
    (hst : ∀ n, InUse (netlist l) n → StandardName n)
    (h : l.modifyModule r (fun m => m.setReference r s) = .ok l1) (hw : WellNamed (netlist l)) :
    WellNamed (netlist (l1.updateNetNames (follow fun x => if x = r then s else x)).1) := by
  rw [C135_renumber l l1 r s h1 h]
  rintro x d hx hd ⟨w, hm, e⟩
  obtain ⟨v, hv, rfl⟩ := List.mem_map.1 hm
  cases ev : isUnnamedNet v.2.2 with
  | none =>
    rw [Auto.follow_none _ _ ev] at e
    rw [show v.2.2 = _ from e, Auto.recognised _ _ hx hd] at ev
    cases ev
  | some y =>
    obtain ⟨hy, hd'⟩ := Auto.noSep ev
    have hst' := hst _ ⟨v, hv, rfl⟩ _ _ ev
    rw [Auto.follow_some _ _ _ _ ev] at e
    have hn : NoSep (if y.1 = r then s else y.1) := by split <;> assumption
    have h2 := Auto.recognised _ _ hn hd'
    rw [show autoName (if y.1 = r then s else y.1) y.2 = autoName x d from e, Auto.recognised _ _ hx hd] at h2
    have h3 := Option.some.inj h2
    have e1 : x = if y.1 = r then s else y.1 := congrArg Prod.fst h3
    have e2 : d = y.2 := congrArg Prod.snd h3
    obtain ⟨p, hp, hq⟩ := hw y.1 y.2 hy hd' ⟨v, hv, hst'⟩
    refine ⟨p, e2.trans hp, List.mem_map.2 ⟨_, hq, ?_⟩⟩
    rw [Auto.follow_some _ _ _ _ (Auto.recognised _ _ hy hd'), e1, e2]
    rfl

/-! ### Cases -/

/-- A board with two parts and two automatic nets. -/
def Auto.board : Layout Nm :=
  { (Layout.dflt : Layout Nm) with elements := [.module_ (Netlist.part (str! "R1") (str! "Net-(R1-Pad1)") (str! "GND")),
      .module_ (Netlist.part (str! "R2") (str! "Net-(R1-Pad1)") (str! "Net-(R2-Pad2)"))] }

theorem Auto.board_eq : netlist Auto.board = [(some (str! "R1"), str! "1", str! "Net-(R1-Pad1)"),
    (some (str! "R1"), str! "2", str! "GND"), (some (str! "R2"), str! "1", str! "Net-(R1-Pad1)"),
    (some (str! "R2"), str! "2", str! "Net-(R2-Pad2)")] := by decide +kernel

/-- One pass exchanges the two designators in the net names. -/
example : (netlist Auto.board).map (fun w => (follow (fun x => if x = str! "R1" then str! "R2" else
    if x = str! "R2" then str! "R1" else x) w.2.2).1) =
    [str! "Net-(R2-Pad1)", str! "GND", str! "Net-(R2-Pad1)", str! "Net-(R1-Pad2)"] := by decide +kernel

/-- The hypotheses of the theorem on renumbering hold for the board. -/
example : (Auto.board.getModules.filter fun m => m.isReferenceWithName (str! "R1")).length ≤ 1 := by decide +kernel

example : isUnnamedNet (autoName (str! "R-1") (str! "Pad1")) = none := by decide +kernel

/-- Text after the parenthesis is dropped: nets that differ only in it are joined, although nothing gets another
designator. -/
theorem C135_tail_short : ∃ l : Layout Nm, ¬ SameNet (netlist l) 0 1 ∧
    SameNet (netlist (l.updateNetNames (follow fun x => x)).1) 0 1 := by
  let l : Layout Nm := { (Layout.dflt : Layout Nm) with elements :=
    [.module_ (Netlist.part (str! "R1") (str! "Net-(R1-Pad1)") (str! "Net-(R1-Pad1)_A"))] }
  have hl : netlist l = [(some (str! "R1"), str! "1", str! "Net-(R1-Pad1)"),
    (some (str! "R1"), str! "2", str! "Net-(R1-Pad1)_A")] := by decide +kernel
  refine ⟨l, ?_, ?_⟩
  · rintro ⟨a, b, ha, hb, hab⟩
    rw [hl] at ha hb
    cases ha; cases hb
    exact absurd hab (by decide)
  · rw [(C135_pass l _).2.2.2, hl]
    exact ⟨_, _, rfl, rfl, by decide +kernel⟩

/-- Half of it leaves net names after parts that are not there. -/
theorem C135_half : ∃ l l1 : Layout Nm, l.modifyModule (str! "R1") (fun m => m.setReference (str! "R1") (str! "R7")) = .ok l1 ∧
    WellNamed (netlist l) ∧ ¬ WellNamed (netlist l1) := by
  have h1 : (Auto.board.getModules.filter fun m => m.isReferenceWithName (str! "R1")).length ≤ 1 := by decide +kernel
  have h2 : (Auto.board.getModule (str! "R1")).isSome = true := by decide +kernel
  obtain ⟨m, hm⟩ := Option.isSome_iff_exists.1 h2
  obtain ⟨a, b, _, _, h3⟩ := (C42_modify Auto.board (str! "R1") fun m => m.setReference (str! "R1") (str! "R7")).1 m hm
  refine ⟨Auto.board, _, h3, ?_, ?_⟩
  · rintro r d hr hd ⟨w, hw, e⟩
    have hx := Auto.recognised r d hr hd
    rw [Auto.board_eq] at hw ⊢
    rw [← e] at hx ⊢
    simp only [List.mem_cons, List.not_mem_nil, or_false] at hw
    rcases hw with rfl | rfl | rfl | rfl
    · have : isUnnamedNet (str! "Net-(R1-Pad1)") = some (str! "R1", str! "Pad1") := by decide +kernel
      rw [this] at hx
      cases hx
      exact ⟨str! "1", rfl, by decide⟩
    · have : isUnnamedNet (str! "GND") = none := by decide +kernel
      rw [this] at hx
      cases hx
    · have : isUnnamedNet (str! "Net-(R1-Pad1)") = some (str! "R1", str! "Pad1") := by decide +kernel
      rw [this] at hx
      cases hx
      exact ⟨str! "1", rfl, by decide⟩
    · have : isUnnamedNet (str! "Net-(R2-Pad2)") = some (str! "R2", str! "Pad2") := by decide +kernel
      rw [this] at hx
      cases hx
      exact ⟨str! "2", rfl, by decide⟩
  · rw [Auto.modify _ _ _ _ h1 h3, Auto.board_eq]
    intro hw
    have hs : ∀ s : Str, Auto.seps s = 0 → NoSep s := fun s => Auto.seps_zero.1
    obtain ⟨p, hp, hq⟩ := hw (str! "R1") (str! "Pad1") (hs _ (by decide)) (hs _ (by decide)) ⟨_, List.mem_cons_self .., rfl⟩
    have : p = str! "1" := (List.append_cancel_left (as := str! "Pad") (bs := str! "1") hp).symm
    subst this
    revert hq
    decide

end Verif
