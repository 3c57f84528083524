import Verif.Props.C135
import Verif.Props.C126
import Verif.Props.C60
import Verif.Model.Footprint.Build
/-!
# C136: placing a footprint from a library on a board

A program reads a footprint, sets its designator with `set_reference` and the nets of its pads with
`set_net`, puts a position in front and appends the footprint to a board.  What it gets can be found, has
the wires it was given, is in its place, compares equal to what is in the library, saves and reads back,
and can be taken for another one of the same pads without changing the netlist.
-/

namespace Verif
open Flt Spec Lay

set_option linter.unusedSectionVars false

variable {F : Type} [Flt F]

/-- `if let Element::Pad(ref mut p) = *e { if let Some(n) = nets(&p.name) { p.set_net(n) } }`
(src/footprint/data.rs 1125-1127). -/
def Spec.connect (nets : Str → Option Fp.Net) : Fp.Elem F → Fp.Elem F
  | .pad p => match nets p.name with | some n => .pad (p.setNet n) | none => .pad p
  | e => e

/-- The footprint as it is placed: `m.set_reference(old, r)`, the nets of the pads, and
`m.elements.insert(0, Element::At(a))` (src/footprint/data.rs 155-165, 1125-1127). -/
def Spec.placed (lib : Fp.Module F) (a : Fp.At F) (old r : Str) (nets : Str → Option Fp.Net) : Fp.Module F :=
  { lib with elements := .at_ a :: (lib.setReference old r).elements.map (connect nets) }

/-- The board with the footprint on it: `layout.elements.push(Element::Module(m))`. -/
def Spec.put (m : Fp.Module F) (l : Layout F) : Layout F := { l with elements := l.elements ++ [.module_ m] }

/-- The net of the first pad of this name. -/
def Spec.netOf (m : Fp.Module F) (n : Str) : Option Fp.Net := (m.pads.find? fun p => decide (p.name = n)).bind (·.net)

namespace Place

theorem desig (nets : Str → Option Fp.Net) (e : Fp.Elem F) : Netlist.desig (connect nets e) = Netlist.desig e := by
  cases e with
  | pad p => simp only [connect]; split <;> rfl
  | _ => rfl

theorem reference (lib : Fp.Module F) (a : Fp.At F) (old r : Str) (nets : Str → Option Fp.Net) :
    (placed lib a old r nets).getReference = lib.getReference.map fun x => if x = old then r else x := by
  have h1 := Netlist.desig_eq lib.name (placed lib a old r nets).elements
  have h2 := Netlist.desig_eq lib.name lib.elements
  refine h1.trans (Eq.trans ?_ (congrArg (Option.map (Auto.swapRef old r)) h2.symm))
  rw [← Auto.desig_set old r]
  simp only [placed, List.findSome?_cons, Netlist.desig, Fp.Module.setReference, List.findSome?_map]
  congr 1
  funext e
  exact desig nets _

theorem carries (lib : Fp.Module F) (a : Fp.At F) (old r s : Str) (nets : Str → Option Fp.Net) :
    (placed lib a old r nets).isReferenceWithName s = true ↔
      (HasReference s lib ∧ s ≠ old) ∨ (HasReference old lib ∧ s = r) := by
  rw [Lay.isReference_iff]
  constructor
  · rintro ⟨t, ht, h1, h2⟩
    simp only [placed, Fp.Module.setReference, List.map_map, List.mem_cons, reduceCtorEq, false_or, List.mem_map,
      Function.comp_apply] at ht
    obtain ⟨e, he, e2⟩ := ht
    cases e with
    | text u =>
      by_cases hu : u.name = str! "reference" ∧ u.value = old
      · simp only [Fp.Module.setReferenceElem, hu, and_self, if_true, connect, Fp.Elem.text.injEq] at e2
        subst e2
        exact Or.inr ⟨⟨u, he, hu⟩, h2.symm⟩
      · simp only [Fp.Module.setReferenceElem, hu, if_false, connect, Fp.Elem.text.injEq] at e2
        subst e2
        exact Or.inl ⟨⟨u, he, h1, h2⟩, fun e => hu ⟨h1, h2.trans e⟩⟩
    | pad p => simp only [Fp.Module.setReferenceElem, connect] at e2; split at e2 <;> cases e2
    | _ => cases e2
  · have key : ∀ u : Fp.FpText F, .text u ∈ lib.elements → connect nets (Fp.Module.setReferenceElem old r (.text u)) ∈
        (placed lib a old r nets).elements := fun u hu =>
      List.mem_cons_of_mem _ (List.mem_map_of_mem (List.mem_map_of_mem hu))
    rintro (⟨⟨u, hu, h1, h2⟩, h3⟩ | ⟨⟨u, hu, h1, h2⟩, h3⟩)
    · have hn : ¬ (u.name = str! "reference" ∧ u.value = old) := fun e => h3 (h2.symm.trans e.2)
      have := key u hu
      simp only [Fp.Module.setReferenceElem, hn, if_false, connect] at this
      exact ⟨u, this, h1, h2⟩
    · have := key u hu
      simp only [Fp.Module.setReferenceElem, h1, h2, and_self, if_true, connect] at this
      exact ⟨_, this, rfl, h3.symm⟩

theorem wires (lib : Fp.Module F) (a : Fp.At F) (old r : Str) (nets : Str → Option Fp.Net) :
    Spec.wires (placed lib a old r nets) = lib.pads.filterMap fun p =>
      ((nets p.name).or p.net).map fun n => ((placed lib a old r nets).getReference, p.name, n.name) := by
  rw [Netlist.wires_eq]
  generalize (placed lib a old r nets).getReference = o
  simp only [placed, Netlist.padWires, List.filterMap_cons, Netlist.wire, Fp.Module.setReference, List.filterMap_map,
    Fp.Module.pads, List.filterMap_filterMap]
  congr 1
  funext e
  cases e with
  | pad p =>
    simp only [Function.comp_apply, Fp.Module.setReferenceElem, connect]
    cases h : nets p.name <;> simp [Netlist.wire, Fp.Pad.setNet, h]
  | text t =>
    simp only [Function.comp_apply, Fp.Module.setReferenceElem]
    split <;> rfl
  | _ => rfl

theorem get_append (s : Str) (es : List (Elem F)) (m : Fp.Module F) : getModuleIn s (es ++ [.module_ m]) =
    (getModuleIn s es).or (if m.isReferenceWithName s then some m else none) := by
  induction es with
  | nil => rfl
  | cons e es ih =>
    cases e with
    | module_ k =>
      by_cases h : k.isReferenceWithName s = true
      · simp [getModuleIn, h]
      · simp [getModuleIn, h, ih]
    | _ => exact ih

/-- The layer of an element that is one. -/
def layerOf : Fp.Elem F → Option Fp.Layer
  | .layer l => some l
  | _ => none

theorem isFront_eq (m : Fp.Module F) : m.isFront =
    match m.elements.findSome? layerOf with | some l => decide (l.side = .front) | none => true := rfl

end Place

/-- The new part is found under its designator, and what was found before is found still. -/
theorem C136_found (l : Layout F) (lib : Fp.Module F) (a : Fp.At F) (old r : Str) (nets : Str → Option Fp.Net)
    (ho : lib.getReference = some old) :
    (l.getModule r = none → (put (placed lib a old r nets) l).getModule r = some (placed lib a old r nets)) ∧
    (∀ s m, l.getModule s = some m → (put (placed lib a old r nets) l).getModule s = some m) ∧
    (∀ s, l.getModule s = none → ¬ HasReference s lib → s ≠ r → (put (placed lib a old r nets) l).getModule s = none) := by
  have hr : HasReference old lib := by
    simp only [Fp.Module.getReference, Option.map_eq_some_iff, Fp.Module.getText] at ho
    obtain ⟨t, ht, rfl⟩ := ho
    obtain ⟨x, hx, e⟩ := List.exists_of_findSome?_eq_some ht
    cases x with
    | text u =>
      simp only at e
      split at e
      · rename_i hu
        cases e
        exact ⟨t, hx, hu, rfl⟩
      · cases e
    | _ => cases e
  refine ⟨fun h => ?_, fun s m h => ?_, fun s h hn hs => ?_⟩
  · simp only [Layout.getModule, put, Place.get_append] at h ⊢
    rw [h, if_pos ((Place.carries lib a old r r nets).2 (Or.inr ⟨hr, rfl⟩))]
    rfl
  · simp only [Layout.getModule, put, Place.get_append] at h ⊢
    rw [h]
    rfl
  · simp only [Layout.getModule, put, Place.get_append] at h ⊢
    rw [h, if_neg]
    · rfl
    · rw [Place.carries]
      rintro (⟨h1, _⟩ | ⟨_, h1⟩)
      · exact hn h1
      · exact hs h1

/-- The netlist gets the wires that were given, behind all others; a pad for which there is none keeps its own. -/
theorem C136_netlist (l : Layout F) (lib : Fp.Module F) (a : Fp.At F) (old r : Str) (nets : Str → Option Fp.Net)
    (ho : lib.getReference = some old) :
    netlist (put (placed lib a old r nets) l) = netlist l ++ lib.pads.filterMap fun p =>
      ((nets p.name).or p.net).map fun n => (some r, p.name, n.name) := by
  rw [Netlist.eq, Netlist.eq]
  simp only [put, List.flatMap_append, List.flatMap_cons, List.flatMap_nil, List.append_nil, Netlist.ofElem]
  rw [Place.wires, Place.reference, ho]
  simp

/-- The part is where it was put and on the side that the library says. -/
theorem C136_position (lib : Fp.Module F) (a : Fp.At F) (old r : Str) (nets : Str → Option Fp.Net) :
    (placed lib a old r nets).at_ = (a.x, a.y) ∧ (placed lib a old r nets).getRotation = a.rot ∧
    (placed lib a old r nets).isFront = lib.isFront ∧ (placed lib a old r nets).name = lib.name := by
  refine ⟨rfl, rfl, ?_, rfl⟩
  rw [Place.isFront_eq, Place.isFront_eq]
  have : (placed lib a old r nets).elements.findSome? Place.layerOf = lib.elements.findSome? Place.layerOf := by
    simp only [placed, List.findSome?_cons, Place.layerOf, Fp.Module.setReference, List.findSome?_map]
    congr 1
    funext e
    cases e with
    | pad p => simp only [Function.comp_apply, Fp.Module.setReferenceElem, connect]; split <;> rfl
    | text t => simp only [Function.comp_apply, Fp.Module.setReferenceElem]; split <;> rfl
    | _ => rfl
  rw [this]

/-- But for the position it compares equal to the footprint in the library, whatever the designator and the nets, and
also after it has been moved. -/
theorem C136_like_library [EqLaws F] (lib : Fp.Module F) (a : Fp.At F) (old r : Str) (nets : Str → Option Fp.Net) :
    Matching lib { placed lib a old r nets with elements := (placed lib a old r nets).elements.tail } ∧
    ((∀ b, Fp.Elem.at_ b ∉ lib.elements) → ∀ x y,
      Matching lib { placed lib a old r nets with elements := ((placed lib a old r nets).adjust x y).elements.tail }) := by
  have one : ∀ e : Fp.Elem F, Fp.Elem.eq e (connect nets (Fp.Module.setReferenceElem old r e)) = true := by
    intro e
    cases e with
    | pad p =>
      have h1 : Fp.Module.setReferenceElem old r (.pad p) = .pad p := rfl
      rw [h1]
      simp only [connect]
      split
      · exact (Match.pad_iff p _).2 ⟨rfl, rfl, rfl, rfl, rfl, rfl, rfl, rfl, rfl, rfl, rfl, rfl, rfl⟩
      · exact Match.refl _
    | text t =>
      simp only [Fp.Module.setReferenceElem]
      split
      · rename_i h
        exact (Match.text_iff t _).2 ⟨rfl, Or.inl (Or.inl h.1)⟩
      · exact Match.refl _
    | _ => exact Match.refl _
  have all : ∀ es : List (Fp.Elem F), List.Forall₂ (fun a b => Fp.Elem.eq a b = true) es
      ((es.map (Fp.Module.setReferenceElem old r)).map (connect nets)) := by
    intro es
    induction es with
    | nil => exact .nil
    | cons e es ih => exact .cons (one e) ih
  refine ⟨⟨rfl, all lib.elements⟩, fun h x y => ⟨rfl, ?_⟩⟩
  have e1 : ((placed lib a old r nets).adjust x y).elements.tail =
      (((lib.elements.map (Fp.Module.setReferenceElem old r)).map (connect nets)).map (Fp.Module.adjustElem x y)) := rfl
  have e2 : (((lib.elements.map (Fp.Module.setReferenceElem old r)).map (connect nets)).map (Fp.Module.adjustElem x y)) =
      ((lib.elements.map (Fp.Module.setReferenceElem old r)).map (connect nets)) := by
    simp only [List.map_map]
    refine List.map_congr_left fun e he => ?_
    cases e with
    | at_ b => exact absurd he (h b)
    | pad p =>
      simp only [Function.comp_apply, Fp.Module.setReferenceElem, connect]
      split <;> rfl
    | text t =>
      simp only [Function.comp_apply, Fp.Module.setReferenceElem]
      split <;> rfl
    | _ => rfl
  show List.Forall₂ _ _ _
  rw [e1, e2]
  exact all lib.elements

/-- A board and a footprint that save and read back do so together, if the designator and the nets can be written. -/
theorem C136_saved [TextLaws F] [ZeroLaws F] (q : Str → Bool) (hq : QuotesWhenNeeded q) (level : Int) (l : Layout F) (lib : Fp.Module F) (a : Fp.At F)
    (old r : Str) (nets : Str → Option Fp.Net) (hl : SavableLayout l) (hc : CleanLayout l) (hm : GoodModule lib)
    (hr : Clean r) (hn : ∀ p ∈ lib.pads, ∀ n, nets p.name = some n → inI64 n.num ∧ Clean n.name) :
    Lay.parse (Lay.toText q level (put (placed lib a old r nets) l)) = .ok (put (placed lib a old r nets) l) := by
  have hg : GoodModule (placed lib a old r nets) := by
    refine ⟨hm.1, ?_⟩
    simp only [placed, List.forall_mem_cons]
    refine ⟨⟨trivial, fun s hs => (List.not_mem_nil hs).elim⟩, ?_⟩
    intro e he
    simp only [Fp.Module.setReference, List.map_map, List.mem_map, Function.comp_apply] at he
    obtain ⟨x, hx, rfl⟩ := he
    have h1 := hm.2 x hx
    cases x with
    | pad p =>
      have h2 : Fp.Module.setReferenceElem old r (.pad p) = .pad p := rfl
      rw [h2]
      simp only [connect]
      split
      · rename_i n hnn
        obtain ⟨⟨a1, a2, a3, a4, a5⟩, h3⟩ := h1
        obtain ⟨b1, b2⟩ := hn p (List.mem_filterMap.2 ⟨_, hx, rfl⟩) n hnn
        refine ⟨⟨a1, a2, a3, ?_, a5⟩, fun s hs => ?_⟩
        · rintro k hk
          cases hk
          exact b1
        · simp only [strings, Fp.Pad.setNet, List.mem_cons, List.mem_append, List.not_mem_nil, or_false] at hs
          rcases hs with hs | hs | hs
          · exact h3 s (by simp [strings, hs])
          · exact h3 s (by simp only [strings, List.mem_cons, List.mem_append]; exact Or.inr (Or.inl hs))
          · rw [hs]; exact b2
      · exact h1
    | text t =>
      have h2 := Fp.fine_setReference old r hr h1
      simp only [Fp.Module.setReferenceElem] at h2 ⊢
      split
      · rename_i h; rw [if_pos h] at h2; exact h2
      · exact h1
    | _ => exact h1
  have hf := (Lay.fine_module (placed lib a old r nets)).2 hg
  have := C35_layout_roundtrip q hq level (put (placed lib a old r nets) l) ⟨hl.1, hl.2.1, hl.2.2.1, hl.2.2.2.1, fun e he => by
      rcases List.mem_append.1 he with he | he
      · exact hl.2.2.2.2 e he
      · rw [List.mem_singleton.1 he]; exact hf.1⟩ ⟨hc.1, fun e he => by
      rcases List.mem_append.1 he with he | he
      · exact hc.2 e he
      · rw [List.mem_singleton.1 he]; exact hf.2⟩ [] Sexp.Text.blank_nil
  rwa [List.append_nil] at this

/-- Taking a part for one of the same pads from the library, with its designator and with the net of the pad of the
same name for each pad, keeps its wires: if the library has no nets and pads of one name are on one net. -/
theorem C136_exchange (m lib : Fp.Module F) (a : Fp.At F) (old r : Str) (hm : m.getReference = some r)
    (ho : lib.getReference = some old) (hp : lib.pads.map (·.name) = m.pads.map (·.name))
    (hl : ∀ p ∈ lib.pads, p.net = none) (hs : ∀ p ∈ m.pads, ∀ q ∈ m.pads, p.name = q.name → p.net = q.net) :
    wires (placed lib a old r (netOf m)) = wires m := by
  rw [Place.wires, Place.reference, ho]
  simp only [Option.map_some, if_true]
  have e1 : (lib.pads.filterMap fun p => ((netOf m p.name).or p.net).map fun n => (some r, p.name, n.name)) =
      (lib.pads.map (·.name)).filterMap fun x => (netOf m x).map fun n => (some r, x, n.name) := by
    rw [List.filterMap_map]
    refine List.filterMap_congr fun p hpp => ?_
    simp [hl p hpp]
  rw [e1, hp, List.filterMap_map, wires, hm]
  refine List.filterMap_congr fun p hpp => ?_
  have e2 : netOf m p.name = p.net := by
    cases hf : m.pads.find? fun q => decide (q.name = p.name) with
    | none =>
      have := List.find?_eq_none.1 hf p hpp
      simp at this
    | some q =>
      have h1 := List.mem_of_find?_eq_some hf
      have h2 : q.name = p.name := by simpa using List.find?_some hf
      simp only [netOf, hf, Option.bind_some]
      exact hs q h1 p hpp h2
  simp only [Function.comp_apply, e2]

/-! ### Cases -/

/-- A footprint as it is in a library. -/
def Place.resistor : Fp.Module Nm :=
  ⟨str! "R_0603", [.layer ⟨.front, .cu⟩, .text (Fp.FpText.new (str! "reference") (str! "REF**")),
    .pad (Fp.Pad.new (str! "1") .smd .rect), .pad (Fp.Pad.new (str! "2") .smd .rect)]⟩

/-- The nets of its pads. -/
def Place.nets : Str → Option Fp.Net
  | ['1'] => some ⟨1, str! "VCC"⟩
  | _ => none

example : Place.resistor.getReference = some (str! "REF**") := by decide +kernel

example : netlist (put (placed Place.resistor (Fp.At.dflt) (str! "REF**") (str! "R3") Place.nets) Netlist.board) =
    netlist Netlist.board ++ [(some (str! "R3"), str! "1", str! "VCC")] := by decide +kernel

example : Netlist.board.getModule (str! "R3") = none := by decide +kernel

/-- A part that is exchanged for the one in the library. -/
example : let m := Netlist.part (str! "R1") (str! "VCC") (str! "OUT")
    m.getReference = some (str! "R1") ∧ Place.resistor.pads.map (·.name) = m.pads.map (·.name) ∧
    wires (placed Place.resistor Fp.At.dflt (str! "REF**") (str! "R1") (netOf m)) = wires m := by decide +kernel

/-- When pads of one name are on different nets, exchanging the part changes the netlist. -/
theorem C136_exchange_changes : ∃ (m lib : Fp.Module Nm) (a : Fp.At Nm) (old r : Str), m.getReference = some r ∧
    lib.getReference = some old ∧ lib.pads.map (·.name) = m.pads.map (·.name) ∧ (∀ p ∈ lib.pads, p.net = none) ∧
    wires (placed lib a old r (netOf m)) ≠ wires m := by
  refine ⟨⟨str! "X", [.text (Fp.FpText.new (str! "reference") (str! "J1")),
      .pad { (Fp.Pad.new (str! "1") .smd .rect : Fp.Pad Nm) with net := some ⟨1, str! "A"⟩ },
      .pad { (Fp.Pad.new (str! "1") .smd .rect : Fp.Pad Nm) with net := some ⟨2, str! "B"⟩ }]⟩,
    ⟨str! "X", [.text (Fp.FpText.new (str! "reference") (str! "REF**")), .pad (Fp.Pad.new (str! "1") .smd .rect),
      .pad (Fp.Pad.new (str! "1") .smd .rect)]⟩, Fp.At.dflt, str! "REF**", str! "J1", by decide +kernel, by decide +kernel,
    by decide +kernel, ?_, by decide +kernel⟩
  intro p hp
  have hp' : p ∈ [(Fp.Pad.new (str! "1") .smd .rect : Fp.Pad Nm), Fp.Pad.new (str! "1") .smd .rect] := hp
  simp only [List.mem_cons, List.not_mem_nil, or_false, or_self] at hp'
  rw [hp']
  rfl

end Verif
