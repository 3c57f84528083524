import Verif.Props.C126
import Verif.Props.C133
import Verif.Props.C87
/-!
# C142: symbols and footprints that belong together

A program compares the numbers of the pins of a symbol with the names of the pads of its footprint.
-/

namespace Verif
open Flt Spec

set_option linter.unusedSectionVars false

variable {F : Type} [Flt F]

/-- The numbers of the pins of a symbol (`pins`, src/symbol_lib.rs 303-311). -/
def Spec.pinNumbers (s : Lib.Symbol F) : List Str := s.pins.map (·.number)

/-- The names of the pads of a footprint (`pads`, src/footprint/data.rs 218-226). -/
def Spec.padNames (m : Fp.Module F) : List Str := m.pads.map (·.name)

/-- The pins without a pad. -/
def Spec.loosePins (s : Lib.Symbol F) (m : Fp.Module F) : List Str := (pinNumbers s).filter fun n => decide (n ∉ padNames m)

/-- The pads without a pin. -/
def Spec.loosePads (s : Lib.Symbol F) (m : Fp.Module F) : List Str := (padNames m).filter fun n => decide (n ∉ pinNumbers s)

/-- The pad that a step adds to a footprint. -/
def Spec.FpEdit.newPad : FpEdit F → Option Str
  | .append (.pad p) => some p.name
  | _ => none

/-- The pin that a step adds to a symbol. -/
def Spec.SymEdit.newPin : SymEdit F → Option Str
  | .addDraw (.pin p) => some p.number
  | _ => none

/-- The steps one after the other. -/
def Spec.runSym : List (SymEdit F) → Lib.Symbol F → Res (Lib.Symbol F)
  | [], s => .ok s
  | e :: es, s => do
    let s' ← e.run s
    runSym es s'

namespace Belong

/-- The name of a pad. -/
def padName : Fp.Elem F → Option Str
  | .pad p => some p.name
  | _ => none

theorem names_eq (m : Fp.Module F) : padNames m = m.elements.filterMap padName := by
  simp only [padNames, Fp.Module.pads, List.map_filterMap]
  congr 1
  funext e
  cases e <;> rfl

theorem names_map (es : List (Fp.Elem F)) (f : Fp.Elem F → Fp.Elem F) (h : ∀ e, padName (f e) = padName e) :
    (es.map f).filterMap padName = es.filterMap padName := by
  rw [List.filterMap_map]
  congr 1
  funext e
  exact h e

theorem step (e : FpEdit F) (m : Fp.Module F) : padNames (e.run m) = padNames m ++ e.newPad.toList := by
  cases e with
  | flip =>
    simp only [FpEdit.newPad, Option.toList, List.append_nil, names_eq]
    exact names_map _ _ fun e => by cases e <;> rfl
  | rotate a =>
    simp only [FpEdit.newPad, Option.toList, List.append_nil, names_eq]
    exact names_map _ _ fun e => by cases e <;> rfl
  | move x y =>
    simp only [FpEdit.newPad, Option.toList, List.append_nil, names_eq]
    exact names_map _ _ fun e => by cases e <;> rfl
  | setReference a b =>
    simp only [FpEdit.newPad, Option.toList, List.append_nil, names_eq]
    refine names_map _ _ fun e => ?_
    cases e with
    | text t => simp only [Fp.Module.setReferenceElem]; split <;> rfl
    | _ => rfl
  | renameNet a b =>
    simp only [FpEdit.newPad, Option.toList, List.append_nil, names_eq]
    refine names_map _ _ fun e => ?_
    cases e <;> rfl
  | append e =>
    simp only [names_eq]
    show (m.elements ++ [e]).filterMap padName = _
    rw [List.filterMap_append]
    cases e <;> rfl
  | fix cfg =>
    simp only [FpEdit.newPad, Option.toList, List.append_nil]
    show ((m.fix cfg).pads.map _) = _
    rw [Fp.pads_fix]
    rfl

theorem sym_step (e : SymEdit F) (s s' : Lib.Symbol F) (h : e.run s = .ok s') : pinNumbers s' = pinNumbers s ++ e.newPin.toList := by
  cases e with
  | setName n =>
    have := (C17_set_name s s' n h).2.2.2.2.2.2.2.2.2.2.2.2
    simp only [pinNumbers, Lib.Symbol.pins, this, SymEdit.newPin, Option.toList, List.append_nil]
  | addDraw d =>
    cases h
    simp only [pinNumbers, Lib.Symbol.pins, List.filterMap_append, List.map_append]
    cases d <;> rfl
  | _ => cases h; simp [pinNumbers, Lib.Symbol.pins, SymEdit.newPin]

end Belong

/-- Whatever is done to a footprint, its pads keep their names and order, and only appended pads come in addition. -/
theorem C142_pads (es : List (FpEdit F)) (m : Fp.Module F) : padNames (runFp es m) = padNames m ++ es.filterMap FpEdit.newPad := by
  induction es generalizing m with
  | nil => simp [runFp]
  | cons e es ih =>
    show padNames (runFp es (e.run m)) = _
    rw [ih, Belong.step, List.filterMap_cons]
    cases e.newPad <;> simp

/-- The same for symbols. -/
theorem C142_pins (es : List (SymEdit F)) (s s' : Lib.Symbol F) (h : runSym es s = .ok s') :
    pinNumbers s' = pinNumbers s ++ es.filterMap SymEdit.newPin := by
  induction es generalizing s with
  | nil => cases h; simp
  | cons e es ih =>
    obtain ⟨s1, h1, h2⟩ := Res.bind_eq_ok.1 h
    rw [ih s1 h2, Belong.sym_step e s s1 h1, List.filterMap_cons]
    cases e.newPin <;> simp

/-- The comparison after any sessions on both. -/
theorem C142_sessions (es : List (FpEdit F)) (m : Fp.Module F) (rs : List (SymEdit F)) (s s' : Lib.Symbol F) (h : runSym rs s = .ok s') :
    (∀ n, n ∈ loosePins s' (runFp es m) ↔ (n ∈ pinNumbers s ∨ n ∈ rs.filterMap SymEdit.newPin) ∧
      n ∉ padNames m ∧ n ∉ es.filterMap FpEdit.newPad) ∧
    (es.filterMap FpEdit.newPad = [] → rs.filterMap SymEdit.newPin = [] →
      loosePins s' (runFp es m) = loosePins s m ∧ loosePads s' (runFp es m) = loosePads s m) := by
  refine ⟨fun n => ?_, fun h1 h2 => ?_⟩
  · simp only [loosePins, C142_pads, C142_pins rs s s' h, List.mem_filter, List.mem_append, decide_eq_true_eq, not_or]
  · simp only [loosePins, loosePads, C142_pads, C142_pins rs s s' h, h1, h2, List.append_nil, and_self]

/-- Footprints that compare equal have the same pads in the comparison. -/
theorem C142_equal [EqLaws F] (s : Lib.Symbol F) (m m' : Fp.Module F) (h : Matching m m') :
    loosePins s m' = loosePins s m ∧ loosePads s m' = loosePads s m := by
  have key : padNames m' = padNames m := by
    rw [Belong.names_eq, Belong.names_eq]
    have := h.2
    generalize m.elements = a at this
    generalize m'.elements = b at this
    induction this with
    | nil => rfl
    | @cons x y _ _ hd _ ih =>
      have e : Belong.padName y = Belong.padName x := by
        cases x <;> cases y <;> simp only [Fp.Elem.eq, Bool.false_eq_true] at hd <;> try rfl
        exact congrArg some ((Match.pad_iff _ _).1 hd).2.1.symm
      rw [List.filterMap_cons, List.filterMap_cons, e, ih]
  simp only [loosePins, loosePads, key, and_self]

/-- If no pin is loose and all pads have a net, every pin is on a net on the board. -/
theorem C142_wired (s : Lib.Symbol F) (m : Fp.Module F) (h : loosePins s m = []) (hn : ∀ p ∈ m.pads, p.net.isSome) :
    ∀ n ∈ pinNumbers s, ∃ net, (m.getReference, n, net) ∈ wires m := by
  intro n hm
  have : n ∈ padNames m := by
    have := List.filter_eq_nil_iff.1 h n hm
    simpa using this
  obtain ⟨p, hp, rfl⟩ := List.mem_map.1 this
  obtain ⟨net, e⟩ := Option.isSome_iff_exists.1 (hn p hp)
  exact ⟨net.name, List.mem_filterMap.2 ⟨p, hp, by rw [e]; rfl⟩⟩

/-! ### Cases -/

/-- A symbol with pins 1 and 3. -/
def Belong.symbol : Lib.Symbol Nm :=
  let p (n : Str) : Lib.Draw := .pin ⟨str! "~", n, 0, 0, 100, .left, 50, 50, 1, 1, .passive, true, .line⟩
  { (Lib.Symbol.new (str! "R") (str! "R") : Lib.Symbol Nm) with draw := [p (str! "1"), p (str! "3")] }

example : (loosePins Belong.symbol (Netlist.part (str! "R1") (str! "A") (str! "B")),
    loosePads Belong.symbol (Netlist.part (str! "R1") (str! "A") (str! "B"))) = ([str! "3"], [str! "2"]) := by decide +kernel

/-- Appending the pad that is missing. -/
example : loosePins Belong.symbol (runFp [.flip, .append (.pad (Fp.Pad.new (str! "3") .smd .rect)), .setReference (str! "R1") (str! "R2")]
    (Netlist.part (str! "R1") (str! "A") (str! "B"))) = [] := by decide +kernel

example : ∀ p ∈ (Netlist.part (str! "R1") (str! "A") (str! "B")).pads, p.net.isSome := by decide +kernel

/-- Two pads of one name can be on different nets; then the pin is on both. -/
theorem C142_two_nets : ∃ (s : Lib.Symbol Nm) (m : Fp.Module Nm) (n a b : Str), loosePins s m = [] ∧ a ≠ b ∧ n ∈ pinNumbers s ∧
    (m.getReference, n, a) ∈ wires m ∧ (m.getReference, n, b) ∈ wires m := by
  let m : Fp.Module Nm := ⟨str! "X", [.pad { (Fp.Pad.new (str! "1") .smd .rect : Fp.Pad Nm) with net := some ⟨1, str! "A"⟩ },
    .pad { (Fp.Pad.new (str! "1") .smd .rect : Fp.Pad Nm) with net := some ⟨2, str! "B"⟩ }]⟩
  refine ⟨{ Belong.symbol with draw := Belong.symbol.draw.take 1 }, m, str! "1", str! "A", str! "B", by decide +kernel, by decide,
    by decide +kernel, by decide +kernel, by decide +kernel⟩

end Verif
