import Verif.Props.C19
/-!
# C20: a footprint that was read can be saved and read again

The claim is false for the pinned code: pads with a `rect_delta`, holes of no
width or almost round, negative letter sizes and negative time stamps do not
survive.  `C20_resave_partial` says exactly when the cycle succeeds.
-/

namespace Verif
open Flt Fp Spec

variable {F : Type} [Flt F] [TextLaws F] [ZeroLaws F]

/-- A footprint that was read (from any text), and whose strings survive
quoting (`Clean`), survives being saved and read again exactly if no element is one
of the kinds that do not survive.  Missing from the full claim: it holds without
that condition only for code that writes those elements differently. -/
theorem C20_resave_partial (q : Str → Bool) (hq : QuotesWhenNeeded q) (level : Int) (t : Str)
    (m : Module F) (hr : Fp.parse t = .ok m) (hn : Clean m.name)
    (hs : ∀ e ∈ m.elements, ∀ s ∈ strings e, Clean s) :
    Fp.parse (Fp.toText q level m) = .ok m ↔ ∀ e ∈ m.elements, Resavable e := by
  simp only [Fp.parse, Res.bind_eq_ok] at hr
  obtain ⟨tree, _, hr⟩ := hr
  rw [Fp.parse, Fp.toText, Sexp.Text.parse_toText q level _
    (Module.ok_clean q hq m hn hs (Module.shapes_of_de hr)), Res.bind_ok]
  constructor
  · exact Module.of_roundtrip m
  · intro h
    exact Module.de_ser m (Module.good_of_de hr h)

/-- The trapezoid delta of a pad, in a file. -/
def Spec.trapezoidTree (x y : F) : Sexp :=
  Sx.node (str! "module") [.str (str! "a"), Sx.node (str! "pad") [.str (str! "1"), .str (str! "smd"),
    .str (str! "trapezoid"), Sx.node (str! "at") [Sx.ofF x, Sx.ofF y],
    Sx.node (str! "rect_delta") [Sx.ofF x, Sx.ofF y]]]

theorem Spec.trapezoid_read (x y : F) : (Module.de (Spec.trapezoidTree x y) : Res (Module F)) =
    .ok ⟨str! "a", [.pad { Pad.new (str! "1") .smd .trapezoid with
      at_ := ⟨x, y, zero⟩, rectDelta := some ⟨x, y, .rectDelta⟩ }]⟩ := by
  have h1 : (At.de (Sx.node (str! "at") [Sx.ofF x, Sx.ofF y]) : Res (At F)) = .ok ⟨x, y, zero⟩ := by
    simp [At.de]
  have h2 : (Xy.de (Sx.node (str! "rect_delta") [Sx.ofF x, Sx.ofF y]) : Res (Xy F)) =
      .ok ⟨x, y, .rectDelta⟩ := by
    simp [Xy.de]
  simp only [Spec.trapezoidTree, Module.de, Sx.iter_node, Res.bind_ok, Sx.eat_cons, Sx.string_str, Sx.vec]
  rw [Elem.de_list (n := str! "pad") rfl]
  simp [Pad.de, PadType.fromString, PadShape.fromString, Sx.maybe_ok h1, Sx.maybe_ok h2, Sx.vec,
    Pad.addParts, Pad.new]

/-- The full claim is false: for all numbers there is a file with a trapezoid
pad that is read, saved, and then does not read back as the same footprint
(whatever the indentation and the quoting policy). -/
theorem C20_resave_fails (q : Str → Bool) (hq : QuotesWhenNeeded q) (level : Int) (x y : F) :
    ∃ (t : Str) (m : Module F), Fp.parse t = .ok m ∧ Fp.parse (Fp.toText q level m) ≠ .ok m := by
  have ho : OkTree q (Spec.trapezoidTree x y) := by
    refine Sx.okTree_node (by decide) ⟨Sx.okTree_str (Sx.okAtom_plain (by decide) q),
      Sx.okTree_node (by decide) ⟨Sx.okTree_str (Sx.okAtom_plain (by decide) q),
        Sx.okTree_str (Sx.okAtom_plain (by decide) q), Sx.okTree_str (Sx.okAtom_plain (by decide) q),
        Sx.okTree_node (by decide) ⟨Sx.okTree_ofF q _, Sx.okTree_ofF q _, trivial⟩,
        Sx.okTree_node (by decide) ⟨Sx.okTree_ofF q _, Sx.okTree_ofF q _, trivial⟩, trivial⟩, trivial⟩
  have hp : Fp.parse (F := F) (Fm.toText q level (Spec.trapezoidTree x y)) =
      Module.de (Spec.trapezoidTree x y) := by
    rw [Fp.parse, Sexp.Text.parse_toText q level _ ho, Res.bind_ok]
  rw [Spec.trapezoid_read x y] at hp
  refine ⟨_, _, hp, fun h => ?_⟩
  have := (C20_resave_partial q hq level _ _ hp (show Clean (str! "a") by decide) (by
    simp only [List.forall_mem_cons, strings, Pad.new]
    exact ⟨⟨by decide, by simp⟩, by simp⟩)).1 h
  have h1 := (this _ (List.mem_singleton.2 rfl)).1
  simp at h1

example : ∃ (t : Str) (m : Module Nm), Fp.parse t = .ok m ∧
    Fp.parse (Fp.toText Fm.stdQuote 0 m) ≠ .ok m :=
  C20_resave_fails Fm.stdQuote Spec.stdQuote_quotes 0 ⟨1⟩ ⟨2⟩

/-- Holes of no positive width never survive. -/
theorem C20_flat_hole_lost (p : Pad F) (d : Drill F) (hd : p.drill = some d)
    (hw : lt zero d.width = false) : Elem.de (Elem.ser (.pad p)) ≠ .ok (.pad p) := by
  intro h
  have := Elem.of_roundtrip (.pad p) h
  have := (this.2 d hd).1
  rw [hw] at this
  exact absurd this (by simp)

example : ∃ (p : Pad Nm) (d : Drill Nm), p.drill = some d ∧ lt zero d.width = false :=
  ⟨{ Pad.new (str! "1") .pth .circle with drill := some ⟨none, zero, zero, zero, zero⟩ }, _, rfl, by decide⟩

end Verif
