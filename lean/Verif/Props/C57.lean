import Verif.Props.C35
/-!
# C57: a layout that was read can be saved and read again

The claim is false for the pinned code: a negative zone priority is kept as a
huge number that cannot be read back, and modules and texts can contain the
things C20 lists.  `C57_resave_partial` says exactly when the cycle succeeds.
-/

namespace Verif
open Flt Lay Spec

variable {F : Type} [Flt F] [TextLaws F] [ZeroLaws F]

/-- A layout that was read (from any text), and whose strings survive
quoting (`Clean`), survives being saved and read again exactly if no element is one of
the kinds that do not survive.  Missing from the full claim: the condition. -/
theorem C57_resave_partial (q : Str → Bool) (hq : QuotesWhenNeeded q) (level : Int) (t : Str)
    (l : Layout F) (hr : Lay.parse t = .ok l) (hc : CleanLayout l) :
    Lay.parse (Lay.toText q level l) = .ok l ↔ ∀ e ∈ l.elements, ResavableBoard e := by
  simp only [Lay.parse, Res.bind_eq_ok] at hr
  obtain ⟨tree, _, hr⟩ := hr
  have hnl : Blank (str! "\n") := by unfold Blank; decide
  rw [Lay.parse, Lay.toText, Sexp.Text.parse_toText_blank q level _
    (Layout.ok_ser hq l hc (Layout.shapes_of_de hr)) _ hnl, Res.bind_ok]
  exact Layout.resave hr

/-- Once a layout survived one cycle, it survives every further one. -/
theorem C57_stable (q : Str → Bool) (hq : QuotesWhenNeeded q) (level level' : Int) (t : Str)
    (l : Layout F) (hr : Lay.parse t = .ok l) (hc : CleanLayout l)
    (h : Lay.parse (Lay.toText q level l) = .ok l) : Lay.parse (Lay.toText q level' l) = .ok l :=
  (C57_resave_partial q hq level' t l hr hc).2 ((C57_resave_partial q hq level t l hr hc).1 h)

/-- A zone in a file, with the given priority. -/
def Spec.priorityTree (p : Int) (x : F) : Sexp :=
  Sx.node (str! "kicad_pcb") [Sx.node (str! "zone") [Sx.pair (str! "net") (Sx.ofI 0),
    Sx.pair (str! "net_name") (.str []), Sx.pair (str! "layer") (.str (str! "F.Cu")),
    Sx.pair (str! "tstamp") (.str (str! "0")), Sx.node (str! "hatch") [.str (str! "edge"), Sx.ofF x],
    Sx.pair (str! "priority") (Sx.ofI p),
    Sx.node (str! "connect_pads") [Sx.pair (str! "clearance") (Sx.ofF x)],
    Sx.pair (str! "min_thickness") (Sx.ofF x),
    Sx.node (str! "fill") [Sx.pair (str! "arc_segments") (Sx.ofI 16),
      Sx.pair (str! "thermal_gap") (Sx.ofF x), Sx.pair (str! "thermal_bridge_width") (Sx.ofF x)]]]

/-- The zone that is read from it. -/
def Spec.priorityZone (p : Int) (x : F) : Zone F :=
  ⟨0, [], ⟨.front, .cu⟩, str! "0", ⟨str! "edge", x⟩, asU64 p, ⟨none, x⟩, x, none,
    ⟨false, false, 16, x, x, none, zero⟩, [], [], none, []⟩

theorem Spec.priority_read (p : Int) (hp : inI64 p) (x : F) :
    (Layout.de (Spec.priorityTree p x) : Res (Layout F)) =
      .ok { Layout.dflt with elements := [.zone (Spec.priorityZone p x)] } := by
  have h0 : inI64 0 := by decide
  have h16 : inI64 16 := by decide
  have hl : Fp.Layer.de (Sx.pair (str! "layer") (.str (str! "F.Cu"))) = .ok ⟨.front, .cu⟩ := by decide
  have hpp : Sx.inList (str! "priority") Sx.int (Sx.pair (str! "priority") (Sx.ofI p)) = .ok p := by
    simp [Sx.int_ofI _ hp]
  have hc : (ConnectPads.de (Sx.node (str! "connect_pads") [Sx.pair (str! "clearance") (Sx.ofF x)]) :
      Res (ConnectPads F)) = .ok ⟨none, x⟩ := ConnectPads.de_ser ⟨none, x⟩
  have hf : (Fill.de (Sx.node (str! "fill") [Sx.pair (str! "arc_segments") (Sx.ofI 16),
      Sx.pair (str! "thermal_gap") (Sx.ofF x), Sx.pair (str! "thermal_bridge_width") (Sx.ofF x)]) :
      Res (Fill F)) = .ok ⟨false, false, 16, x, x, none, zero⟩ := by
    have := Fill.de_ser (F := F) ⟨false, false, 16, x, x, none, zero⟩ h16
    simpa [Fill.ser, Fp.optPair, feq_zero_zero] using this
  have hk : ∀ r, Keepout.de (Sx.node (str! "fill") r) = .err .sexp := fun r => rfl
  have hh : (Hatch.de (Sx.node (str! "hatch") [.str (str! "edge"), Sx.ofF x]) : Res (Hatch F)) =
      .ok ⟨str! "edge", x⟩ := Hatch.de_ser ⟨_, _⟩
  rw [Spec.priorityTree, Layout.de, Sx.iter_node, Res.bind_ok, Layout.fill,
    Layout.step_elem _ (Sx.listName_node _ _) (by decide), Elem.read, Sx.listName_node, Res.bind_ok]
  simp only [Zone.de, Sx.iter_node, Res.bind_ok, Sx.eat_cons, Sx.inList_pair, Sx.int_ofI _ h0,
    Sx.string_str, hl, hh, Sx.maybe_ok hpp, hc, Sx.flt_ofF, Sx.maybe_err (hk _), hf, Zone.fillRest,
    Option.getD_some, Layout.fill]
  rfl

/-- The full claim is false: a board with a negative zone priority is read, and
what is saved then cannot be read back as the same board. -/
theorem C57_resave_fails (q : Str → Bool) (hq : QuotesWhenNeeded q) (level : Int) (x : F) (p : Int)
    (hp : inI64 p) (hneg : p < 0) :
    ∃ (t : Str) (l : Layout F), Lay.parse t = .ok l ∧ CleanLayout l ∧
      Lay.parse (Lay.toText q level l) ≠ .ok l := by
  have ho : OkTree q (Spec.priorityTree p x) := by
    have hc : ∀ s, Clean s → OkTree q (.str s) := fun s hs => Sx.okTree_str (Fp.okAtom_clean hq hs)
    refine Sx.okTree_node (by decide) ⟨Sx.okTree_node (by decide) ⟨
      Sx.okTree_pair (by decide) (Sx.okTree_ofI q _), Sx.okTree_pair (by decide) (hc _ (by decide)),
      Sx.okTree_pair (by decide) (hc _ (by decide)), Sx.okTree_pair (by decide) (hc _ (by decide)),
      Sx.okTree_node (by decide) ⟨hc _ (by decide), Sx.okTree_ofF q _, trivial⟩,
      Sx.okTree_pair (by decide) (Sx.okTree_ofI q _),
      Sx.okTree_node (by decide) ⟨Sx.okTree_pair (by decide) (Sx.okTree_ofF q _), trivial⟩,
      Sx.okTree_pair (by decide) (Sx.okTree_ofF q _),
      Sx.okTree_node (by decide) ⟨Sx.okTree_pair (by decide) (Sx.okTree_ofI q _),
        Sx.okTree_pair (by decide) (Sx.okTree_ofF q _), Sx.okTree_pair (by decide) (Sx.okTree_ofF q _),
        trivial⟩, trivial⟩, trivial⟩
  have hr : Lay.parse (F := F) (Fm.toText q level (Spec.priorityTree p x)) =
      .ok { Layout.dflt with elements := [.zone (Spec.priorityZone p x)] } := by
    rw [Lay.parse, Sexp.Text.parse_toText q level _ ho, Res.bind_ok, Spec.priority_read p hp x]
  have hc : CleanLayout ({ Layout.dflt with elements := [.zone (Spec.priorityZone p x)] } : Layout F) := by
    refine ⟨?_, ?_⟩
    · simp only [headerStrings, Layout.dflt, Host.dflt, List.flatMap_nil, List.append_nil]
      decide
    · simp only [List.forall_mem_cons, boardTrees, Spec.priorityZone, boardStrings, layerStrings,
        Option.toList, List.append_nil]
      exact ⟨⟨by decide, by simp⟩, by simp⟩
  refine ⟨_, _, hr, hc, fun h => ?_⟩
  have := (C57_resave_partial q hq level _ _ hr hc).1 h _ (List.mem_singleton.2 rfl)
  have h2 : asU64 p ≤ maxI64 := this
  unfold asU64 maxI64 at h2
  unfold inI64 at hp
  omega

example : ∃ (t : Str) (l : Layout Nm), Lay.parse t = .ok l ∧ CleanLayout l ∧
    Lay.parse (Lay.toText Fm.stdQuote 0 l) ≠ .ok l :=
  C57_resave_fails Fm.stdQuote Spec.stdQuote_quotes 0 ⟨1⟩ (-1) (by decide) (by decide)

/-- What a priority written in a file becomes: itself, or for a negative one the number that is
`2^64` larger. -/
theorem C57_priority (p : Int) (hp : inI64 p) (x : F) :
    ∃ z : Zone F, (Layout.de (Spec.priorityTree p x) : Res (Layout F)) =
      .ok { Layout.dflt with elements := [.zone z] } ∧
      (z.priority : Int) = if 0 ≤ p then p else p + 2 ^ 64 := by
  refine ⟨_, Spec.priority_read p hp x, ?_⟩
  simp only [Spec.priorityZone, asU64]
  unfold inI64 at hp
  split <;> omega

example : inI64 (-1) ∧ inI64 5 := by decide

end Verif
