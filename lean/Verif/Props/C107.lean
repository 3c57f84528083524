import Verif.Lemmas.ReadConvert
import Verif.Lemmas.NumberTexts
import Verif.Lemmas.ConvertTwice
import Verif.Props.C105
/-!
# C107: a file is read number by number

`Spec.Number` is the number meant by a text, without rounding.  What is read from a file with `f64`
is what the file means, each number in it rounded on its own: whether a file can be read, as what kind
of file, and everything in it that is not a number does not depend on rounding.
-/

namespace Verif
open Flt Spec Files

theorem Spec.Number.read_eq (s : Str) : Number.read s = readNumber s := by
  unfold Number.read
  split
  · rename_i h
    exact ((readNumber_iff s _).2 h.choose_spec).symm
  · rename_i h
    rw [eq_comm, Option.eq_none_iff_forall_ne_some]
    intro n hn
    exact h ⟨n, (readNumber_iff s n).1 hn⟩

theorem Spec.Number.near_reads : ReadsAs Number.near where
  text s := by
    rw [ofStr_readNumber]
    exact congrArg _ (Number.read_eq s).symm
  lit m k := by
    show F64.of (m * Fp64.pow10 (-(k : Int))) = F64.of (m / 10 ^ k)
    rw [Fp64.pow10_eq, zpow_neg, zpow_natCast, div_eq_mul_inv]

/-- Footprints: the same outcome, each number the one that stands for what is written. -/
theorem C107_footprint (s : Str) : (Fp.parse s : Res (Fp.Module F64)) = (Fp.parse s).map (Fp.Module.conv Number.near) :=
  Number.near_reads.footprint s

/-- Layouts. -/
theorem C107_layout (s : Str) : (Lay.parse s : Res (Lay.Layout F64)) = (Lay.parse s).map (Lay.Layout.conv Number.near) :=
  Number.near_reads.layout s

/-- Schematics. -/
theorem C107_schematic (name : Option Str) (s : Str) :
    (Sch.parse name s : Res (Sch.Schematic F64)) = (Sch.parse name s).map (Sch.Schematic.conv Number.near) :=
  Number.near_reads.schematic name s

/-- Symbol libraries. -/
theorem C107_library (s : Str) :
    (Lib.parseStr s : Res (Lib.SymbolLib F64)) = (Lib.parseStr s).map (Lib.SymbolLib.conv Number.near) :=
  Number.near_reads.symbolLib s

/-- Files of any kind: in particular the kind does not depend on rounding. -/
theorem C107_file (d : Disk) (name : Str) (expected : Expected) :
    (readKicadFile d name expected : Res (KicadFile F64)) =
      (readKicadFile d name expected).map (KicadFile.conv Number.near) := by
  have step : ∀ {α α' : Type} {r : Res α} {r' : Res α'} {j : α → α'} {w : α → KicadFile Number} {w' : α' → KicadFile F64}
      {b : Bool} {rest : Res (KicadFile Number)} {rest' : Res (KicadFile F64)}, r' = r.map j →
      (∀ a, w' (j a) = (w a).conv Number.near) → rest' = rest.map (KicadFile.conv Number.near) →
      probe r' w' b rest' = (probe r w b rest).map (KicadFile.conv Number.near) := by
    intro α α' r r' j w w' b rest rest' h hw hr
    subst h hr
    cases r with
    | ok a => exact congrArg Res.ok (hw a)
    | err e => cases b <;> rfl
    | panic => rfl
    | diverge => rfl
  unfold readKicadFile
  refine Res.bind_same _ fun data => ?_
  unfold recognise
  exact step (C107_footprint data) (fun _ => rfl) <| step (C107_schematic _ data) (fun _ => rfl) <|
    step (C107_layout data) (fun _ => rfl) <| step (C107_library data) (fun _ => rfl) <|
    step (Res.map_id' _).symm (fun _ => rfl) <| step (Res.map_id' _).symm (fun _ => rfl) rfl

/-- A file with other numbers that mean the same is read the same. -/
theorem C107_same_meaning {d d' : Disk} {name : Str} {expected : Expected}
    (h : (readKicadFile d name expected : Res (KicadFile Number)) = readKicadFile d' name expected) :
    (readKicadFile d name expected : Res (KicadFile F64)) = readKicadFile d' name expected := by
  rw [C107_file, C107_file, h]

/-! ## Whole numbers of nanometres

If every number in a file means a whole number of nanometres, however it is written, then the file is
read as the nearest `f64` of each, and is saved as it is with the exact numbers. -/

/-- A footprint. -/
theorem C107_footprint_saved (q : Str → Bool) (level : Int) (s : Str) (m : Fp.Module Coord)
    (h : Fp.parse s = .ok (m.conv Coord.number)) :
    ∃ x : Fp.Module F64, Fp.parse s = .ok x ∧ Fp.toText q level x = Fp.toText q level (m.conv Coord.exact) := by
  refine ⟨m.conv Coord.near, ?_, (Coord.alike.footprint q level m).symm⟩
  rw [C107_footprint, h]
  exact congrArg Res.ok (Fp.Module.conv_conv _ _ _)

/-- A layout. -/
theorem C107_layout_saved (q : Str → Bool) (level : Int) (s : Str) (l : Lay.Layout Coord)
    (h : Lay.parse s = .ok (l.conv Coord.number)) :
    ∃ x : Lay.Layout F64, Lay.parse s = .ok x ∧ Lay.toText q level x = Lay.toText q level (l.conv Coord.exact) := by
  refine ⟨l.conv Coord.near, ?_, (Coord.alike.layout q level l).symm⟩
  rw [C107_layout, h]
  exact congrArg Res.ok (Lay.Layout.conv_conv _ _ _)

/-- A schematic. -/
theorem C107_schematic_saved (name : Option Str) (s : Str) (c : Sch.Schematic Coord)
    (h : Sch.parse name s = .ok (c.conv Coord.number)) :
    ∃ x : Sch.Schematic F64, Sch.parse name s = .ok x ∧ x.show = (c.conv Coord.exact).show := by
  refine ⟨c.conv Coord.near, ?_, (Coord.alike.schematic c).symm⟩
  rw [C107_schematic, h]
  exact congrArg Res.ok (Sch.Schematic.conv_conv _ _ _)

/-- A symbol library. -/
theorem C107_library_saved (s : Str) (l : Lib.SymbolLib Coord) (h : Lib.parseStr s = .ok (l.conv Coord.number)) :
    ∃ x : Lib.SymbolLib F64, Lib.parseStr s = .ok x ∧ x.show = (l.conv Coord.exact).show := by
  refine ⟨l.conv Coord.near, ?_, (Coord.alike.library l).symm⟩
  rw [C107_library, h]
  exact congrArg Res.ok (Lib.SymbolLib.conv_conv _ _ _)

/-! ## Samples -/

/-- The numbers meant by the texts, computed. -/
@[instance_reducible] def Spec.Number.computed : Flt Number where
  lit m k := .fin ((m : ℚ) / 10 ^ k)
  ofInt i := .fin (i : ℚ)
  add _ _ := .nan
  sub _ _ := .nan
  mul _ _ := .nan
  neg _ := .nan
  abs _ := .nan
  sqrt _ := .nan
  half _ := .nan
  feq _ _ := false
  lt _ _ := false
  le _ _ := false
  fmin _ _ := .nan
  fmax _ _ := .nan
  eps := .nan
  toStr _ := []
  ofStr := readNumber

theorem Spec.Number.computed_eq : instFltNumber = Number.computed := by
  unfold instFltNumber Number.computed
  rw [show Number.read = readNumber from funext Number.read_eq]

/-- Texts that mean whole numbers of nanometres and are not written plainly. -/
def Spec.oddFootprint : Str := str! "(module X (layer F.Cu) (fp_line (start -.50 +1e1) (end 0 2.) (layer F.SilkS) (width 12e-2)))"

/-- The same footprint with whole numbers of nanometres. -/
def Spec.oddFootprintCoords : Fp.Module Coord :=
  let mm := fun n => Coord.clip ⟨n⟩
  ⟨str! "X", [.layer ⟨.front, .cu⟩, .line ⟨⟨mm (-500000), mm 10000000, .start⟩, ⟨mm 0, mm 2000000, .end_⟩,
    ⟨.front, .silkS⟩, mm 120000⟩]⟩

example : Fp.parse Spec.oddFootprint = .ok (Spec.oddFootprintCoords.conv Coord.number) := by
  rw [Spec.Number.computed_eq]
  decide +kernel

example : ∃ x : Fp.Module F64, Fp.parse Spec.oddFootprint = .ok x ∧
    Fp.toText Fm.stdQuote 0 x = Fp.toText Fm.stdQuote 0 (Spec.oddFootprintCoords.conv Coord.exact) :=
  C107_footprint_saved _ _ _ _ (by rw [Spec.Number.computed_eq]; decide +kernel)

example : Fp.toText Fm.stdQuote 0 (Spec.oddFootprintCoords.conv Coord.exact) =
    str! "(module X (layer F.Cu)\n  (fp_line (start -0.5 10) (end 0 2) (layer F.SilkS) (width 0.12))\n)" := by decide +kernel

/-- A layout with a thickness that `f64` cannot hold. -/
def Spec.hugeLayout (thickness : Str) : Str := str! "(kicad_pcb (version 4) (host a b) (general (links 0) (no_connects 0)" ++
  str! "(area 0 0 1 1) (thickness " ++ thickness ++ str! ") (drawings 0) (tracks 0) (zones 0) (modules 0) (nets 0)) (page A4) (layers) (setup))"

/-- Written in two ways, it is the same. -/
example : ((Lay.parse (Spec.hugeLayout (str! "1e999")) : Res (Lay.Layout Number)).map fun l => (l.version, l.general.thickness)) =
      .ok (4, .fin (10 ^ 999)) ∧
    ((Lay.parse (Spec.hugeLayout (str! "10.e+998")) : Res (Lay.Layout Number)).map fun l => (l.version, l.general.thickness)) =
      .ok (4, .fin (10 ^ 999)) := by
  rw [Spec.Number.computed_eq]
  decide +kernel

example : Sch.parse none (Spec.sampleSchematic Nm).show =
    .ok ({ (Spec.sampleSchematic Nm).conv Coord.clip with filename := none }.conv Coord.number) := by
  rw [Spec.Number.computed_eq]
  decide +kernel

example : ((Spec.sampleLib Nm).show >>= fun s => Lib.parseStr s) =
    .ok (((Spec.sampleLib Nm).conv Coord.clip).conv Coord.number) := by
  rw [Spec.Number.computed_eq]
  decide +kernel

end Verif
