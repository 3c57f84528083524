import Verif.Lemmas.FpGrammar
import Verif.Lemmas.Calm
import Verif.Basic.Nm
/-!
# C77: the language of footprint files

`Spec.TreesText` (Spec/TreeGrammar) says which texts stand for which trees, and
`Spec.FootprintText` (Spec/FootprintGrammar) which texts stand for which footprints.
-/

namespace Verif
open Spec Fp

variable {F : Type} [Flt F]

/-- A text is read as a tree exactly if it stands for it. -/
theorem C77_trees (t : Str) (e : Sexp) : parseSexp t = .ok e ↔ TreeText t e := parseSexp_iff t e

/-- A text is read as a footprint exactly if it stands for it. -/
theorem C77_grammar (t : Str) (m : Module F) : Fp.parse t = .ok m ↔ FootprintText t m := by
  unfold Fp.parse FootprintText
  simp only [Res.bind_eq_ok, parseSexp_iff, Fp.module_iff]

/-- The grammar is unambiguous: no text stands for two footprints. -/
theorem C77_unique (t : Str) (a b : Module F) (ha : FootprintText t a) (hb : FootprintText t b) : a = b :=
  Res.ok.inj (((C77_grammar t a).2 ha).symm.trans ((C77_grammar t b).2 hb))

/-- Every other text is an error: the reader does not panic and always ends. -/
theorem C77_rest (t : Str) (h : ∀ m : Module F, ¬ FootprintText t m) : ∃ e, (Fp.parse t : Res (Module F)) = .err e := by
  have hc := Fp.parse_calm (F := F) t
  cases hp : (Fp.parse t : Res (Module F)) with
  | ok m => exact absurd ((C77_grammar t m).1 hp) (h m)
  | err e => exact ⟨e, rfl⟩
  | panic => exact absurd hp hc.1
  | diverge => exact absurd hp hc.2

/-! ## Examples -/

/-- A text with a quoted word, a comment-like word and nested lists. -/
example : TreesText (str! "(a \"b \\\" c\"(d)) ")
    [.list [.str (str! "a"), .str (str! "b \" c"), .list [.str (str! "d")]]] := by
  have h1 : TreesText (str! "d") [.str (str! "d")] :=
    .bare (w := str! "d") (t := []) ⟨by simp, by decide⟩ (by intro c r e; cases e) .nil
  have h2 : TreesText (str! "(d)") [.list [.str (str! "d")]] := .list (body := str! "d") h1 .nil
  have h3 : TreesText (str! "\"b \\\" c\"(d)") [.str (str! "b \" c"), .list [.str (str! "d")]] := by
    refine .quoted (w := str! "b \\\" c") ?_ h2
    refine .plain (by decide) (by decide) (.plain (by decide) (by decide) (.quote ?_))
    exact .plain (by decide) (by decide) (.plain (by decide) (by decide) .nil)
  have h4 : TreesText (str! "a \"b \\\" c\"(d)") [.str (str! "a"), .str (str! "b \" c"), .list [.str (str! "d")]] := by
    refine .bare (w := str! "a") ⟨by simp, by decide⟩ ?_ (.space (by decide) h3)
    intro c r e
    cases e
    exact .inl (by decide)
  exact .list (body := str! "a \"b \\\" c\"(d)") h4 (.space (by decide) .nil)

/-- A footprint with optional parts missing, a pad with two nets, and a line whose points
are in the wrong order. -/
def Spec.smallFootprint : Str :=
  str! "(module \"R 1\" locked (layer F.Cu) (tedit 5A) (fp_text reference R1 (at 1 2) hide) (fp_line (end 1 1) (start 2 2) (layer F.SilkS) (width 0.5)) (pad 1 smd rect (at 0 0 90) (size 1 2) (drill oval 1) (layers F.Cu *.Mask) (net 1 A) (clearance 2 3) (net 2 B)))"

def Spec.smallFootprintValue : Module Nm :=
  { name := str! "R 1"
    elements :=
      [.locked, .layer ⟨.front, .cu⟩, .tedit 90,
       .text ⟨str! "reference", str! "R1", ⟨⟨1000000⟩, ⟨2000000⟩, ⟨0⟩⟩, ⟨.front, .cu⟩, ⟨⟨⟨⟨0⟩, ⟨0⟩, .xy⟩, ⟨0⟩, false⟩, none⟩, true⟩,
       .line ⟨⟨⟨0⟩, ⟨0⟩, .start⟩, ⟨⟨0⟩, ⟨0⟩, .end_⟩, ⟨.front, .silkS⟩, ⟨500000⟩⟩,
       .pad { Pad.new (str! "1") .smd .rect with
              at_ := ⟨⟨0⟩, ⟨0⟩, ⟨90000000⟩⟩, size := ⟨⟨1000000⟩, ⟨2000000⟩, .size⟩
              drill := some ⟨some (str! "oval"), ⟨1000000⟩, ⟨1000000⟩, ⟨0⟩, ⟨0⟩⟩
              layers := [⟨.front, .cu⟩, ⟨.both, .mask⟩], net := some ⟨2, str! "B"⟩, clearance := some ⟨2000000⟩ }] }

theorem Spec.smallFootprint_text : FootprintText smallFootprint smallFootprintValue :=
  (C77_grammar smallFootprint smallFootprintValue).1 (by decide +kernel)

/-- No footprint is described by a text in which the parts of a text element are in the
wrong order. -/
theorem Spec.wrongFootprint_text (m : Module Nm) :
    ¬ FootprintText (str! "(module R (fp_text reference R1 hide (at 1 2)))") m := by
  rw [← C77_grammar]
  intro h
  have : (match (Fp.parse (str! "(module R (fp_text reference R1 hide (at 1 2)))") : Res (Module Nm)) with
    | .ok _ => true | _ => false) = true := by rw [h]
  revert this
  decide +kernel

end Verif
