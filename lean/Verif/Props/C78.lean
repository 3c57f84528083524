import Verif.Lemmas.LayBoardGrammar
import Verif.Lemmas.Calm
import Verif.Basic.Nm
/-!
# C78: the language of board files

`Spec.BoardText` (Spec/LayoutGrammar) says which texts stand for which boards.
-/

namespace Verif
open Spec Lay

variable {F : Type} [Flt F]

/-- A text is read as a board exactly if it stands for it. -/
theorem C78_grammar (t : Str) (b : Layout F) : Lay.parse t = .ok b ↔ BoardText t b := by
  unfold Lay.parse BoardText
  simp only [Res.bind_eq_ok, parseSexp_iff, Lay.board_iff]

/-- The grammar is unambiguous: no text stands for two boards. -/
theorem C78_unique (t : Str) (a b : Layout F) (ha : BoardText t a) (hb : BoardText t b) : a = b :=
  Res.ok.inj (((C78_grammar t a).2 ha).symm.trans ((C78_grammar t b).2 hb))

/-- Every other text is an error: the reader does not panic and always ends. -/
theorem C78_rest (t : Str) (h : ∀ b : Layout F, ¬ BoardText t b) : ∃ e, (Lay.parse t : Res (Layout F)) = .err e := by
  have hc := Lay.parse_calm (F := F) t
  cases hp : (Lay.parse t : Res (Layout F)) with
  | ok m => exact absurd ((C78_grammar t m).1 hp) (h m)
  | err e => exact ⟨e, rfl⟩
  | panic => exact absurd hp hc.1
  | diverge => exact absurd hp hc.2

/-! ## Examples -/

/-- A board whose page is given twice and whose heading comes after the elements. -/
def Spec.smallBoard : Str :=
  str! "(kicad_pcb (page A3) (net 1 A) (segment (start 1 2) (end 3 4) (width 0.5) (layer B.Cu) (net 1)) (unknown 5) (layers (0 F.Cu signal) (31 B.Cu power hide)) (setup (a 1) (pcbplotparams (b 2) (c 3)) (d 4)) (page B) (version 9))"

def Spec.smallBoardValue : Layout Nm :=
  { Layout.dflt with
    version := 9, page := str! "B"
    layers := [⟨0, ⟨.front, .cu⟩, .signal, false⟩, ⟨31, ⟨.back, .cu⟩, .power, true⟩]
    setup := ⟨[⟨str! "a", str! "1", none⟩, ⟨str! "d", str! "4", none⟩], [⟨str! "b", str! "2", none⟩, ⟨str! "c", str! "3", none⟩]⟩
    elements :=
      [.net ⟨1, str! "A"⟩,
       .segment ⟨⟨⟨1000000⟩, ⟨2000000⟩, .start⟩, ⟨⟨3000000⟩, ⟨4000000⟩, .end_⟩, ⟨500000⟩, ⟨.back, .cu⟩, 1, none, none⟩,
       .other (.list [.str (str! "unknown"), .str (str! "5")])] }

set_option maxRecDepth 100000 in
theorem Spec.smallBoard_text : BoardText smallBoard smallBoardValue :=
  (C78_grammar smallBoard smallBoardValue).1 rfl

/-- No board is described by a text with a segment that has no layer. -/
theorem Spec.wrongBoard_text (b : Layout Nm) :
    ¬ BoardText (str! "(kicad_pcb (segment (start 1 2) (end 3 4) (width 0.5) (net 1)))") b := by
  rw [← C78_grammar]
  intro h
  have : (match (Lay.parse (str! "(kicad_pcb (segment (start 1 2) (end 3 4) (width 0.5) (net 1)))") : Res (Layout Nm)) with
    | .ok _ => true | _ => false) = true := by rw [h]
  revert this
  decide +kernel

example : ∃ (t : Str) (b : Layout Nm), BoardText t b ∧ b.elements.length = 3 := ⟨_, _, Spec.smallBoard_text, rfl⟩

example : ∃ t : Str, ∀ b : Layout Nm, ¬ BoardText t b := ⟨_, Spec.wrongBoard_text⟩

end Verif
