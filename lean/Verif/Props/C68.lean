import Verif.Lemmas.FpPrinting
import Verif.Basic.Nm
/-!
# C68: the text of a footprint file is laid out element by element
-/

namespace Verif
open Flt Fp Spec

variable {F : Type} [Flt F]

/-- The text of a footprint file obeys the layout rules: every list is placed as
the table of rules says, whatever was written before it. -/
theorem C68_layout_rules (q : Str → Bool) (level : Int) (m : Module F) :
    Fp.toText q level m =
      fileText (Fm.atomText q) level (str! "module") (.str m.name :: m.elements.map Elem.ser) :=
  Fm.toText_file q level _ _ (by decide) (by decide) (by decide) m.regular

/-- The text of a footprint file is its name, then the texts of its elements in
order, then a closing parenthesis at the start of a line.  The text of an element
depends on the element only. -/
theorem C68_text (q : Str → Bool) (level : Int) (m : Module F) :
    Fp.toText q level m =
      str! "(" ++ Fm.atomText q (str! "module") ++ str! " " ++ Fm.atomText q m.name ++
      m.elements.flatMap (elementText (Fm.atomText q) level) ++ str! "\n)" := by
  rw [C68_layout_rules, fileText, layOutL_chunks _ (by decide)]
  have h : ∀ l : List (Elem F), (l.map Elem.ser).flatMap (chunk (Fm.atomText q) [str! "module"] level) =
      l.flatMap (elementText (Fm.atomText q) level) := by
    intro l
    induction l with
    | nil => rfl
    | cons e l ih =>
      simp only [List.map_cons, List.flatMap_cons, ih]
      rw [Elem.chunk_eq (Fm.atomText q) e [] level (by simp) (by simp) (by simp)]
  simp [List.flatMap_cons, h, chunk, gap, layOut]

/-- Replacing one element changes the text between two fixed points only: what
comes before and after does not depend on it, so a line-by-line comparison of
two versions shows the edited element and nothing else. -/
theorem C68_edit_is_local (q : Str → Bool) (level : Int) (name : Str) (before after : List (Elem F)) :
    ∃ a b : Str, ∀ es : List (Elem F),
      Fp.toText q level ⟨name, before ++ es ++ after⟩ =
        a ++ es.flatMap (elementText (Fm.atomText q) level) ++ b :=
  ⟨str! "(" ++ Fm.atomText q (str! "module") ++ str! " " ++ Fm.atomText q name ++
      before.flatMap (elementText (Fm.atomText q) level),
   after.flatMap (elementText (Fm.atomText q) level) ++ str! "\n)",
   fun es => by rw [C68_text]; simp⟩

/-- Pads, lines, polygons, circles, texts, models and positions start on a line
of their own, indented by one level more than the footprint. -/
theorem C68_own_line (sp : Str → Str) (level : Int) (e : Elem F)
    (h : (∃ p, e = .pad p) ∨ (∃ p, e = .line p) ∨ (∃ p, e = .poly p) ∨ (∃ p, e = .circle p) ∨
      (∃ p, e = .text p) ∨ (∃ p, e = .model p) ∨ (∃ p, e = .at_ p)) :
    ∃ rest, elementText sp level e = '\n' :: List.replicate (2 * (level + 1).toNat) ' ' ++ '(' :: rest := by
  have hs : startLine 1 (level + 1) = '\n' :: List.replicate (2 * (level + 1).toNat) ' ' := rfl
  rcases h with ⟨p, rfl⟩ | ⟨p, rfl⟩ | ⟨p, rfl⟩ | ⟨p, rfl⟩ | ⟨p, rfl⟩ | ⟨p, rfl⟩ | ⟨p, rfl⟩ <;>
    simp only [elementText, hs, List.append_assoc, List.cons_append, List.nil_append, FpLine.ser,
      FpCircle.ser, At.ser, Sx.node, flat] <;>
    exact ⟨_, rfl⟩

/-- Arcs do not: they continue the line of whatever comes before them. -/
theorem C68_arcs_share_lines (sp : Str → Str) (level : Int) (p : FpArc F) :
    ∃ rest, elementText sp level (.arc p) = ' ' :: '(' :: rest := ⟨_, rfl⟩

/-- A pad on a net, a text and a polygon of five points. -/
def Spec.threeElements : Module Nm :=
  ⟨str! "T", [
      .pad ⟨str! "1", .smd, .rect, ⟨⟨2000000⟩, ⟨3000000⟩, .size⟩, none, ⟨⟨1000000⟩, ⟨1500000⟩, zero⟩,
        [⟨.front, .cu⟩], some ⟨3, str! "GND"⟩, some 2, none, none, none, none, none⟩,
      .text ⟨str! "value", str! "V", ⟨⟨1000000⟩, ⟨2000000⟩, zero⟩, ⟨.front, .fab⟩,
        ⟨⟨⟨⟨1000000⟩, ⟨1000000⟩, .xy⟩, ⟨150000⟩, false⟩, none⟩, false⟩,
      .poly ⟨[⟨⟨1000000⟩, zero, .xy⟩, ⟨⟨2000000⟩, zero, .xy⟩, ⟨⟨3000000⟩, zero, .xy⟩, ⟨⟨4000000⟩, zero, .xy⟩,
        ⟨⟨5000000⟩, zero, .xy⟩], ⟨100000⟩, ⟨.front, .fab⟩⟩]⟩

example : Fp.toText Fm.stdQuote 0 Spec.threeElements =
    str! "(module T\n  (pad 1 smd rect (at 1 1.5) (size 2 3) (layers F.Cu)\n    (net 3 GND) (zone_connect 2))\n  (fp_text value V (at 1 2) (layer F.Fab)\n    (effects (font (size 1 1) (thickness 0.15)))\n  )\n  (fp_poly (pts (xy 1 0) (xy 2 0) (xy 3 0) (xy 4 0)\n    (xy 5 0)) (layer F.Fab) (width 0.1))\n)" := by
  decide +kernel

end Verif
