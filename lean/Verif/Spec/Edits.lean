import Verif.Spec.LayoutFile
import Verif.Model.Footprint.Check
/-!
# Editing sessions

A program edits a footprint or a board by a sequence of library calls.  The
conditions on the arguments say which values the file format has room for.
-/

namespace Verif.Spec
open Verif Flt

variable {F : Type} [Flt F]

/-- The calls that change a footprint. -/
inductive FpEdit (F : Type)
  | flip
  | rotate (angle : F)
  | move (x y : F)
  | setReference (old new : Str)
  | renameNet (old new : Str)
  | append (e : Fp.Elem F)
  | fix (cfg : Config F)

/-- Making the call. -/
def FpEdit.run : FpEdit F → Fp.Module F → Fp.Module F
  | .flip, m => m.flip
  | .rotate a, m => m.rotate a
  | .move x y, m => m.adjust x y
  | .setReference a b, m => m.setReference a b
  | .renameNet a b, m => m.renameNet a b
  | .append e, m => m.append e
  | .fix cfg, m => m.fix cfg

/-- The arguments fit the file format: new names survive quoting (`Clean`),
an appended element can be saved, the configured letters are not of size zero or
less. -/
def FpEdit.Fits : FpEdit F → Prop
  | .setReference _ b => Clean b
  | .renameNet _ b => Clean b
  | .append e => GoodElem e ∧ ∀ s ∈ strings e, Clean s
  | .fix cfg => lt zero cfg.fontSize = true
  | _ => True

/-- Making the calls one after the other. -/
def runFp (edits : List (FpEdit F)) (m : Fp.Module F) : Fp.Module F :=
  edits.foldl (fun m e => e.run m) m

/-- The calls that change a board. -/
inductive BoardEdit (F : Type)
  | move (x y : F)
  | renameNet (old new : Str)
  | addNet (num : Int) (name : Str)
  | addNetclass (nc : Lay.NetClass F)
  | setSetup (name value : Str)
  | editModule (reference : Str) (edits : List (FpEdit F))
  | append (e : Lay.Elem F)

/-- Making the call. -/
def BoardEdit.run : BoardEdit F → Lay.Layout F → Res (Lay.Layout F)
  | .move x y, l => .ok (l.adjust x y)
  | .renameNet a b, l => l.changeNetName a b
  | .addNet n name, l => .ok (l.addNet n name)
  | .addNetclass nc, l => .ok (l.addNetclass nc)
  | .setSetup n v, l => .ok { l with setup := l.setup.updateElement n v }
  | .editModule r es, l => l.modifyModule r (runFp es)
  | .append e, l => .ok { l with elements := l.elements ++ [e] }

/-- The arguments fit the file format. -/
def BoardEdit.Fits : BoardEdit F → Prop
  | .move _ _ => True
  | .renameNet _ b => Clean b
  | .addNet n name => inI64 n ∧ Clean name
  | .addNetclass nc => ∀ s ∈ nc.name :: nc.desc :: nc.nets, Clean s
  | .setSetup n v => n ≠ str! "pcbplotparams" ∧ Clean n ∧ Clean v
  | .editModule _ es => ∀ e ∈ es, e.Fits
  | .append e => GoodBoardElem e ∧ (∀ s ∈ boardStrings e, Clean s) ∧ ∀ t ∈ boardTrees e, CleanTree t

/-- Making the calls one after the other; a failing call leaves the board as it
is and the program goes on. -/
def runBoard : List (BoardEdit F) → Lay.Layout F → Res (Lay.Layout F)
  | [], l => .ok l
  | e :: es, l =>
    match e.run l with
    | .ok l' => runBoard es l'
    | .err _ => runBoard es l
    | .panic => .panic
    | .diverge => .diverge

end Verif.Spec
