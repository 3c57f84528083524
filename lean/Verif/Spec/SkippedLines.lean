import Verif.Spec.SchematicGrammar
/-!
# The lines of a schematic that mean nothing

Components and sheets may contain lines that begin with none of the known words.  They
are skipped, and the reader is expected to say so.
-/

namespace Verif.Spec
open Verif

/-- The notice for a skipped line of a component. -/
def componentNotice (line : Str) : Str := str! "skipping unknown component line " ++ line

/-- The notice for a skipped line of a sheet. -/
def sheetNotice (line : Str) : Str := str! "skipping unknown sheet line " ++ line

/-- `CompSkips ls sk`: of the lines `ls` of a component the lines `sk` mean nothing.  The
line after one that begins with `1` or `0` is always the rotation. -/
inductive CompSkips : List Str → List Str → Prop
  | nil : CompSkips [] []
  | entry {w l ls sk} (hw : w ∈ [str! "L", str! "U", str! "P", str! "F", str! "AR"]) (hb : BeginsWith w l)
      (h : CompSkips ls sk) : CompSkips (l :: ls) sk
  | rotation {l m ls sk} (hb : BeginsWith (str! "1") l ∨ BeginsWith (str! "0") l) (h : CompSkips ls sk) :
      CompSkips (l :: m :: ls) sk
  | other {l ls sk} (hb : ∀ w ∈ compWords, ¬ BeginsWith w l) (h : CompSkips ls sk) : CompSkips (l :: ls) (l :: sk)

/-- `SheetSkips ls sk`: of the lines `ls` of a sheet the lines `sk` mean nothing. -/
inductive SheetSkips : List Str → List Str → Prop
  | nil : SheetSkips [] []
  | entry {l ls sk} (hb : BeginsWith (str! "S") l ∨ BeginsWith (str! "U") l ∨ ∃ n, BeginsWith ('F' :: n) l)
      (h : SheetSkips ls sk) : SheetSkips (l :: ls) sk
  | other {l ls sk} (hs : ¬ BeginsWith (str! "S") l) (hu : ¬ BeginsWith (str! "U") l)
      (hf : ∀ n, ¬ BeginsWith ('F' :: n) l) (h : SheetSkips ls sk) : SheetSkips (l :: ls) (l :: sk)

/-- The notices for the lines of one item; only components and sheets have skipped lines. -/
inductive PartNotices : List Str → List Str → Prop
  | component {l ls sk} (hb : BeginsWith (str! "$Comp") l) (h : CompSkips ls sk) :
      PartNotices (l :: ls ++ [str! "$EndComp"]) (sk.map componentNotice)
  | sheet {l ls sk} (hb : BeginsWith (str! "$Sheet") l) (h : SheetSkips ls sk) :
      PartNotices (l :: ls ++ [str! "$EndSheet"]) (sk.map sheetNotice)
  | plain {l ls} (hc : ¬ BeginsWith (str! "$Comp") l) (hs : ¬ BeginsWith (str! "$Sheet") l) : PartNotices (l :: ls) []

/-- The notices for the lines after the header. -/
inductive ContentNotices (F : Type) [Flt F] : List Str → List Str → Prop
  | nil : ContentNotices F [] []
  | cons {a b ns ms} {p : Part F} (h : PartLines a p) (hn : PartNotices a ns) (ht : ContentNotices F b ms) :
      ContentNotices F (a ++ b) (ns ++ ms)

/-- `Interleaved ls a b`: the list `ls` consists of the lists `a` and `b`, each in its own order. -/
inductive Interleaved {α : Type} : List α → List α → List α → Prop
  | nil : Interleaved [] [] []
  | left {x ls a b} (h : Interleaved ls a b) : Interleaved (x :: ls) (x :: a) b
  | right {x ls a b} (h : Interleaved ls a b) : Interleaved (x :: ls) a (x :: b)

/-- The notice names the line. -/
def Names (notice line : Str) : Prop := notice = componentNotice line ∨ notice = sheetNotice line

end Verif.Spec
