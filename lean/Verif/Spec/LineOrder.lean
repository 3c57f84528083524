import Verif.Spec.SchematicGrammar
/-!
# The order of the lines of a schematic or of a symbol library
-/

namespace Verif.Spec
open Verif

variable {F : Type} [Flt F]

/-- `l'` comes from `l` by exchanging neighbours, again and again, where this is allowed. -/
inductive Traded {α : Type} (allowed : α → α → Prop) : List α → List α → Prop
  | refl (l) : Traded allowed l l
  | swap (a b x y) (h : allowed x y) : Traded allowed (a ++ x :: y :: b) (a ++ y :: x :: b)
  | trans {l m r} (h : Traded allowed l m) (h' : Traded allowed m r) : Traded allowed l r

/-- The lines of some pieces, one piece after the other. -/
def linesOf {α : Type} (ps : List (List Str × α)) : List Str := ps.flatMap Prod.fst

/-- What a line of a component is about. -/
def CompEntry.kind {F : Type} : CompEntry F → Nat
  | .names .. => 0
  | .unit .. => 1
  | .position .. => 2
  | .field .. => 3
  | .rotation .. => 4
  | .path .. => 5

/-- Lines of a component that are not about the same. -/
def CompApart {F : Type} (x y : List Str × List (CompEntry F)) : Prop := ∀ e ∈ x.2, ∀ e' ∈ y.2, e.kind ≠ e'.kind

/-- What a line of a sheet is about. -/
def SheetEntry.kind : SheetEntry → Nat
  | .box .. => 0
  | .unique .. => 1
  | .name .. => 2
  | .file .. => 3
  | .label .. => 4

/-- Lines of a sheet that are not about the same. -/
def SheetApart (x y : List Str × List SheetEntry) : Prop := ∀ e ∈ x.2, ∀ e' ∈ y.2, e.kind ≠ e'.kind

/-- Two items of a schematic that are not both title blocks, not both elements and not both sheets. -/
inductive PartApart {F : Type} : List Str × Part F → List Str × Part F → Prop
  | nothingL (a y) : PartApart (a, .nothing) y
  | nothingR (x b) : PartApart x (b, .nothing)
  | descrElement (a b d e) : PartApart (a, .descr d) (b, .element e)
  | elementDescr (a b d e) : PartApart (a, .element e) (b, .descr d)
  | descrSheet (a b d s) : PartApart (a, .descr d) (b, .sheet s)
  | sheetDescr (a b d s) : PartApart (a, .sheet s) (b, .descr d)
  | elementSheet (a b e s) : PartApart (a, .element e) (b, .sheet s)
  | sheetElement (a b e s) : PartApart (a, .sheet s) (b, .element e)

/-- The first lines of a schematic. -/
def headLines (libs : List Str) (layer : Str) : List Str :=
  str! "EESchema Schematic File Version 2" :: (libs.map fun n => str! "LIBS:" ++ n) ++
    [str! "EELAYER " ++ layer, str! "EELAYER END"]

/-- The first lines of a symbol library. -/
def libraryHead : List Str := [str! "EESchema-LIBRARY Version 2.3", str! "#encoding utf-8", str! "#"]

/-- The last lines of a symbol library: none, or the end mark and anything after it. -/
def LibraryTail (ls : List Str) : Prop := ls = [] ∨ ∃ rest, ls = str! "#End Library" :: rest

end Verif.Spec
