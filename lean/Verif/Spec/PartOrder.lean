import Verif.Spec.LayoutGrammar
/-!
# The order of the parts of a list
-/

namespace Verif.Spec
open Verif

variable {F : Type} [Flt F]

/-- The words among some trees. -/
def wordsOf : List Sexp → List Str
  | [] => []
  | .str s :: l => s :: wordsOf l
  | _ :: l => wordsOf l

/-- The names of the lists among some trees. -/
def namesOf : List Sexp → List Str
  | [] => []
  | .list (.str n :: _) :: l => n :: namesOf l
  | _ :: l => namesOf l

/-- The same list with its parts in another order.  Words stay in order among themselves, as they
have no names. -/
def Shuffled (e e' : Sexp) : Prop :=
  ∃ h xs ys, e = .list (.str h :: xs) ∧ e' = .list (.str h :: ys) ∧ xs.Perm ys ∧ wordsOf xs = wordsOf ys

/-- The same list with its first two parts exchanged. -/
def FirstTwoSwapped (e e' : Sexp) : Prop :=
  ∃ h a b rest, e = .list (.str h :: a :: b :: rest) ∧ e' = .list (.str h :: b :: a :: rest)

/-- `l'` comes from `l` by exchanging neighbours, again and again, where this is allowed. -/
inductive Rearranged (allowed : Sexp → Sexp → Prop) : List Sexp → List Sexp → Prop
  | refl (l) : Rearranged allowed l l
  | swap (a b x y) (h : allowed x y) : Rearranged allowed (a ++ x :: y :: b) (a ++ y :: x :: b)
  | trans {l m r} (h : Rearranged allowed l m) (h' : Rearranged allowed m r) : Rearranged allowed l r

/-- Two lists with different names. -/
def OtherName (x y : Sexp) : Prop :=
  ∃ n m r s, x = .list (.str n :: r) ∧ y = .list (.str m :: s) ∧ n ≠ m

/-- The sections of a board that are not elements. -/
def headingNames : List Str :=
  [str! "version", str! "host", str! "general", str! "page", str! "layers", str! "setup"]

/-- Two sections of a board with different names, one of which is not an element. -/
def OtherSection (x y : Sexp) : Prop :=
  ∃ n m r s, x = .list (.str n :: r) ∧ y = .list (.str m :: s) ∧ n ≠ m ∧ (n ∈ headingNames ∨ m ∈ headingNames)

/-- Two entries of the setup, one of which is the list of plot parameters. -/
def OtherSetting (x y : Sexp) : Prop :=
  ∃ n m r s, x = .list (.str n :: r) ∧ y = .list (.str m :: s) ∧ n ≠ m ∧
    (n = str! "pcbplotparams" ∨ m = str! "pcbplotparams")

/-- A well-formed polygon of a zone. -/
def ZonePolygon (F : Type) [Flt F] (x : Sexp) : Prop :=
  ∃ name ∈ [str! "polygon", str! "filled_polygon", str! "fill_segments"],
    ∃ p : List (Fp.Xy F), Named name PtsTree x p

/-- The names of the first parts of a zone. -/
def zoneHeadNames : List Str :=
  [str! "net", str! "net_name", str! "layer", str! "tstamp", str! "hatch", str! "priority", str! "connect_pads",
   str! "min_thickness", str! "keepout", str! "fill"]

/-- Two of the last parts of a zone with different names, one of which is a well-formed polygon. -/
def OtherPolygon (F : Type) [Flt F] (x y : Sexp) : Prop :=
  OtherName x y ∧ (ZonePolygon F x ∨ ZonePolygon F y) ∧
    ∀ n ∈ zoneHeadNames, ∀ r, x ≠ .list (.str n :: r) ∧ y ≠ .list (.str n :: r)

/-- The names of the last parts of a pad. -/
def padEntryNames : List Str :=
  [str! "net", str! "solder_paste_margin", str! "solder_mask_margin", str! "clearance", str! "thermal_gap", str! "zone_connect"]

/-- Two of the last parts of a pad with different names. -/
def OtherEntry (x y : Sexp) : Prop :=
  ∃ n m r s, x = .list (.str n :: r) ∧ y = .list (.str m :: s) ∧ n ≠ m ∧ n ∈ padEntryNames ∧ m ∈ padEntryNames

end Verif.Spec
