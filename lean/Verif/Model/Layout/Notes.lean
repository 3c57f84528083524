import Verif.Model.Layout.Codec
/-!
# What reading a layout logs

The `debug!` records of the reader, each as the tree it is about.  How a tree is
printed in a record (`Display for Sexp` of the symbolic_expressions crate) is not
modelled.
-/

namespace Verif.Lay
open Verif Flt Sx

variable {F : Type} [Flt F]

/-- A `debug!` record: a section that is not known (src/layout/de.rs 255), a part
of a zone that is not known (src/layout/de.rs 362). -/
inductive Note
  | element (s : Sexp)
  | zonePart (s : Sexp)

/-- What a computation logs and how it ends (src/layout/de.rs 254-257). -/
structure Noted (α : Type) where
  notes : List Note
  res : Res α

namespace Noted

/-- A computation that logs nothing (e.g. src/layout/de.rs 338). -/
def of {α : Type} (r : Res α) : Noted α := ⟨[], r⟩

/-- `debug!` (src/layout/de.rs 255, 362). -/
def note (n : Note) : Noted Unit := ⟨[n], .ok ()⟩

/-- Go on after a success (`?` and sequencing in Rust, e.g. src/layout/de.rs 338-349). -/
def bind {α β : Type} (x : Noted α) (f : α → Noted β) : Noted β :=
  match x.res with
  | .ok a => ⟨x.notes ++ (f a).notes, (f a).res⟩
  | .err e => ⟨x.notes, .err e⟩
  | .panic => ⟨x.notes, .panic⟩
  | .diverge => ⟨x.notes, .diverge⟩

instance : Monad Noted where -- the `?` of src/layout/de.rs 338-349
  pure a := of (.ok a)
  bind := bind

end Noted

/-- The loop over the rest of a zone, with what it logs (src/layout/de.rs 354-364). -/
def Zone.fillRestNoted : Zone F → List Sexp → Noted (Zone F)
  | z, [] => .of (.ok z)
  | z, x :: r =>
    match single (str! "polygon") (Fp.Pts.de (F := F)) x with
    | .ok p => Zone.fillRestNoted { z with polygons := z.polygons ++ [p] } r
    | _ =>
      match single (str! "filled_polygon") (Fp.Pts.de (F := F)) x with
      | .ok p => Zone.fillRestNoted { z with filledPolygons := z.filledPolygons ++ [p] } r
      | _ =>
        match single (str! "fill_segments") (Fp.Pts.de (F := F)) x with
        | .ok p => Zone.fillRestNoted { z with fillSegments := some p } r
        | _ => do
          Noted.note (.zonePart x)
          Zone.fillRestNoted { z with other := z.other ++ [x] } r

/-- `FromSexp for Zone`, with what it logs (src/layout/de.rs 336-382). -/
def Zone.deNoted (s : Sexp) : Noted (Zone F) := do
  let i ← Noted.of (iter (str! "zone") s)
  let (net, i) ← Noted.of (eat (inList (str! "net") int) i)
  let (netName, i) ← Noted.of (eat (inList (str! "net_name") string) i)
  let (layer, i) ← Noted.of (eat Fp.Layer.de i)
  let (tstamp, i) ← Noted.of (eat (inList (str! "tstamp") string) i)
  let (hatch, i) ← Noted.of (eat (Hatch.de (F := F)) i)
  let (priority, i) ← Noted.of (maybe (inList (str! "priority") int) i)
  let (connectPads, i) ← Noted.of (eat (ConnectPads.de (F := F)) i)
  let (minThickness, i) ← Noted.of (eat (inList (str! "min_thickness") flt) i)
  let (keepout, i) ← Noted.of (maybe Keepout.de i)
  let (fill, i) ← Noted.of (eat (Fill.de (F := F)) i)
  Zone.fillRestNoted ⟨net, netName, layer, tstamp, hatch, asU64 (priority.getD 0), connectPads,
    minThickness, keepout, fill, [], [], none, []⟩ i

/-- The names in the chain of src/layout/de.rs 469-518 other than `zone`. -/
def quietNames : List Str :=
  [str! "version", str! "host", str! "general", str! "page", str! "layers", str! "module",
   str! "net", str! "net_class", str! "gr_text", str! "gr_line", str! "gr_arc", str! "gr_circle",
   str! "dimension", str! "segment", str! "via", str! "setup"]

/-- One iteration of `FromSexp for Layout`, with what it logs (src/layout/de.rs
467-524): only the branch for zones and the last one, `parse_other` (254-257), log
anything; the others are those of `Layout.step`. -/
def Layout.stepNoted (l : Layout F) (e : Sexp) : Noted (Layout F) := do
  let n ← Noted.of (listName e)
  let push (x : Elem F) : Layout F := { l with elements := l.elements ++ [x] }
  if n ∈ quietNames then Noted.of (l.step e)
  else if n = str! "zone" then do
    let v ← Zone.deNoted e
    Noted.of (.ok (push (.zone v)))
  else do
    Noted.note (.element e)
    Noted.of (.ok (push (.other e)))

/-- The loop of `FromSexp for Layout`, with what it logs (src/layout/de.rs 467-524). -/
def Layout.fillNoted : Layout F → List Sexp → Noted (Layout F)
  | l, [] => .of (.ok l)
  | l, e :: r => do
    let l' ← l.stepNoted e
    Layout.fillNoted l' r

/-- `FromSexp for Layout`, with what it logs (src/layout/de.rs 462-527). -/
def Layout.deNoted (s : Sexp) : Noted (Layout F) := do
  let i ← Noted.of (iter (str! "kicad_pcb") s)
  Layout.fillNoted Layout.dflt i

/-- `layout::parse`, with what it logs (src/layout/mod.rs 25-31). -/
def parseNoted (s : Str) : Noted (Layout F) := do
  let t ← Noted.of (parseSexp s)
  Layout.deNoted t

end Verif.Lay
