import Verif.Model.SchematicApi
/-!
# Specification vocabulary: schematics
-/

namespace Verif.Spec
open Verif Sch

variable {F : Type} [Flt F]

/-- `f'` is the field `f` after setting the field called `name` to `value`: same
number, place, formatting and name; the value is new exactly for the field of
that name; fields other than reference (0) and value (1) are hidden. -/
def SetTo (name value : Str) (f f' : Field F) : Prop :=
  f'.i = f.i ∧ f'.name = f.name ∧ f'.orientation = f.orientation ∧ f'.x = f.x ∧ f'.y = f.y ∧
  f'.size = f.size ∧ f'.hjustify = f.hjustify ∧ f'.vjustify = f.vjustify ∧ f'.italic = f.italic ∧
  f'.bold = f.bold ∧ (f.name = name → f'.value = value) ∧ (f.name ≠ name → f'.value = f.value) ∧
  (1 < f.i → f'.visible = false) ∧ (f.i ≤ 1 → f'.visible = f.visible)

/-- Two components agree except for their fields. -/
def SameButFields (c c' : Component F) : Prop :=
  c'.name = c.name ∧ c'.reference = c.reference ∧ c'.u = c.u ∧ c'.x = c.x ∧ c'.y = c.y ∧
  c'.arPath = c.arPath ∧ c'.rotation = c.rotation

/-- The largest `i64`. -/
def lastI64 : Int := 9223372036854775807

/-- A sample field. -/
def sampleField (F : Type) [Flt F] (i : Int) (name value : Str) : Field F :=
  ⟨i, value, .horizontal, Flt.lit 1 0, Flt.lit 2 0, 60, true, .left, .center, false, true, name⟩

/-- A sample component with three fields. -/
def sampleComponent (F : Type) [Flt F] : Component F :=
  { name := str! "R", reference := str! "R1", u := str! "U 1 1 50EA06D6", x := 100, y := -200,
    arPath := [str! "AR Path=\"/1\" Ref=\"R1\""],
    fields := [sampleField F 0 (str! "Reference") (str! "R1"), sampleField F 1 (str! "Value") (str! "10k"),
      sampleField F 4 (str! "MPN") (str! "X 1")],
    rotation := ⟨1, 0, 0, -1⟩ }

end Verif.Spec
