import Verif.Model.Layout.Data
import Verif.Model.Footprint.Build
/-!
# Layouts: derived defaults of the elements (src/layout/data.rs)
-/

namespace Verif.Lay
open Verif Flt

variable {F : Type} [Flt F]

/-- `GrText::default` (src/layout/data.rs 337, derived). -/
def GrText.dflt : GrText F := ⟨[], Fp.At.dflt, Fp.Layer.dflt, Fp.Effects.dflt, none⟩

/-- `GrLine::default` (src/layout/data.rs 365, derived). -/
def GrLine.dflt : GrLine F := ⟨Fp.Xy.dflt, Fp.Xy.dflt, zero, Fp.Layer.dflt, zero, none⟩

/-- `GrArc::default` (src/layout/data.rs 399, derived). -/
def GrArc.dflt : GrArc F := ⟨Fp.Xy.dflt, Fp.Xy.dflt, zero, Fp.Layer.dflt, zero, none⟩

/-- `GrCircle::default` (src/layout/data.rs 434, derived). -/
def GrCircle.dflt : GrCircle F := ⟨Fp.Xy.dflt, Fp.Xy.dflt, Fp.Layer.dflt, zero, none⟩

/-- `Dimension::default` (src/layout/data.rs 472, derived). -/
def Dimension.dflt : Dimension F :=
  ⟨[], zero, Fp.Layer.dflt, none, GrText.dflt, [], [], [], [], [], [], []⟩

/-- `Segment::default` (src/layout/data.rs 530, derived). -/
def Segment.dflt : Segment F := ⟨Fp.Xy.dflt, Fp.Xy.dflt, zero, Fp.Layer.dflt, 0, none, none⟩

/-- `Via::default` (src/layout/data.rs 568, derived). -/
def Via.dflt : Via F := ⟨false, false, Fp.At.dflt, zero, zero, [], 0⟩

end Verif.Lay
