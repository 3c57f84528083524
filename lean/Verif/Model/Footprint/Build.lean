import Verif.Model.Footprint.Data
/-!
# Footprints: remaining constructors and setters (src/footprint/data.rs)
-/

namespace Verif.Fp
open Verif Flt

variable {F : Type}

/-- `At::new` (src/footprint/data.rs 602-608). -/
def At.new (x y rot : F) : At F := ⟨x, y, rot⟩

/-- `Xy::new` (src/footprint/data.rs 722-724). -/
def Xy.new (x y : F) (t : XyType) : Xy F := ⟨x, y, t⟩

/-- `Xy::default` (src/footprint/data.rs 690-694, 697). -/
def Xy.dflt [Flt F] : Xy F := ⟨zero, zero, .xy⟩

/-- `Effects::from_font` (src/footprint/data.rs 654-659). -/
def Effects.fromFont (font : Font F) (justify : Option Justify) : Effects F := ⟨font, justify⟩

/-- `FpText::set_effects` (src/footprint/data.rs 566-568). -/
def FpText.setEffects (t : FpText F) (e : Effects F) : FpText F := { t with effects := e }

/-- `FpText::set_layer` (src/footprint/data.rs 570-572). -/
def FpText.setLayer (t : FpText F) (l : Layer) : FpText F := { t with layer := l }

/-- `Layers::append` (src/footprint/data.rs 990-992), on the `layers` of a pad. -/
def Pad.appendLayer (p : Pad F) (l : Layer) : Pad F := { p with layers := p.layers ++ [l] }

/-- `Pad::set_net` (src/footprint/data.rs 1125-1127). -/
def Pad.setNet (p : Pad F) (n : Net) : Pad F := { p with net := some n }

/-- `Pad::set_drill` (src/footprint/data.rs 1130-1132). -/
def Pad.setDrill (p : Pad F) (d : Drill F) : Pad F := { p with drill := some d }

/-- `Drill::default` (src/footprint/data.rs 771, derived). -/
def Drill.dflt [Flt F] : Drill F := ⟨none, zero, zero, zero, zero⟩

/-- `FpPoly::default` (src/footprint/data.rs 1152, derived). -/
def FpPoly.dflt [Flt F] : FpPoly F := ⟨[], zero, Layer.dflt⟩

end Verif.Fp
