import Verif.Model.Footprint.Check
import Verif.Model.Programs
/-!
# What fixing a footprint logs

Records of level `info`; the `debug!` records (src/footprint/data.rs 1733, 1735, 1748) are in
`Model/BoxMsg.lean`.
-/

namespace Verif.Fp
open Verif Flt

variable {F : Type} [Flt F]

/-- `info!("Creating courtyard: {},{} -> {},{}", x1, y1, x2, y2)` (src/footprint/data.rs 1753). -/
def courtyardRecord (m : Module F) : Prog.Record :=
  let (x1, y1, x2, y2) := courtyardBox m
  (.info, str! "Creating courtyard: " ++ toStr x1 ++ str! "," ++ toStr y1 ++ str! " -> " ++ toStr x2 ++
    str! "," ++ toStr y2)

/-- Generating a courtyard, with what is logged (src/footprint/data.rs 1723-1762). -/
def fixCourtyardTold (m : Module F) : Module F × List Prog.Record :=
  if courtyardCount m < 4 then
    ({ m with elements := m.elements ++ courtyardLines m }, [courtyardRecord m])
  else (m, [])

/-- `CheckFix::fix for Module`, with what is logged (src/footprint/data.rs 1648-1763). -/
def Module.fixTold (m : Module F) (cfg : Config F) : Module F × List Prog.Record :=
  fixCourtyardTold (fixPlacement (fixTexts cfg m))

end Verif.Fp
