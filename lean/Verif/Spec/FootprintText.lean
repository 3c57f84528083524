import Verif.Spec.Printing
import Verif.Model.Footprint.Codec
/-!
# The text of a footprint file, element by element
-/

namespace Verif.Spec
open Verif Fp

variable {F : Type} [Flt F]

/-- The text of one element of a footprint that is itself at the given level of
indentation.  Lines, circles, positions and the long header entries have a line
each; pads have a line, with the net on a second one; texts and models are
blocks; the outline of a polygon is broken after every four points; everything
else stays on the line it is on. -/
def elementText (spell : Str → Str) (level : Int) : Elem F → Str
  | .pad p => startLine 1 (level + 1) ++ ['('] ++ spell (str! "pad") ++
      broken spell [str! "net"] (level + 2) (body p.ser) ++ [')']
  | .text t => startLine 1 (level + 1) ++ ['('] ++ spell (str! "fp_text") ++
      broken spell [str! "effects"] (level + 2) (body t.ser) ++ startLine 1 (level + 1) ++ [')']
  | .model m => startLine 1 (level + 1) ++ ['('] ++ spell (str! "model") ++
      broken spell [str! "at", str! "scale", str! "rotate"] (level + 2) (body m.ser) ++
      startLine 1 (level + 1) ++ [')']
  | .poly p => startLine 1 (level + 1) ++ ['('] ++ spell (str! "fp_poly") ++ str! " (" ++
      spell (str! "pts") ++ wrapPoints spell 4 (level + 2) 0 (p.pts.map Xy.ser) ++ [')'] ++
      flatL spell [Sx.pair (str! "layer") (.str p.layer.show), Sx.pair (str! "width") (Sx.ofF p.width)] ++
      [')']
  | .line l => startLine 1 (level + 1) ++ flat spell l.ser
  | .circle c => startLine 1 (level + 1) ++ flat spell c.ser
  | .at_ a => startLine 1 (level + 1) ++ flat spell a.ser
  | .descr s => startLine 1 (level + 1) ++ flat spell (Sx.pair (str! "descr") (.str s))
  | .path s => startLine 1 (level + 1) ++ flat spell (Sx.pair (str! "path") (.str s))
  | .attr s => startLine 1 (level + 1) ++ flat spell (Sx.pair (str! "attr") (.str s))
  | e => [' '] ++ flat spell e.ser

end Verif.Spec
