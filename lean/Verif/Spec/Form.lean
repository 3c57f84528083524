import Verif.Spec.Sexp
import Verif.Spec.Numerals
/-!
# Forms of KiCad files

A notation for the S-expression formats as KiCad documents them: the words, the
names of the lists, the order of the parts, what is optional and what may be
repeated.  It knows nothing of the library's data types, its reader or its writer.
-/

namespace Verif.Spec
open Verif

/-- A form describes sequences of trees. -/
inductive Form
  | nothing
  /-- this word -/
  | word (s : Str)
  /-- any word -/
  | name
  /-- a number -/
  | number
  /-- a whole number of 64 bits -/
  | whole
  /-- a natural number -/
  | natural
  /-- a hexadecimal number -/
  | hex
  /-- a list with a name other than these -/
  | foreign (known : List Str)
  /-- any tree but the lists with these names -/
  | besides (known : List Str)
  /-- a list with this name and these parts -/
  | list (name : Str) (parts : Form)
  /-- a list without a name of its own -/
  | row (parts : Form)
  | seq (a b : Form)
  | either (a b : Form)
  | many (a : Form)

namespace Form

/-- The sequences of trees of this form; `F` is the type of numbers. -/
def Fits (F : Type) [Flt F] : Form → List Sexp → Prop
  | nothing, l => l = []
  | word s, l => l = [.str s]
  | name, l => ∃ s, l = [.str s]
  | number, l => ∃ s, l = [.str s] ∧ ∃ x : F, FloatWord s x
  | whole, l => ∃ s, l = [.str s] ∧ ∃ i, IntWord s i
  | natural, l => ∃ s, l = [.str s] ∧ ∃ n, Decimal s n
  | hex, l => ∃ s, l = [.str s] ∧ s ≠ [] ∧ ∀ c ∈ s, c ∈ str! "0123456789ABCDEF"
  | foreign known, l => ∃ n r, l = [.list (.str n :: r)] ∧ n ∉ known
  | besides known, l => ∃ e, l = [e] ∧ ∀ n r, e = .list (.str n :: r) → n ∉ known
  | list n f, l => ∃ r, l = [.list (.str n :: r)] ∧ f.Fits F r
  | row f, l => ∃ r, l = [.list r] ∧ f.Fits F r
  | seq a b, l => ∃ l1 l2, l = l1 ++ l2 ∧ a.Fits F l1 ∧ b.Fits F l2
  | either a b, l => a.Fits F l ∨ b.Fits F l
  | many a, l => ∃ ls : List (List Sexp), l = ls.flatten ∧ ∀ p ∈ ls, a.Fits F p

/-- At most one. -/
def opt (a : Form) : Form := either nothing a

/-- One after the other. -/
def seqs : List Form → Form
  | [] => nothing
  | a :: l => seq a (seqs l)

/-- One of several. -/
def oneOf : List Form → Form
  | [] => nothing
  | [a] => a
  | a :: l => either a (oneOf l)

/-- A list with a name and parts one after the other. -/
def lst (n : Str) (parts : List Form) : Form := list n (seqs parts)

end Form

open Form

/-! ## Footprints -/

def pointForm (n : Str) : Form := lst n [number, number]
def layerForm : Form := lst (str! "layer") [name]
def layersForm : Form := lst (str! "layers") [many name]
def widthForm : Form := lst (str! "width") [number]
def atForm : Form := lst (str! "at") [number, number, opt number]
def ptsForm : Form := lst (str! "pts") [many (pointForm (str! "xy"))]
def xyzForm (n : Str) : Form := lst n [lst (str! "xyz") [number, number, number]]

def effectsForm : Form :=
  lst (str! "effects") [
    lst (str! "font") [opt (pointForm (str! "size")), lst (str! "thickness") [number],
      opt (word (str! "italic"))],
    opt (lst (str! "justify") [oneOf [word (str! "left"), word (str! "right"), word (str! "mirror")]])]

def textForm : Form :=
  lst (str! "fp_text") [name, name, atForm, layerForm, opt (word (str! "hide")), effectsForm]

def netForm : Form := lst (str! "net") [whole, name]

def drillForm : Form :=
  lst (str! "drill") [opt (word (str! "oval")), number, opt number, opt (pointForm (str! "offset"))]

def padForm : Form :=
  lst (str! "pad") [name,
    oneOf [word (str! "smd"), word (str! "thru_hole"), word (str! "np_thru_hole")],
    oneOf [word (str! "rect"), word (str! "circle"), word (str! "oval"), word (str! "trapezoid")],
    atForm, pointForm (str! "size"), opt drillForm, opt (pointForm (str! "rect_delta")), layersForm,
    opt netForm, opt (lst (str! "zone_connect") [whole]),
    opt (lst (str! "solder_paste_margin") [number]), opt (lst (str! "solder_mask_margin") [number]),
    opt (lst (str! "clearance") [number]), opt (lst (str! "thermal_gap") [number])]

def itemForm : Form :=
  oneOf [
    word (str! "locked"),
    layerForm,
    lst (str! "tedit") [hex],
    lst (str! "tstamp") [hex],
    atForm,
    lst (str! "descr") [name],
    lst (str! "tags") [name],
    lst (str! "path") [name],
    lst (str! "attr") [name],
    lst (str! "solder_mask_margin") [number],
    lst (str! "clearance") [number],
    textForm,
    lst (str! "fp_line") [pointForm (str! "start"), pointForm (str! "end"), layerForm, widthForm],
    lst (str! "fp_circle") [pointForm (str! "center"), pointForm (str! "end"), layerForm, widthForm],
    lst (str! "fp_arc") [pointForm (str! "start"), pointForm (str! "end"), lst (str! "angle") [number],
      layerForm, widthForm],
    lst (str! "fp_poly") [ptsForm, layerForm, widthForm],
    padForm,
    lst (str! "model") [name, xyzForm (str! "at"), xyzForm (str! "scale"), xyzForm (str! "rotate")]]

/-- A footprint file. -/
def moduleForm : Form := lst (str! "module") [name, many itemForm]

/-! ## Boards -/

def tstampForm : Form := opt (lst (str! "tstamp") [name])

def generalForm : Form :=
  lst (str! "general") [
    lst (str! "links") [whole], lst (str! "no_connects") [whole],
    lst (str! "area") [number, number, number, number], lst (str! "thickness") [number],
    lst (str! "drawings") [whole], lst (str! "tracks") [whole], lst (str! "zones") [whole],
    lst (str! "modules") [whole], lst (str! "nets") [whole]]

def boardLayersForm : Form :=
  lst (str! "layers") [many (row (seqs [whole, name,
    oneOf [word (str! "signal"), word (str! "power"), word (str! "mixed"), word (str! "jumper"),
      word (str! "user")],
    opt (word (str! "hide"))]))]

def settingForm : Form := row (seqs [name, name, opt name])

def setupForm : Form :=
  lst (str! "setup") [many settingForm, lst (str! "pcbplotparams") [many settingForm]]

def netClassForm : Form :=
  lst (str! "net_class") [name, name, lst (str! "clearance") [number],
    lst (str! "trace_width") [number], lst (str! "via_dia") [number], lst (str! "via_drill") [number],
    lst (str! "uvia_dia") [number], lst (str! "uvia_drill") [number],
    opt (lst (str! "diff_pair_gap") [number]), opt (lst (str! "diff_pair_width") [number]),
    many (lst (str! "add_net") [name])]

def grTextForm : Form := lst (str! "gr_text") [name, atForm, layerForm, effectsForm, tstampForm]

def ptsIn (n : Str) : Form := lst n [ptsForm]

def dimensionForm : Form :=
  lst (str! "dimension") [name, widthForm, layerForm, tstampForm, grTextForm,
    ptsIn (str! "feature1"), ptsIn (str! "feature2"), ptsIn (str! "crossbar"), ptsIn (str! "arrow1a"),
    ptsIn (str! "arrow1b"), ptsIn (str! "arrow2a"), ptsIn (str! "arrow2b")]

def allowedForm (n : Str) : Form := lst n [oneOf [word (str! "allowed"), word (str! "not_allowed")]]

def zoneForm : Form :=
  lst (str! "zone") [lst (str! "net") [whole], lst (str! "net_name") [name], layerForm,
    lst (str! "tstamp") [name], lst (str! "hatch") [name, number],
    opt (lst (str! "priority") [natural]),
    lst (str! "connect_pads") [opt name, lst (str! "clearance") [number]],
    lst (str! "min_thickness") [number],
    opt (lst (str! "keepout") [allowedForm (str! "tracks"), allowedForm (str! "vias"),
      allowedForm (str! "copperpour")]),
    lst (str! "fill") [opt (word (str! "yes")), opt (lst (str! "mode") [word (str! "segment")]),
      lst (str! "arc_segments") [whole], lst (str! "thermal_gap") [number],
      lst (str! "thermal_bridge_width") [number], opt (lst (str! "smoothing") [name]),
      opt (lst (str! "radius") [number])],
    many (ptsIn (str! "polygon")), many (ptsIn (str! "filled_polygon")),
    opt (ptsIn (str! "fill_segments")),
    many (besides [str! "polygon", str! "filled_polygon", str! "fill_segments"])]

def boardItemForm : Form :=
  oneOf [
    moduleForm, netForm, netClassForm, grTextForm,
    lst (str! "gr_line") [pointForm (str! "start"), pointForm (str! "end"),
      lst (str! "angle") [number], layerForm, widthForm, tstampForm],
    lst (str! "gr_arc") [pointForm (str! "start"), pointForm (str! "end"),
      lst (str! "angle") [number], layerForm, widthForm, tstampForm],
    lst (str! "gr_circle") [pointForm (str! "center"), pointForm (str! "end"), layerForm, widthForm,
      tstampForm],
    dimensionForm,
    lst (str! "segment") [pointForm (str! "start"), pointForm (str! "end"), widthForm, layerForm,
      lst (str! "net") [whole], tstampForm, opt (lst (str! "status") [name])],
    lst (str! "via") [opt (word (str! "blind")), opt (word (str! "micro")), atForm,
      lst (str! "size") [number], opt (lst (str! "drill") [number]), layersForm,
      lst (str! "net") [whole]],
    zoneForm]

/-- The names of the sections of a board file. -/
def boardWords : List Str :=
  [str! "version", str! "host", str! "general", str! "page", str! "layers", str! "setup",
   str! "module", str! "net", str! "net_class", str! "gr_text", str! "gr_line", str! "gr_arc",
   str! "gr_circle", str! "dimension", str! "segment", str! "via", str! "zone"]

/-- A board file; a foreign section may stand wherever an element may. -/
def boardForm : Form :=
  lst (str! "kicad_pcb") [lst (str! "version") [whole], lst (str! "host") [name, name], generalForm,
    lst (str! "page") [name], boardLayersForm, setupForm, 
    many (either boardItemForm (foreign boardWords))]

/-! ## Library tables -/

def tableForm : Form :=
  lst (str! "fp_lib_table") [many (lst (str! "lib") [lst (str! "name") [name], lst (str! "type") [name],
    lst (str! "uri") [name], lst (str! "options") [name], lst (str! "descr") [name]])]

end Verif.Spec
