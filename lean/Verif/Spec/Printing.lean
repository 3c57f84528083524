import Verif.Spec.Sexp
/-!
# How a file must be laid out

The line layout KiCad users expect of footprint, board and library table files,
stated as tables of rules: which lists start on a line of their own, which are
closed on a line of their own, and how far they are indented.  Independent of
the formatter: no stack, no counters, no flags that travel through the tree;
the text of a list is a function of the list, of the names of the lists around
it, of the level of indentation and (for points) of its position.
-/

namespace Verif.Spec
open Verif

/-- Where a list goes: how many line breaks before it, whether its closing
parenthesis has a line of its own, how many line breaks after it. -/
structure Place where
  before : Nat
  closeOwn : Bool
  after : Nat
  deriving DecidableEq, Repr

/-- On a line of its own. -/
def ownLine : Place := ⟨1, false, 0⟩
/-- On lines of its own, closed on a line of its own. -/
def ownBlock : Place := ⟨1, true, 0⟩

/-- A layout rule: directly inside one of the parents, lists with one of the
heads (`none`: with any head) are placed like this. -/
structure Rule where
  parents : List Str
  heads : Option (List Str)
  place : Place

/-- The rule applies to a list with head `h` directly inside a list with head `p`. -/
def Rule.applies (r : Rule) (p h : Str) : Bool :=
  decide (p ∈ r.parents) && (match r.heads with | none => true | some hs => decide (h ∈ hs))

/-- The rules for footprints and texts. -/
def footprintRules : List Rule :=
  [ ⟨[str! "module"], some [str! "at", str! "descr", str! "fp_line", str! "fp_poly", str! "pad",
      str! "path", str! "fp_circle", str! "attr"], ownLine⟩,
    ⟨[str! "module"], some [str! "model", str! "fp_text", str! "gr_text"], ownBlock⟩,
    ⟨[str! "dimension"], some [str! "gr_text"], ownBlock⟩,
    ⟨[str! "fp_text", str! "gr_text"], some [str! "effects"], ownLine⟩,
    ⟨[str! "model"], some [str! "at", str! "scale", str! "rotate"], ownLine⟩,
    ⟨[str! "pad"], some [str! "net"], ownLine⟩ ]

/-- The rules for boards. -/
def boardRules : List Rule :=
  [ ⟨[str! "kicad_pcb"], some [str! "page"], ⟨2, false, 0⟩⟩,
    ⟨[str! "kicad_pcb"], some [str! "net", str! "gr_circle", str! "gr_line", str! "gr_arc",
      str! "segment", str! "via"], ownLine⟩,
    ⟨[str! "kicad_pcb"], some [str! "layers", str! "gr_text", str! "dimension", str! "zone"], ownBlock⟩,
    ⟨[str! "kicad_pcb"], some [str! "setup"], ⟨2, true, 1⟩⟩,
    ⟨[str! "kicad_pcb"], some [str! "general", str! "net_class", str! "module"], ⟨2, true, 0⟩⟩,
    ⟨[str! "general", str! "layers", str! "setup", str! "pcbplotparams", str! "net_class"], none,
      ownLine⟩,
    ⟨[str! "dimension"], some [str! "feature1", str! "feature2", str! "crossbar", str! "arrow1a",
      str! "arrow1b", str! "arrow2a", str! "arrow2b"], ownLine⟩,
    ⟨[str! "zone"], some [str! "connect_pads", str! "min_thickness", str! "fill", str! "keepout",
      str! "priority"], ownLine⟩,
    ⟨[str! "zone"], some [str! "polygon", str! "filled_polygon"], ownBlock⟩,
    ⟨[str! "polygon", str! "filled_polygon"], none, ownBlock⟩ ]

/-- The place given by the first rule that applies. -/
def byRules (rs : List Rule) (p h : Str) : Option Place :=
  (rs.find? fun r => r.applies p h).map (·.place)

/-- A point that starts a new line: a multiple of 4 (footprint polygons) or 5
points come before it; the points of zone outlines start on a new line. -/
def pointBreaks (anc : List Str) (nth : Nat) : Bool :=
  if nth = 0 then decide (str! "polygon" ∈ anc ∨ str! "filled_polygon" ∈ anc)
  else decide (nth % (if str! "fp_poly" ∈ anc then 4 else 5) = 0)

/-- The place of a list with head `h` inside lists with heads `p :: anc` (nearest
first), with `nth` points before it. -/
def placeIn (p : Str) (anc : List Str) (nth : Nat) (h : Str) : Option Place :=
  match byRules footprintRules p h with
  | some x => some x
  | none =>
    if p = str! "pts" ∧ h = str! "xy" ∧ pointBreaks (p :: anc) nth then some ownLine
    else
      match (if str! "kicad_pcb" ∈ p :: anc then byRules boardRules p h else none) with
      | some x => some x
      | none =>
        if p = str! "fp_lib_table" then some ownLine
        else if str! "fp_lib_table" ∈ anc then some ⟨0, false, 0⟩
        else none

/-- The place of a list; the outermost list has none. -/
def place (anc : List Str) (nth : Nat) (h : Str) : Option Place :=
  match anc with
  | [] => none
  | p :: anc => placeIn p anc nth h

/-- Line breaks followed by indentation, two blanks a level. -/
def startLine (n : Nat) (level : Int) : Str :=
  List.replicate n '\n' ++ List.replicate (2 * level.toNat) ' '

/-- What comes before a list with the given place. -/
def leadIn (level : Int) : Option Place → Str
  | none => []
  | some p => if p.before = 0 then [] else startLine p.before (level + 1)

/-- The closing of a list with the given place. -/
def leadOut (level : Int) : Option Place → Str
  | none => [')']
  | some p => (if p.closeOwn then startLine 1 (level + 1) else []) ++ [')'] ++ List.replicate p.after '\n'

/-- The level of indentation inside a list with the given place. -/
def inside (level : Int) : Option Place → Int
  | none => level
  | some _ => level + 1

/-- What separates an element from the one before it: a blank, unless the
element is a list with a place of its own. -/
def gap (anc : List Str) (nth : Nat) : Sexp → Str
  | .list (.str h :: _) => if (place anc nth h).isSome then [] else [' ']
  | _ => [' ']

/-- A list counted as a point. -/
def isPoint : Sexp → Bool
  | .list (.str h :: _) => decide (h = str! "xy")
  | _ => false

mutual
/-- The text of an element inside lists with heads `anc`, given how an atom is
spelled. -/
def layOut (spell : Str → Str) (anc : List Str) (level : Int) (nth : Nat) : Sexp → Str
  | .str s => spell s
  | .empty => []
  | .list (.str h :: l) =>
    leadIn level (place anc nth h) ++ ['('] ++ spell h ++
      layOutL spell (h :: anc) (inside level (place anc nth h)) 0 l ++ leadOut level (place anc nth h)
  | .list _ => []
/-- The text of the elements of a list after the first one; `nth` points come
before. -/
def layOutL (spell : Str → Str) (anc : List Str) (level : Int) (nth : Nat) : List Sexp → Str
  | [] => []
  | x :: xs => gap anc nth x ++ layOut spell anc level nth x ++
      layOutL spell anc level (if isPoint x then nth + 1 else nth) xs
end

mutual
/-- Trees the layout is specified for: every list starts with a nonempty atom;
no list is called `module`, `kicad_pcb` or `segment` (these only occur at the
top of a file or of a board, see `boardText`); no list of points inside a list
of points. -/
def Regular (inPts : Bool) : Sexp → Prop
  | .str _ => True
  | .empty => True
  | .list (.str h :: l) =>
    h ≠ [] ∧ h ≠ str! "module" ∧ h ≠ str! "kicad_pcb" ∧ h ≠ str! "segment" ∧
      ¬ (inPts = true ∧ h = str! "pts") ∧ RegularL (inPts || decide (h = str! "pts")) l
  | .list _ => False
/-- The same for a sequence. -/
def RegularL (inPts : Bool) : List Sexp → Prop
  | [] => True
  | x :: xs => Regular inPts x ∧ RegularL inPts xs
end

mutual
def decRegular (b : Bool) : (e : Sexp) → Decidable (Regular b e)
  | .str _ => .isTrue (by simp [Regular])
  | .empty => .isTrue (by simp [Regular])
  | .list (.str h :: l) =>
    have := decRegularL (b || decide (h = str! "pts")) l
    decidable_of_iff (h ≠ [] ∧ h ≠ str! "module" ∧ h ≠ str! "kicad_pcb" ∧ h ≠ str! "segment" ∧
      ¬ (b = true ∧ h = str! "pts") ∧ RegularL (b || decide (h = str! "pts")) l) (by simp [Regular])
  | .list [] => .isFalse (by simp [Regular])
  | .list (.list _ :: _) => .isFalse (by simp [Regular])
  | .list (.empty :: _) => .isFalse (by simp [Regular])
def decRegularL (b : Bool) : (l : List Sexp) → Decidable (RegularL b l)
  | [] => .isTrue (by simp [RegularL])
  | x :: xs =>
    have := decRegular b x
    have := decRegularL b xs
    decidable_of_iff (Regular b x ∧ RegularL b xs) (by simp [RegularL])
end

instance (b : Bool) (e : Sexp) : Decidable (Regular b e) := decRegular b e
instance (b : Bool) (l : List Sexp) : Decidable (RegularL b l) := decRegularL b l

/-- The text of a whole file that is not a board: the outermost list; those of
footprints and library tables are closed on a line of their own, which is not
indented. -/
def fileText (spell : Str → Str) (level : Int) (h : Str) (l : List Sexp) : Str :=
  ['('] ++ spell h ++ layOutL spell [h] level 0 l ++
    (if h = str! "module" ∨ h = str! "fp_lib_table" then ['\n'] else []) ++ [')']

mutual
/-- A tree on one line: single blanks between the elements. -/
def flat (spell : Str → Str) : Sexp → Str
  | .str s => spell s
  | .empty => []
  | .list [] => str! "()"
  | .list (x :: l) => ['('] ++ flat spell x ++ flatL spell l ++ [')']
/-- Trees on one line, each after a blank. -/
def flatL (spell : Str → Str) : List Sexp → Str
  | [] => []
  | x :: xs => [' '] ++ flat spell x ++ flatL spell xs
end

/-- Points after a blank each, a new line (at the given level) before every
point that has a positive multiple of `wrap` points before it. -/
def wrapPoints (spell : Str → Str) (wrap : Nat) (level : Int) (nth : Nat) : List Sexp → Str
  | [] => []
  | x :: xs =>
    (if isPoint x ∧ nth ≠ 0 ∧ nth % wrap = 0 then startLine 1 level else [' ']) ++ flat spell x ++
      wrapPoints spell wrap level (if isPoint x then nth + 1 else nth) xs

/-- The elements after a blank each, lists with one of the given heads on a new
line instead. -/
def broken (spell : Str → Str) (heads : List Str) (level : Int) (l : List Sexp) : Str :=
  l.flatMap fun x => (match x with
    | .list (.str h :: _) => if h ∈ heads then startLine 1 level else [' ']
    | _ => [' ']) ++ flat spell x

/-- The elements of a list after the head. -/
def body : Sexp → List Sexp
  | .list (_ :: l) => l
  | _ => []

/-- The head of a list. -/
def headOf : Sexp → Option Str
  | .list (.str h :: _) => some h
  | _ => none

/-- Names of lists the formatter follows: those that decide how their contents
are placed, and those it keeps an account of. -/
def busyNames : List Str :=
  [str! "module", str! "segment", str! "pts", str! "fp_lib_table"] ++
    (footprintRules ++ boardRules).flatMap (·.parents)

/-- Names of lists with a place of their own directly inside a board. -/
def entryNames : List Str :=
  boardRules.flatMap fun r => if str! "kicad_pcb" ∈ r.parents then r.heads.getD [] else []

mutual
/-- A tree without any list the formatter follows.  Lists need not start with an
atom, and may be empty. -/
def foreign : Sexp → Bool
  | .str _ => true
  | .empty => true
  | .list [] => true
  | .list (.str h :: l) => !decide (h ∈ busyNames) && foreignL l
  | .list (.list x :: l) => foreign (.list x) && foreignL l
  | .list (.empty :: l) => foreignL l
/-- The same for a sequence. -/
def foreignL : List Sexp → Bool
  | [] => true
  | x :: xs => foreign x && foreignL xs
end

/-- An entry of a board the formatter knows nothing about. -/
def foreignEntry : Sexp → Bool
  | .list (.str h :: l) => !decide (h = []) && !decide (h ∈ entryNames) && foreign (.list (.str h :: l))
  | _ => false

/-- An entry of a board the formatter knows nothing about is written on one line,
other entries by the table of rules. -/
def entryText (spell : Str → Str) (level : Int) (x : Sexp) : Str :=
  if foreignEntry x then flat spell x else layOut spell [str! "kicad_pcb"] level 0 x

/-- The line break between the footprints of a board and what follows, and the
one before the first track: given whether the list before this one is a
footprint, and whether there was a track before. -/
def boardBreak (level : Int) (afterModule seenSegment : Bool) (x : Sexp) : Str :=
  (match headOf x with
    | none => []
    | some h => if h ≠ str! "module" ∧ afterModule = true then startLine 1 level else []) ++
  (if headOf x = some (str! "segment") ∧ seenSegment = false then startLine 1 level else [])

/-- The entries of a board, in order. -/
def boardItems (spell : Str → Str) (level : Int) (afterModule seenSegment : Bool) : List Sexp → Str
  | [] => []
  | x :: xs =>
    gap [str! "kicad_pcb"] 0 x ++ boardBreak level afterModule seenSegment x ++
      entryText spell level x ++
      boardItems spell level
        (match headOf x with | none => afterModule | some h => decide (h = str! "module"))
        (seenSegment || decide (headOf x = some (str! "segment"))) xs

/-- Entries of a board the layout is specified for: lists start with a nonempty
atom; the formatter knows nothing about them, or boards are not nested, and tracks
and footprints do not occur deeper. -/
def BoardItem : Sexp → Prop
  | .str _ => True
  | .empty => True
  | .list (.str h :: l) =>
    foreignEntry (.list (.str h :: l)) = true ∨
      h ≠ [] ∧ h ≠ str! "kicad_pcb" ∧ RegularL (decide (h = str! "pts")) l
  | .list _ => False

/-- The text of a board. -/
def boardText (spell : Str → Str) (level : Int) (l : List Sexp) : Str :=
  ['('] ++ spell (str! "kicad_pcb") ++ boardItems spell level false false l ++ str! "\n)"

end Verif.Spec
