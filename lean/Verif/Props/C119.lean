import Verif.Props.C19
import Verif.Props.C35
import Verif.Props.C52
import Verif.Props.C77
import Verif.Props.C78
/-!
# C119: how deeply files are nested

Programs that read S-expressions call themselves for every list in a list, and so does the formatter:
the nesting of a file is the stack it takes.
-/

namespace Verif
open Flt Spec

/-! ## Nesting of texts and trees -/

/-- Where in a text one is: outside of quoted words, inside of one, or behind a backslash in one. -/
inductive Spec.QuotePlace
  | outside
  | inside
  | escaped

/-- The largest number of parentheses that are open at the same time, when `n` are open at the start.
Parentheses in quoted words do not count. -/
def Spec.deepestFrom : QuotePlace → Nat → Str → Nat
  | _, n, [] => n
  | .outside, n, c :: t =>
    if c = '(' then max n (deepestFrom .outside (n + 1) t)
    else if c = ')' then max n (deepestFrom .outside (n - 1) t)
    else if c = '"' then deepestFrom .inside n t
    else deepestFrom .outside n t
  | .inside, n, c :: t =>
    if c = '"' then deepestFrom .outside n t
    else if c = '\\' then deepestFrom .escaped n t
    else deepestFrom .inside n t
  | .escaped, n, _ :: t => deepestFrom .inside n t

/-- The nesting of a text. -/
def Spec.deepest (t : Str) : Nat := deepestFrom .outside 0 t

mutual
/-- The nesting of a tree. -/
def Spec.nesting : Sexp → Nat
  | .list l => 1 + nestingAll l
  | .str _ => 0
  | .empty => 0
/-- The deepest of some trees. -/
def Spec.nestingAll : List Sexp → Nat
  | [] => 0
  | x :: l => max (nesting x) (nestingAll l)
end

theorem Spec.nestingAll_le (l : List Sexp) (n : Nat) : nestingAll l ≤ n ↔ ∀ x ∈ l, nesting x ≤ n := by
  induction l with
  | nil => simp [nestingAll]
  | cons x l ih => simp [nestingAll, ih]

theorem Spec.nesting_le_all {x : Sexp} {l : List Sexp} (h : x ∈ l) : nesting x ≤ nestingAll l :=
  (nestingAll_le l _).1 (Nat.le_refl _) x h

theorem Spec.le_deepestFrom (p : QuotePlace) (n : Nat) (t : Str) : n ≤ deepestFrom p n t := by
  induction t generalizing p n with
  | nil => cases p <;> simp [deepestFrom]
  | cons c t ih =>
    cases p
    · unfold deepestFrom
      split_ifs
      · exact Nat.le_max_left _ _
      · exact Nat.le_max_left _ _
      · exact ih _ _
      · exact ih _ _
    · unfold deepestFrom
      split_ifs <;> exact ih _ _
    · exact ih _ _

theorem Spec.deepest_plain (w : Str) (h : ∀ c ∈ w, c ≠ '(' ∧ c ≠ ')' ∧ c ≠ '"') (n : Nat) (t : Str) :
    deepestFrom .outside n (w ++ t) = deepestFrom .outside n t := by
  induction w with
  | nil => rfl
  | cons c w ih =>
    rw [List.forall_mem_cons] at h
    rw [List.cons_append, deepestFrom, if_neg h.1.1, if_neg h.1.2.1, if_neg h.1.2.2, ih h.2]

theorem Spec.deepest_quoted {w s : Str} (h : Quoted w s) (n : Nat) (t : Str) :
    deepestFrom .inside n (w ++ '"' :: t) = deepestFrom .outside n t := by
  induction h with
  | nil => simp [deepestFrom]
  | plain h1 h2 _ ih => rw [List.cons_append, deepestFrom, if_neg h1, if_neg h2, ih]
  | quote _ ih => simpa [deepestFrom] using ih
  | slash _ _ ih => simpa [deepestFrom] using ih

theorem Spec.deepest_trees {t : Str} {es : List Sexp} (h : TreesText t es) (n : Nat) (r : Str) :
    deepestFrom .outside n (t ++ r) = max (n + nestingAll es) (deepestFrom .outside n r) := by
  induction h generalizing n r with
  | nil => simp [nestingAll, le_deepestFrom]
  | space hc _ ih =>
    rename_i c t es _
    rw [← ih]
    have : c ≠ '(' ∧ c ≠ ')' ∧ c ≠ '"' := by
      refine ⟨?_, ?_, ?_⟩ <;> rintro rfl <;> revert hc <;> decide
    exact deepest_plain [c] (by simpa using this) n _
  | bare hw _ _ ih =>
    rw [List.append_assoc, deepest_plain _ (fun c hc => (hw.2 c hc).2), ih]
    simp [nestingAll, nesting]
  | quoted hw _ ih =>
    rename_i w s t es _
    have : '"' :: (w ++ '"' :: t) ++ r = '"' :: (w ++ '"' :: (t ++ r)) := by simp
    rw [this, deepestFrom, if_neg (by decide), if_neg (by decide), if_pos rfl, deepest_quoted hw, ih]
    simp [nestingAll, nesting]
  | list _ _ ih1 ih2 =>
    rename_i body l t es _ _
    have : '(' :: (body ++ ')' :: t) ++ r = '(' :: (body ++ ')' :: (t ++ r)) := by simp
    rw [this, deepestFrom, if_pos rfl, ih1, deepestFrom, if_neg (by decide), if_pos rfl, Nat.add_sub_cancel, ih2]
    simp only [nestingAll, nesting]
    omega

/-- Of a text that is read, the nesting is that of the tree. -/
theorem C119_text (t : Str) (e : Sexp) (h : parseSexp t = .ok e) : deepest t = nesting e := by
  rcases (parseSexp_iff t e).1 h with h' | ⟨h', rfl⟩
  · have := deepest_trees h' 0 []
    simpa [deepest, deepestFrom, nestingAll] using this
  · have := deepest_trees h' 0 []
    simpa [deepest, deepestFrom, nestingAll, nesting] using this

/-! ## Footprints -/

section
variable {F : Type} [Flt F]
open Fp Sx

theorem Spec.nesting_atoms (F : Type) [Flt F] : (∀ s, nesting (.str s) = 0) ∧ (∀ x : F, nesting (ofF x) = 0) ∧ (∀ i, nesting (ofI i) = 0) :=
  ⟨fun _ => by simp [nesting], fun _ => by simp [ofF, nesting], fun _ => by simp [ofI, nesting]⟩

theorem Spec.nesting_node (name : Str) (l : List Sexp) : nesting (node name l) = 1 + nestingAll l := by
  simp [node, nesting, nestingAll]

theorem Spec.nesting_pair (name : Str) (e : Sexp) : nesting (pair name e) = 1 + nesting e := by
  simp [pair, nesting, nestingAll]

theorem Spec.nestingAll_append (a b : List Sexp) : nestingAll (a ++ b) = max (nestingAll a) (nestingAll b) := by
  induction a with
  | nil => simp [nestingAll]
  | cons x a ih => simp [nestingAll, ih, Nat.max_assoc]

theorem Spec.nestingAll_nil : nestingAll [] = 0 := by simp [nestingAll]
theorem Spec.nestingAll_cons (x : Sexp) (l : List Sexp) : nestingAll (x :: l) = max (nesting x) (nestingAll l) := by simp [nestingAll]
theorem Spec.nesting_str (s : Str) : nesting (.str s) = 0 := by simp [nesting]
theorem Spec.nesting_list (l : List Sexp) : nesting (.list l) = 1 + nestingAll l := by simp [nesting]
theorem Spec.nesting_ofF (x : F) : nesting (ofF x) = 0 := by simp [ofF, nesting]
theorem Spec.nesting_ofI (i : Int) : nesting (ofI i) = 0 := by simp [ofI, nesting]

theorem Spec.nesting_opt {α : Type} (name : Str) (f : α → Sexp) (o : Option α) (n : Nat) (h : ∀ a, nesting (f a) ≤ n) :
    nestingAll (optPair name f o) ≤ n + 1 := by
  cases o with
  | none => simp [optPair, nestingAll]
  | some a => have := h a; simp only [optPair, nestingAll_cons, nestingAll_nil, nesting_pair]; omega

theorem Spec.nesting_at (a : At F) : nesting a.ser = 1 := by
  unfold At.ser
  split_ifs <;> simp [nesting_node, nestingAll_cons, nestingAll_nil, nesting_ofF]

theorem Spec.nesting_xy (p : Xy F) : nesting p.ser = 1 := by
  simp [Xy.ser, nesting_node, nestingAll_cons, nestingAll_nil, nesting_ofF]

theorem Spec.nesting_xyz (p : Xyz F) : nesting p.ser = 1 := by
  simp [Xyz.ser, nesting_node, nestingAll_cons, nestingAll_nil, nesting_ofF]

theorem Spec.nesting_pts (l : List (Xy F)) : nesting (Pts.ser l) ≤ 2 := by
  unfold Pts.ser
  rw [nesting_node]
  have : nestingAll (l.map Xy.ser) ≤ 1 := (nestingAll_le _ _).2 fun x hx => by
    obtain ⟨p, _, rfl⟩ := List.mem_map.1 hx
    exact Nat.le_of_eq (nesting_xy p)
  omega

theorem Spec.nesting_font (f : Font F) : nesting f.ser = 2 := by
  unfold Font.ser
  split_ifs <;> simp [nesting_node, nestingAll_cons, nestingAll_nil, nesting_ofF, nesting_pair, nesting_str]

theorem Spec.nesting_effects (e : Effects F) : nesting e.ser = 3 := by
  unfold Effects.ser
  cases e.justify with
  | none => simp [nesting_node, nestingAll_cons, nestingAll_nil, nesting_font]
  | some j => cases j <;> simp [nesting_node, nestingAll_cons, nestingAll_nil, nesting_font, Justify.ser, nesting_pair, nesting_str]

theorem Spec.nesting_text (t : FpText F) : nesting t.ser = 4 := by
  unfold FpText.ser
  split_ifs <;> simp [nesting_node, nestingAll_cons, nestingAll_nil, nesting_at, nesting_pair, nesting_str, nesting_effects]

theorem Spec.nesting_drill (d : Drill F) : nesting d.ser ≤ 2 := by
  unfold Drill.ser
  cases d.shape <;> split_ifs <;> simp [nesting_node, nestingAll_cons, nestingAll_nil, nesting_ofF, nesting_str]

theorem Spec.nesting_layers (l : List Layer) : nesting (Layers.ser l) = 1 := by
  unfold Layers.ser
  rw [nesting_node]
  have : nestingAll (l.map fun x => Sexp.str x.show) ≤ 0 := (nestingAll_le _ _).2 fun x hx => by
    obtain ⟨p, _, rfl⟩ := List.mem_map.1 hx
    exact Nat.le_of_eq (nesting_str _)
  omega

theorem Spec.nesting_net (n : Net) : nesting n.ser = 1 := by
  simp [Net.ser, nesting_node, nestingAll_cons, nestingAll_nil, nesting_ofI, nesting_str]

theorem Spec.nesting_pad (p : Pad F) : nesting p.ser ≤ 3 := by
  have hF : ∀ name (o : Option F), nestingAll (optPair name ofF o) ≤ 1 := fun name o => nesting_opt name ofF o 0 fun a => Nat.le_of_eq (nesting_ofF a)
  have hI : ∀ name (o : Option Int), nestingAll (optPair name ofI o) ≤ 1 := fun name o => nesting_opt name ofI o 0 fun a => Nat.le_of_eq (nesting_ofI a)
  have h1 := hI (str! "zone_connect") p.zoneConnect
  have h2 := hF (str! "solder_paste_margin") p.solderPasteMargin
  have h3 := hF (str! "solder_mask_margin") p.solderMaskMargin
  have h4 := hF (str! "clearance") p.clearance
  have h5 := hF (str! "thermal_gap") p.thermalGap
  have h6 := nesting_drill (F := F)
  unfold Pad.ser
  rcases p.drill with _ | d <;> rcases p.rectDelta with _ | r <;> rcases p.net with _ | n <;>
    simp only [nesting_node, nestingAll_append, nestingAll_cons, nestingAll_nil, nesting_at, nesting_xy, nesting_layers, nesting_str, nesting_net] <;>
    first | omega | (have := h6 d; omega)

/-- The nesting of an element of a footprint: four for texts, at most three for everything else. -/
theorem Spec.nesting_elem (e : Elem F) : (∃ t, e = .text t) ∧ nesting e.ser = 4 ∨ (∀ t, e ≠ .text t) ∧ nesting e.ser ≤ 3 := by
  cases e with
  | text t => exact .inl ⟨⟨t, rfl⟩, nesting_text t⟩
  | pad p => exact .inr ⟨(fun _ h => nomatch h), nesting_pad p⟩
  | poly p =>
    refine .inr ⟨(fun _ h => nomatch h), ?_⟩
    have := nesting_pts p.pts
    simp only [Elem.ser, FpPoly.ser, nesting_node, nestingAll_cons, nestingAll_nil, nesting_pair, nesting_str, nesting_ofF]
    omega
  | line p =>
    exact .inr ⟨(fun _ h => nomatch h), by simp [Elem.ser, FpLine.ser, nesting_node, nestingAll_cons, nestingAll_nil, nesting_pair, nesting_str, nesting_ofF, nesting_xy]⟩
  | circle p =>
    exact .inr ⟨(fun _ h => nomatch h), by simp [Elem.ser, FpCircle.ser, nesting_node, nestingAll_cons, nestingAll_nil, nesting_pair, nesting_str, nesting_ofF, nesting_xy]⟩
  | arc p =>
    exact .inr ⟨(fun _ h => nomatch h), by simp [Elem.ser, FpArc.ser, nesting_node, nestingAll_cons, nestingAll_nil, nesting_pair, nesting_str, nesting_ofF, nesting_xy]⟩
  | model p =>
    exact .inr ⟨(fun _ h => nomatch h), by simp [Elem.ser, Model.ser, nesting_node, nestingAll_cons, nestingAll_nil, nesting_pair, nesting_str, nesting_xyz]⟩
  | _ => exact .inr ⟨(fun _ h => nomatch h), by simp [Elem.ser, nesting_pair, nesting_str, nesting_ofF, nesting_at]⟩

theorem Spec.nesting_module (m : Module F) : nesting m.ser ≤ 5 ∧ (nesting m.ser = 5 ↔ ∃ t, Elem.text t ∈ m.elements) := by
  have h : nesting m.ser = 1 + nestingAll (m.elements.map Elem.ser) := by
    simp [Module.ser, nesting_node, nestingAll_cons, nesting_str]
  have h4 : nestingAll (m.elements.map Elem.ser) ≤ 4 := (nestingAll_le _ _).2 fun x hx => by
    obtain ⟨e, _, rfl⟩ := List.mem_map.1 hx
    rcases nesting_elem e with ⟨_, h⟩ | ⟨_, h⟩ <;> omega
  refine ⟨by omega, fun h5 => ?_, fun ⟨t, ht⟩ => ?_⟩
  · by_contra hn
    have : nestingAll (m.elements.map Elem.ser) ≤ 3 := (nestingAll_le _ _).2 fun x hx => by
      obtain ⟨e, he, rfl⟩ := List.mem_map.1 hx
      rcases nesting_elem e with ⟨⟨t, rfl⟩, _⟩ | ⟨_, h⟩
      · exact absurd ⟨t, he⟩ hn
      · exact h
    omega
  · have : nesting (Elem.text t).ser ≤ nestingAll (m.elements.map Elem.ser) :=
      nesting_le_all (List.mem_map_of_mem (f := Elem.ser) ht)
    have h' : nesting (Elem.text t).ser = 4 := nesting_text t
    omega
end

section
variable {F : Type} [Flt F] [TextLaws F] [ZeroLaws F]

/-- A footprint is saved with at most five lists in each other, however many elements it has; with five
exactly if it has a text. -/
theorem C119_footprint (q : Str → Bool) (hq : QuotesWhenNeeded q) (level : Int) (m : Fp.Module F) (h : GoodModule m) :
    deepest (Fp.toText q level m) ≤ 5 ∧
    (deepest (Fp.toText q level m) = 5 ↔ ∃ t, Fp.Elem.text t ∈ m.elements) := by
  have := Sexp.Text.parse_toText q level _ (Fp.Module.ok_good q hq m h)
  rw [Fp.toText, C119_text _ _ this]
  exact nesting_module m

/-- The same for a footprint that was read, however deeply that file was nested. -/
theorem C119_footprint_read (q : Str → Bool) (hq : QuotesWhenNeeded q) (level : Int) (t : Str) (m : Fp.Module F)
    (hr : Fp.parse t = .ok m) (hn : Clean m.name) (hs : ∀ e ∈ m.elements, ∀ s ∈ strings e, Clean s) :
    deepest (Fp.toText q level m) ≤ 5 := by
  simp only [Fp.parse, Res.bind_eq_ok] at hr
  obtain ⟨tree, _, hr⟩ := hr
  have := Sexp.Text.parse_toText q level _ (Fp.Module.ok_clean q hq m hn hs (Fp.Module.shapes_of_de hr))
  rw [Fp.toText, C119_text _ _ this]
  exact (nesting_module m).1

/-! What was read can have been nested as deeply as one likes: what follows the value of a `descr` is
skipped. -/

/-- `n` pairs of parentheses in each other. -/
def Spec.nestText : Nat → Str
  | 0 => []
  | n + 1 => '(' :: (nestText n ++ ')' :: [])

/-- The tree of that text, if any. -/
def Spec.nestTrees : Nat → List Sexp
  | 0 => []
  | n + 1 => [.list (nestTrees n)]

theorem Spec.nest_text (n : Nat) : TreesText (nestText n) (nestTrees n) ∧ nestingAll (nestTrees n) = n := by
  induction n with
  | zero => exact ⟨.nil, by simp [nestTrees, nestingAll]⟩
  | succ n ih =>
    refine ⟨.list ih.1 .nil, ?_⟩
    simp only [nestTrees, nestingAll_cons, nesting_list, nestingAll_nil, ih.2]
    omega

omit [TextLaws F] [ZeroLaws F] in
/-- For every number there is a footprint file that is nested more deeply and reads as the same
footprint. -/
theorem C119_read_any_depth (n : Nat) : ∃ t, deepest t = n + 2 ∧
    (Fp.parse t : Res (Fp.Module F)) = .ok ⟨str! "A", [.descr (str! "x")]⟩ := by
  have hd : TreesText (str! "descr x" ++ nestText n) (.str (str! "descr") :: .str (str! "x") :: nestTrees n) := by
    refine .bare (w := str! "descr") (t := ' ' :: 'x' :: nestText n) (by decide) (by intro c r h; cases h; exact .inl rfl) (.space rfl
      (.bare (w := str! "x") (t := nestText n) (by decide) ?_ (nest_text n).1))
    intro c r h
    cases n with
    | zero => cases h
    | succ n => cases h; exact .inr (.inl rfl)
  have ht : TreesText (str! "(module A(" ++ ((str! "descr x" ++ nestText n) ++ ')' :: str! ")"))
      [.list [.str (str! "module"), .str (str! "A"), .list (.str (str! "descr") :: .str (str! "x") :: nestTrees n)]] := by
    have hi := TreesText.list hd .nil
    have hm : TreesText (str! "module A" ++ '(' :: ((str! "descr x" ++ nestText n) ++ ')' :: []))
        [.str (str! "module"), .str (str! "A"), .list (.str (str! "descr") :: .str (str! "x") :: nestTrees n)] := by
      refine .bare (w := str! "module") (t := ' ' :: 'A' :: '(' :: ((str! "descr x" ++ nestText n) ++ ')' :: [])) (by decide)
        (by intro c r h; cases h; exact .inl rfl) (.space rfl
          (.bare (w := str! "A") (by decide) (by intro c r h; cases h; exact .inr (.inl rfl)) hi))
    have := TreesText.list hm .nil
    simpa using this
  refine ⟨_, ?_, (C77_grammar _ _).2 ⟨_, .inl ht, _, rfl, .cons (.descr ⟨_, _, rfl, rfl⟩) .nil⟩⟩
  rw [C119_text _ _ ((parseSexp_iff _ _).2 (.inl ht))]
  simp only [nesting_list, nestingAll_cons, nestingAll_nil, nesting_str, (nest_text n).2]
  omega
end

/-! ## Boards -/

section
variable {F : Type} [Flt F]
open Sx Lay

theorem Spec.nesting_map_le {α : Type} (f : α → Sexp) (l : List α) (n : Nat) (h : ∀ a ∈ l, nesting (f a) ≤ n) :
    nestingAll (l.map f) ≤ n :=
  (nestingAll_le _ _).2 fun x hx => by
    obtain ⟨a, ha, rfl⟩ := List.mem_map.1 hx
    exact h a ha

/-- The parts of an element that the library keeps without knowing them, with the number of lists
around them in the file. -/
def Spec.keptDeep : Lay.Elem F → List (Nat × Sexp)
  | .other e => [(1, e)]
  | .zone z => z.other.map fun e => (2, e)
  | _ => []

theorem Spec.nesting_grText (t : GrText F) : nesting t.ser = 4 := by
  have := nesting_opt (str! "tstamp") .str t.tstamp 0 fun a => Nat.le_of_eq (nesting_str a)
  unfold GrText.ser
  simp only [nesting_node, nestingAll_append, nestingAll_cons, nestingAll_nil, nesting_str, nesting_at, nesting_pair, nesting_effects]
  omega

theorem Spec.nesting_fill (f : Fill F) : nesting f.ser = 2 := by
  have := nesting_opt (str! "smoothing") .str f.smoothing 0 fun a => Nat.le_of_eq (nesting_str a)
  unfold Fill.ser
  split_ifs <;> simp only [nesting_node, nestingAll_append, nestingAll_cons, nestingAll_nil, nesting_str, nesting_pair, nesting_ofF, nesting_ofI] <;> omega

theorem Spec.nesting_connect (c : ConnectPads F) : nesting c.ser = 2 := by
  unfold ConnectPads.ser
  cases c.connection <;> simp [nesting_node, nestingAll_cons, nestingAll_nil, nesting_str, nesting_pair, nesting_ofF]

theorem Spec.nesting_zone (z : Zone F) (n : Nat) (hn : 5 ≤ n) : nesting z.ser ≤ n ↔ ∀ e ∈ z.other, nesting e + 1 ≤ n := by
  have hp : ∀ name (p : List (Fp.Xy F)), nesting (pair name (Fp.Pts.ser p)) ≤ 3 := fun name p => by
    have := nesting_pts p
    rw [nesting_pair]
    omega
  have h1 := nesting_map_le (fun p => pair (str! "polygon") (Fp.Pts.ser p)) z.polygons 3 fun p _ => hp _ p
  have h2 := nesting_map_le (fun p => pair (str! "filled_polygon") (Fp.Pts.ser p)) z.filledPolygons 3 fun p _ => hp _ p
  have h3 := nesting_opt (str! "fill_segments") Fp.Pts.ser z.fillSegments 2 nesting_pts
  have h4 := nesting_fill z.fill
  have h5 := nesting_connect z.connectPads
  have h6 : nesting z.hatch.ser ≤ 1 := by simp [Hatch.ser, nesting_node, nestingAll_cons, nestingAll_nil, nesting_str, nesting_ofF]
  have h7 : ∀ k : Keepout, nesting k.ser ≤ 2 := fun k => by
    simp [Keepout.ser, nesting_node, nestingAll_cons, nestingAll_nil, nesting_str, nesting_pair]
  have h8 : (∀ e ∈ z.other, nesting e + 1 ≤ n) ↔ nestingAll z.other ≤ n - 1 := by
    rw [nestingAll_le]
    exact ⟨fun h e he => by have := h e he; omega, fun h e he => by have := h e he; omega⟩
  rw [h8]
  have h9 : nestingAll (if z.priority > 0 then [pair (str! "priority") (.str (showNat z.priority))] else []) ≤ 1 := by
    split_ifs <;> simp [nestingAll_cons, nestingAll_nil, nesting_pair, nesting_str]
  unfold Zone.ser
  simp only [nesting_node, nestingAll_append, nestingAll_cons, nestingAll_nil, nesting_str, nesting_pair, nesting_ofF, nesting_ofI]
  generalize nestingAll (if z.priority > 0 then [pair (str! "priority") (.str (showNat z.priority))] else []) = a at *
  generalize nestingAll z.other = b at *
  generalize nestingAll (List.map _ z.polygons) = c at *
  generalize nestingAll (List.map _ z.filledPolygons) = d at *
  generalize nestingAll (Fp.optPair _ _ _) = o at *
  have hle : ∀ x, 1 + x ≤ n ↔ x ≤ n - 1 := fun x => by omega
  rcases z.keepout with _ | k
  · simp only [nestingAll_nil, hle, Nat.max_le]
    omega
  · have := h7 k
    simp only [nestingAll_cons, nestingAll_nil, hle, Nat.max_le]
    omega

theorem Spec.nesting_known (e : Lay.Elem F) (n : Nat) (hn : 6 ≤ n) : nesting e.ser + 1 ≤ n ↔ ∀ p ∈ keptDeep e, nesting p.2 + p.1 ≤ n := by
  have hs : ∀ (name : Str) (o : Option Str), nestingAll (Fp.optPair name .str o) ≤ 1 := fun name o =>
    nesting_opt name .str o 0 fun a => Nat.le_of_eq (nesting_str a)
  have hf : ∀ (name : Str) (o : Option F), nestingAll (Fp.optPair name ofF o) ≤ 1 := fun name o =>
    nesting_opt name ofF o 0 fun a => Nat.le_of_eq (nesting_ofF a)
  cases e with
  | other e => simp [keptDeep, Elem.ser]
  | zone z =>
    have := nesting_zone z (n - 1) (by omega)
    simp only [keptDeep, List.forall_mem_map, Elem.ser]
    constructor
    · intro h e he
      have := this.1 (by omega) e he
      omega
    · intro h
      have := this.2 fun e he => by have := h e he; omega
      omega
  | module_ m =>
    have := (nesting_module m).1
    simp only [keptDeep, Elem.ser, List.not_mem_nil, false_implies, implies_true, iff_true]
    omega
  | net m =>
    have := nesting_net m
    simp only [keptDeep, Elem.ser, List.not_mem_nil, false_implies, implies_true, iff_true]
    omega
  | netClass c =>
    have h1 := hf (str! "diff_pair_gap") c.diffPairGap
    have h2 := hf (str! "diff_pair_width") c.diffPairWidth
    have h3 := nesting_map_le (fun s => pair (str! "add_net") (.str s)) c.nets 1 fun s _ => by simp [nesting_pair, nesting_str]
    simp only [keptDeep, Elem.ser, NetClass.ser, nesting_node, nestingAll_append, nestingAll_cons, nestingAll_nil, nesting_str, nesting_pair, nesting_ofF,
      List.not_mem_nil, false_implies, implies_true, iff_true]
    omega
  | grText t =>
    have := nesting_grText t
    simp only [keptDeep, Elem.ser, List.not_mem_nil, false_implies, implies_true, iff_true]
    omega
  | grLine t =>
    have := hs (str! "tstamp") t.tstamp
    simp only [keptDeep, Elem.ser, GrLine.ser, nesting_node, nestingAll_append, nestingAll_cons, nestingAll_nil, nesting_str, nesting_pair, nesting_ofF,
      nesting_xy, List.not_mem_nil, false_implies, implies_true, iff_true]
    omega
  | grArc t =>
    have := hs (str! "tstamp") t.tstamp
    simp only [keptDeep, Elem.ser, GrArc.ser, nesting_node, nestingAll_append, nestingAll_cons, nestingAll_nil, nesting_str, nesting_pair, nesting_ofF,
      nesting_xy, List.not_mem_nil, false_implies, implies_true, iff_true]
    omega
  | grCircle t =>
    have := hs (str! "tstamp") t.tstamp
    simp only [keptDeep, Elem.ser, GrCircle.ser, nesting_node, nestingAll_append, nestingAll_cons, nestingAll_nil, nesting_str, nesting_pair, nesting_ofF,
      nesting_xy, List.not_mem_nil, false_implies, implies_true, iff_true]
    omega
  | dimension d =>
    have h0 := hs (str! "tstamp") d.tstamp
    have h1 := nesting_grText d.text
    have hp := nesting_pts (F := F)
    have := hp d.feature1
    have := hp d.feature2
    have := hp d.crossbar
    have := hp d.arrow1a
    have := hp d.arrow1b
    have := hp d.arrow2a
    have := hp d.arrow2b
    simp only [keptDeep, Elem.ser, Dimension.ser, nesting_node, nestingAll_append, nestingAll_cons, nestingAll_nil, nesting_str, nesting_pair, nesting_ofF,
      List.not_mem_nil, false_implies, implies_true, iff_true]
    omega
  | segment t =>
    have h1 := hs (str! "tstamp") t.tstamp
    have h2 := hs (str! "status") t.status
    simp only [keptDeep, Elem.ser, Segment.ser, nesting_node, nestingAll_append, nestingAll_cons, nestingAll_nil, nesting_str, nesting_pair, nesting_ofF,
      nesting_ofI, nesting_xy, List.not_mem_nil, false_implies, implies_true, iff_true]
    omega
  | via t =>
    simp only [keptDeep, Elem.ser, Via.ser, List.not_mem_nil, false_implies, implies_true, iff_true]
    split_ifs <;> simp only [nesting_node, nestingAll_append, nestingAll_cons, nestingAll_nil, nesting_str, nesting_pair, nesting_ofF,
      nesting_ofI, nesting_at, nesting_layers] <;> omega

theorem Spec.nesting_board (l : Layout F) (n : Nat) (hn : 6 ≤ n) :
    nesting l.ser ≤ n ↔ ∀ e ∈ l.elements, ∀ p ∈ keptDeep e, nesting p.2 + p.1 ≤ n := by
  have h1 : nesting l.general.ser ≤ 2 := by
    simp [General.ser, Area.ser, nesting_node, nestingAll_cons, nestingAll_nil, nesting_pair, nesting_ofF, nesting_ofI]
  have h2 : nestingAll (l.layers.map Lay.Layer.ser) ≤ 1 := nesting_map_le _ _ _ fun a _ => by
    unfold Lay.Layer.ser
    split_ifs <;> simp [nesting_list, nestingAll_cons, nestingAll_nil, nesting_str, nesting_ofI]
  have hse : ∀ s : SetupElement, nesting s.ser ≤ 1 := fun s => by
    unfold SetupElement.ser
    cases s.value2 <;> simp [nesting_list, nestingAll_cons, nestingAll_nil, nesting_str]
  have h3 : nesting l.setup.ser ≤ 3 := by
    have a1 := nesting_map_le SetupElement.ser l.setup.elements 1 fun s _ => hse s
    have a2 := nesting_map_le SetupElement.ser l.setup.pcbplotparams 1 fun s _ => hse s
    simp only [Setup.ser, nesting_node, nestingAll_append, nestingAll_cons, nestingAll_nil]
    omega
  have h4 : nestingAll (l.elements.map Lay.Elem.ser) ≤ n - 1 ↔ ∀ e ∈ l.elements, ∀ p ∈ keptDeep e, nesting p.2 + p.1 ≤ n := by
    rw [nestingAll_le, List.forall_mem_map]
    constructor
    · intro h e he
      have := h e he
      exact (nesting_known e n hn).1 (by omega)
    · intro h e he
      have := (nesting_known e n hn).2 (h e he)
      omega
  rw [← h4]
  simp only [Layout.ser, nesting_node, nestingAll_append, nestingAll_cons, nestingAll_nil, nesting_str, nesting_pair, nesting_ofI]
  omega
end

section
variable {F : Type} [Flt F] [TextLaws F] [ZeroLaws F]

/-- A board is saved with at most six lists in each other, apart from what it keeps without knowing it:
`n ≥ 6` levels are enough exactly if they are enough for these parts. -/
theorem C119_board (q : Str → Bool) (hq : QuotesWhenNeeded q) (level : Int) (l : Lay.Layout F)
    (h : SavableLayout l) (hc : CleanLayout l) (n : Nat) (hn : 6 ≤ n) :
    deepest (Lay.toText q level l) ≤ n ↔ ∀ e ∈ l.elements, ∀ p ∈ keptDeep e, nesting p.2 + p.1 ≤ n := by
  have hnl : Blank (str! "\n") := by unfold Blank; decide
  have := Sexp.Text.parse_toText_blank q level _ (Lay.Layout.ok_ser hq l hc h.shapes) _ hnl
  rw [Lay.toText, C119_text _ _ this]
  exact nesting_board l n hn

/-- Reading and saving a board does not nest it more deeply, if it had six levels. -/
theorem C119_board_read (q : Str → Bool) (hq : QuotesWhenNeeded q) (level : Int) (t : Str) (l : Lay.Layout F)
    (hr : Lay.parse t = .ok l) (hc : CleanLayout l) :
    deepest (Lay.toText q level l) ≤ max 6 (deepest t) := by
  obtain ⟨tree, htree, parts, is, rfl, hm, u1, u2, u3, u4, u5, u6, hel⟩ := (C78_grammar t l).1 hr
  clear u1 u2 u3 u4 u5 u6
  have hdt := C119_text _ _ ((parseSexp_iff _ _).2 htree)
  simp only [Lay.parse, Res.bind_eq_ok] at hr
  obtain ⟨tree, _, hr⟩ := hr
  have hnl : Blank (str! "\n") := by unfold Blank; decide
  have := Sexp.Text.parse_toText_blank q level _ (Lay.Layout.ok_ser hq l hc (Lay.Layout.shapes_of_de hr)) _ hnl
  rw [Lay.toText, C119_text _ _ this, nesting_board l _ (Nat.le_max_left _ _), hdt]
  have key : ∀ e ∈ is.filterMap BoardPart.element?, ∀ p ∈ keptDeep e, nesting p.2 + p.1 ≤ 1 + nestingAll parts := by
    clear hr hdt hel htree
    induction hm with
    | nil => intro e he; cases he
    | cons hx _ ih =>
      rename_i x l' a as _
      intro e he p hp
      rcases ha : BoardPart.element? a with _ | e'
      · rw [List.filterMap_cons_none ha] at he
        have := ih e he p hp
        rw [nestingAll_cons]
        omega
      · rw [List.filterMap_cons_some ha, List.mem_cons] at he
        rcases he with rfl | he
        · have : nesting p.2 + p.1 ≤ 1 + nesting x := by
            cases hx with
            | other h =>
              cases ha
              simp only [keptDeep, List.mem_singleton] at hp
              subst hp
              dsimp only
              omega
            | zone h =>
              cases ha
              obtain ⟨_, _, _, _, _, _, _, _, _, _, items, _, zs, rfl, _, _, _, _, _, _, _, _, _, _, hz, w1, w2, w3, w4, ho⟩ := h
              clear w1 w2 w3 w4
              simp only [keptDeep, List.mem_map] at hp
              obtain ⟨e, he, rfl⟩ := hp
              have hin : e ∈ items := by
                rw [ho] at he
                clear ho
                induction hz with
                | nil => cases he
                | cons hx _ ih2 =>
                  rename_i y _ b _ _
                  rcases hb : ZoneItem.other? b with _ | e2
                  · rw [List.filterMap_cons_none hb] at he
                    exact List.mem_cons_of_mem _ (ih2 he)
                  · rw [List.filterMap_cons_some hb, List.mem_cons] at he
                    rcases he with rfl | he
                    · cases hx with
                      | other _ => cases hb; exact List.mem_cons_self
                      | _ => cases hb
                    · exact List.mem_cons_of_mem _ (ih2 he)
              have := nesting_le_all hin
              simp only [nesting_list, nestingAll_cons, nestingAll_append, nesting_str]
              omega
            | _ => first | (cases ha; done) | (cases ha; cases hp)
          rw [nestingAll_cons]
          omega
        · have := ih e he p hp
          rw [nestingAll_cons]
          omega
  intro e he p hp
  rw [hel] at he
  have := key e he p hp
  simp only [nesting_list, nestingAll_cons, nesting_str]
  omega
end

/-! ## Library tables -/

/-- A table of footprint libraries is saved with at most three lists in each other. -/
theorem C119_table (q : Str → Bool) (hq : QuotesWhenNeeded q) (level : Int) (t : Tbl.FpLibTable)
    (h : ∀ l ∈ t.libs, CleanLib l) : deepest (Tbl.toText q level t) = if t.libs = [] then 1 else 3 := by
  have hl : ∀ l : Tbl.Lib, nesting l.ser = 2 := fun l => by
    simp [Tbl.Lib.ser, nesting_node, nestingAll_cons, nestingAll_nil, nesting_str, nesting_pair]
  have hok : OkTree q t.ser := by
    refine Sx.okTree_node (by decide) (Sx.okTrees_iff.2 fun x hx => ?_)
    obtain ⟨l, hl, rfl⟩ := List.mem_map.1 hx
    exact Tbl.Lib.ok_ser hq l (h l hl)
  rw [Tbl.toText, C119_text _ _ (Sexp.Text.parse_toText q level _ hok), Tbl.FpLibTable.ser, nesting_node]
  split_ifs with he
  · simp [he, nestingAll_nil]
  · obtain ⟨l, r, hlr⟩ := List.exists_cons_of_ne_nil he
    have h2 := nesting_map_le Tbl.Lib.ser t.libs 2 fun l _ => Nat.le_of_eq (hl l)
    rw [hlr, List.map_cons, nestingAll_cons, hl] at h2 ⊢
    omega

/-! ## Examples -/

example : GoodModule Spec.sampleModule ∧ ∃ t, Fp.Elem.text t ∈ Spec.sampleModule.elements :=
  ⟨Spec.sampleModule_good, _, by simp [Spec.sampleModule]; rfl⟩

example : deepest (str! "(a \"((\" (b \"\\\"((\"))") = 2 := by decide

example : SavableLayout Spec.sampleLayout ∧ CleanLayout Spec.sampleLayout := ⟨Spec.sampleLayout_savable, Spec.sampleLayout_clean⟩

example : ∃ e ∈ Spec.smallBoardValue.elements, ∃ p ∈ keptDeep e, p.1 = 1 ∧ nesting p.2 = 1 :=
  ⟨_, by simp [Spec.smallBoardValue]; exact .inr (.inr rfl), _, List.mem_cons_self, rfl, by simp [nesting, nestingAll]⟩

end Verif
