import Verif.Lemmas.Printing
import Verif.Spec.FootprintText
/-!
# The layout of footprint elements
-/

namespace Verif
open Spec Sx

theorem flatL_append (sp : Str → Str) (a b : List Sexp) : flatL sp (a ++ b) = flatL sp a ++ flatL sp b := by
  induction a with
  | nil => simp [flatL]
  | cons x a ih => simp [flatL, ih]

theorem RegularL_append {b : Bool} {l l' : List Sexp} :
    RegularL b (l ++ l') ↔ RegularL b l ∧ RegularL b l' := by
  induction l with
  | nil => simp [RegularL]
  | cons x l ih => simp [RegularL, ih, and_assoc]

theorem RegularL_iff {b : Bool} {l : List Sexp} : RegularL b l ↔ ∀ x ∈ l, Regular b x := by
  induction l with
  | nil => simp [RegularL]
  | cons x l ih => simp [RegularL, ih]

/-- No rule applies to a list with head `h` directly inside one with head `p`. -/
def free (p h : Str) : Bool :=
  (byRules footprintRules p h).isNone && (byRules boardRules p h).isNone &&
    !(decide (p = str! "pts") && decide (h = str! "xy"))

theorem place_free {p h : Str} (hf : free p h = true) (anc : List Str) (ht : str! "fp_lib_table" ∉ p :: anc)
    (nth : Nat) : place (p :: anc) nth h = none := by
  simp only [free, Bool.and_eq_true, Bool.not_eq_true', Option.isNone_iff_eq_none, Bool.and_eq_false_iff,
    decide_eq_false_iff_not] at hf
  obtain ⟨⟨h1, h2⟩, h3⟩ := hf
  have h4 : ¬ (p = str! "pts" ∧ h = str! "xy" ∧ pointBreaks (p :: anc) nth) := by
    rintro ⟨a, b, -⟩
    rcases h3 with h3 | h3
    · exact h3 a
    · exact h3 b
  have hb : (if str! "kicad_pcb" ∈ p :: anc then byRules boardRules p h else none) = none := by
    rw [h2]; simp
  have t1 : p ≠ str! "fp_lib_table" := fun e => ht (by simp [e])
  have t2 : str! "fp_lib_table" ∉ anc := fun e => ht (List.mem_cons_of_mem _ e)
  simp only [place, placeIn, h1, if_neg h4, hb, if_neg t1, if_neg t2]

theorem place_rule {p h : Str} {x : Place} (hf : byRules footprintRules p h = some x) (anc : List Str)
    (nth : Nat) : place (p :: anc) nth h = some x := by
  simp only [place, placeIn, hf]

mutual
/-- No rule applies anywhere inside the tree, when it is directly inside a list
with head `p`. -/
def FreeIn (p : Str) : Sexp → Bool
  | .str _ => true
  | .empty => true
  | .list (.str h :: l) => free p h && decide (h ≠ str! "fp_lib_table") && FreeInL h l
  | .list _ => false
/-- The same for the elements of a list. -/
def FreeInL (p : Str) : List Sexp → Bool
  | [] => true
  | x :: xs => FreeIn p x && FreeInL p xs
end

mutual
/-- Such trees are written on one line. -/
theorem layOut_free (sp : Str → Str) : ∀ (e : Sexp) (p : Str) (anc : List Str) (level : Int) (nth : Nat),
    FreeIn p e = true → str! "fp_lib_table" ∉ p :: anc →
    layOut sp (p :: anc) level nth e = flat sp e ∧ gap (p :: anc) nth e = [' ']
  | .str _, _, _, _, _, _, _ => ⟨rfl, rfl⟩
  | .empty, _, _, _, _, _, _ => ⟨rfl, rfl⟩
  | .list [], _, _, _, _, h, _ => by simp [FreeIn] at h
  | .list (.list _ :: _), _, _, _, _, h, _ => by simp [FreeIn] at h
  | .list (.empty :: _), _, _, _, _, h, _ => by simp [FreeIn] at h
  | .list (.str h :: l), p, anc, level, nth, hf, ht => by
    simp only [FreeIn, Bool.and_eq_true, decide_eq_true_eq] at hf
    obtain ⟨⟨h1, h2⟩, h3⟩ := hf
    have hp := place_free h1 anc ht nth
    have hl := layOutL_free sp l h (p :: anc) level 0 h3 (by
      intro e
      rcases List.mem_cons.1 e with e | e
      · exact h2 e.symm
      · exact ht e)
    refine ⟨?_, ?_⟩
    · simp only [layOut, hp, leadIn, inside, leadOut, hl, flat, List.nil_append]
    · simp [gap, hp]
/-- The elements of such a list are written on one line. -/
theorem layOutL_free (sp : Str → Str) : ∀ (l : List Sexp) (p : Str) (anc : List Str) (level : Int) (nth : Nat),
    FreeInL p l = true → str! "fp_lib_table" ∉ p :: anc →
    layOutL sp (p :: anc) level nth l = flatL sp l
  | [], _, _, _, _, _, _ => rfl
  | x :: xs, p, anc, level, nth, hf, ht => by
    simp only [FreeInL, Bool.and_eq_true] at hf
    obtain ⟨a, b⟩ := layOut_free sp x p anc level nth hf.1 ht
    have c := layOutL_free sp xs p anc level (if isPoint x then nth + 1 else nth) hf.2 ht
    simp only [layOutL, a, b, c, flatL]
end

theorem FreeInL_append (p : Str) (a b : List Sexp) : FreeInL p (a ++ b) = (FreeInL p a && FreeInL p b) := by
  induction a with
  | nil => simp [FreeInL]
  | cons x a ih => simp [FreeInL, ih, Bool.and_assoc]

theorem layOutL_append_free (sp : Str → Str) (a b : List Sexp) (p : Str) (anc : List Str) (level : Int)
    (nth : Nat) (ha : FreeInL p a = true) (ht : str! "fp_lib_table" ∉ p :: anc) :
    layOutL sp (p :: anc) level nth (a ++ b) =
      flatL sp a ++ layOutL sp (p :: anc) level (nth + a.countP isPoint) b := by
  induction a generalizing nth with
  | nil => simp [flatL]
  | cons x a ih =>
    simp only [FreeInL, Bool.and_eq_true] at ha
    obtain ⟨h1, h2⟩ := layOut_free sp x p anc level nth ha.1 ht
    simp only [List.cons_append, layOutL, h1, h2, ih _ ha.2, flatL]
    by_cases e : isPoint x = true
    · simp [e, Nat.add_assoc, Nat.add_comm 1]
    · simp [e]

namespace Fp
open Flt
variable {F : Type} [Flt F]

theorem free_pair {p n : Str} {v : Str} : FreeIn p (pair n (.str v)) = (free p n && decide (n ≠ str! "fp_lib_table")) := by
  simp [pair, FreeIn, FreeInL]

theorem Layers.free_ser (l : List Layer) : FreeInL (str! "layers") (l.map fun x => Sexp.str x.show) = true := by
  induction l with
  | nil => rfl
  | cons x l ih => simp [FreeInL, FreeIn, ih]

theorem Xy.free_ser (p : Str) (hp : ∀ t : XyType, free p t.show = true) (x : Xy F) : FreeIn p x.ser = true := by
  have h2 : x.t.show ≠ str! "fp_lib_table" := by cases x.t <;> decide
  simp [Xy.ser, node, FreeIn, FreeInL, hp, h2, ofF]

/-- A list with a place of its own whose elements are written on one line. -/
theorem layOut_placed (sp : Str → Str) (p h : Str) (l : List Sexp) (x : Place) (anc : List Str)
    (level : Int) (nth : Nat) (hf : byRules footprintRules p h = some x) :
    gap (p :: anc) nth (node h l) = [] ∧
    layOut sp (p :: anc) level nth (node h l) = leadIn level (some x) ++ ['('] ++ sp h ++
      layOutL sp (h :: p :: anc) (level + 1) 0 l ++ leadOut level (some x) := by
  have hp := place_rule hf anc nth
  refine ⟨by simp [gap, node, hp], ?_⟩
  simp only [node, layOut, hp, inside]

theorem layOut_line (sp : Str → Str) (p h : Str) (l : List Sexp) (anc : List Str)
    (level : Int) (nth : Nat) (hf : byRules footprintRules p h = some ownLine)
    (hl : FreeInL h l = true) (ht : str! "fp_lib_table" ∉ h :: p :: anc) :
    gap (p :: anc) nth (node h l) ++ layOut sp (p :: anc) level nth (node h l) =
      startLine 1 (level + 1) ++ flat sp (node h l) := by
  obtain ⟨a, b⟩ := layOut_placed sp p h l ownLine anc level nth hf
  rw [a, b, layOutL_free sp l h (p :: anc) (level + 1) 0 hl ht]
  simp [leadIn, leadOut, ownLine, flat, node]

theorem layOut_flat (sp : Str → Str) (p : Str) (e : Sexp) (anc : List Str)
    (level : Int) (nth : Nat) (hl : FreeIn p e = true) (ht : str! "fp_lib_table" ∉ p :: anc) :
    gap (p :: anc) nth e ++ layOut sp (p :: anc) level nth e = [' '] ++ flat sp e := by
  obtain ⟨a, b⟩ := layOut_free sp e p anc level nth hl ht
  rw [a, b]

/-- The text of one element of a list, with what separates it from the one
before. -/
def chunk (sp : Str → Str) (anc : List Str) (level : Int) (e : Sexp) : Str :=
  gap anc 0 e ++ layOut sp anc level 0 e

theorem place_nth {anc : List Str} (h : anc.head? ≠ some (str! "pts")) (n m : Nat) (x : Str) :
    place anc n x = place anc m x := by
  cases anc with
  | nil => rfl
  | cons p anc =>
    have hp : p ≠ str! "pts" := fun e => h (by simp [e])
    simp only [place, placeIn, hp, false_and, if_false]

theorem gap_nth {anc : List Str} (h : anc.head? ≠ some (str! "pts")) (n m : Nat) (e : Sexp) :
    gap anc n e = gap anc m e := by
  unfold gap
  split
  · rw [place_nth h n m]
  · rfl

theorem layOut_nth (sp : Str → Str) {anc : List Str} (h : anc.head? ≠ some (str! "pts")) (level : Int)
    (n m : Nat) (e : Sexp) : layOut sp anc level n e = layOut sp anc level m e := by
  match e with
  | .str _ => rfl
  | .empty => rfl
  | .list [] => rfl
  | .list (.list _ :: _) => rfl
  | .list (.empty :: _) => rfl
  | .list (.str x :: l) => simp only [layOut, place_nth h n m]

/-- Outside lists of points, the elements are written independently of each
other. -/
theorem layOutL_chunks (sp : Str → Str) {anc : List Str} (h : anc.head? ≠ some (str! "pts")) (level : Int)
    (n : Nat) (l : List Sexp) : layOutL sp anc level n l = l.flatMap (chunk sp anc level) := by
  induction l generalizing n with
  | nil => rfl
  | cons x l ih =>
    simp only [layOutL, List.flatMap_cons, chunk, ih]
    rw [gap_nth h n 0, layOut_nth sp h level n 0]

/-! ## The kinds of elements -/

theorem free_ofF (p : Str) (x : F) : FreeIn p (ofF x) = true := rfl
theorem free_ofI (p : Str) (x : Int) : FreeIn p (ofI x) = true := rfl

theorem Xy.free_line (x : Xy F) : FreeIn (str! "fp_line") x.ser = true :=
  Xy.free_ser _ (by intro t; cases t <;> decide) x
theorem Xy.free_circle (x : Xy F) : FreeIn (str! "fp_circle") x.ser = true :=
  Xy.free_ser _ (by intro t; cases t <;> decide) x
theorem Xy.free_arc (x : Xy F) : FreeIn (str! "fp_arc") x.ser = true :=
  Xy.free_ser _ (by intro t; cases t <;> decide) x
theorem Xy.free_pad (x : Xy F) : FreeIn (str! "pad") x.ser = true :=
  Xy.free_ser _ (by intro t; cases t <;> decide) x

theorem At.free_in (p : Str) (hp : free p (str! "at") = true) (a : At F) : FreeIn p a.ser = true := by
  simp only [At.ser, node, FreeIn, hp]
  split <;> simp [FreeInL, FreeIn, ofF]

theorem Drill.free_ser (d : Drill F) : FreeIn (str! "pad") d.ser = true := by
  simp only [Drill.ser, node, FreeIn, FreeInL_append]
  have h1 : free (str! "pad") (str! "drill") = true := by decide
  have h2 : free (str! "drill") (str! "offset") = true := by decide
  rw [h1]
  simp only [Bool.and_eq_true]
  refine ⟨⟨trivial, by decide⟩, ⟨⟨?_, ?_⟩, ?_⟩, ?_⟩
  · cases d.shape <;> rfl
  · split <;> rfl
  · split <;> rfl
  · split
    · simp [FreeInL, FreeIn, node, h2, ofF]
    · rfl

theorem Layers.free_in (p : Str) (hp : free p (str! "layers") = true) (l : List Layer) :
    FreeIn p (Layers.ser l) = true := by
  simp [Layers.ser, node, FreeIn, hp, Layers.free_ser l]

theorem free_optPair {α : Type} (p n : Str) (f : α → Sexp) (hf : ∀ a, ∃ s, f a = .str s)
    (hp : (free p n && decide (n ≠ str! "fp_lib_table")) = true) (o : Option α) :
    FreeInL p (optPair n f o) = true := by
  cases o with
  | none => rfl
  | some a =>
    obtain ⟨s, hs⟩ := hf a
    simp only [optPair, FreeInL, hs, free_pair, hp, Bool.and_self]

theorem Font.free_ser (f : Font F) : FreeIn (str! "effects") f.ser = true := by
  have h1 : free (str! "effects") (str! "font") = true := by decide
  have h2 : free (str! "font") (str! "size") = true := by decide
  have h3 : free (str! "font") (str! "thickness") = true := by decide
  simp only [Font.ser, node, FreeIn, FreeInL_append, h1, Bool.and_eq_true]
  refine ⟨⟨trivial, by decide⟩, ⟨?_, ?_⟩, ?_⟩
  · split
    · simp [FreeInL, FreeIn, h2, ofF]
    · rfl
  · simp [FreeInL, FreeIn, pair, h3, ofF]
  · split <;> rfl

theorem Effects.free_ser (e : Effects F) : FreeInL (str! "effects")
    (e.font.ser :: match e.justify with | some j => [j.ser] | none => []) = true := by
  simp only [FreeInL, Font.free_ser, Bool.true_and]
  cases e.justify with
  | none => rfl
  | some j =>
    have : free (str! "effects") (str! "justify") = true := by decide
    cases j <;> simp [FreeInL, Justify.ser, FreeIn, pair, this]

/-- What of a pad comes before the net. -/
def Pad.front (p : Pad F) : List Sexp :=
  [.str p.name, .str p.t.show, .str p.shape.show, p.at_.ser, p.size.ser] ++
     (match p.drill with | some d => [d.ser] | none => []) ++
     (match p.rectDelta with | some d => [d.ser] | none => []) ++
     [Layers.ser p.layers]

/-- What of a pad comes after the net. -/
def Pad.back (p : Pad F) : List Sexp :=
     optPair (str! "zone_connect") ofI p.zoneConnect ++
     optPair (str! "solder_paste_margin") ofF p.solderPasteMargin ++
     optPair (str! "solder_mask_margin") ofF p.solderMaskMargin ++
     optPair (str! "clearance") ofF p.clearance ++
     optPair (str! "thermal_gap") ofF p.thermalGap

theorem Pad.ser_parts (p : Pad F) : p.ser = node (str! "pad") (p.front ++
    (match p.net with | some n => [n.ser] | none => []) ++ p.back) := by
  simp only [Pad.ser, Pad.front, Pad.back]
  cases p.net <;> simp <;> rfl

theorem Pad.free_front (p : Pad F) : FreeInL (str! "pad") p.front = true := by
  simp only [Pad.front, FreeInL_append, Bool.and_eq_true]
  refine ⟨⟨⟨?_, ?_⟩, ?_⟩, ?_⟩
  · simp only [FreeInL, FreeIn, Bool.true_and, Bool.and_eq_true]
    exact ⟨At.free_in _ (by decide) _, Xy.free_pad _, trivial⟩
  · cases p.drill with
    | none => rfl
    | some d => simp [FreeInL, Drill.free_ser]
  · cases p.rectDelta with
    | none => rfl
    | some d => simp [FreeInL, Xy.free_pad]
  · simp [FreeInL, Layers.free_in (str! "pad") (by decide)]

theorem Pad.free_back (p : Pad F) : FreeInL (str! "pad") p.back = true := by
  simp only [Pad.back, FreeInL_append, Bool.and_eq_true]
  have hi : ∀ a : Int, ∃ s, ofI a = .str s := fun a => ⟨_, rfl⟩
  have hf : ∀ a : F, ∃ s, ofF a = .str s := fun a => ⟨_, rfl⟩
  exact ⟨⟨⟨⟨free_optPair _ _ _ hi (by decide) _, free_optPair _ _ _ hf (by decide) _⟩,
    free_optPair _ _ _ hf (by decide) _⟩, free_optPair _ _ _ hf (by decide) _⟩,
    free_optPair _ _ _ hf (by decide) _⟩

theorem broken_free (sp : Str → Str) (heads : List Str) (level : Int) (p : Str) (l : List Sexp)
    (hl : FreeInL p l = true) (hh : ∀ h ∈ heads, free p h = false) :
    broken sp heads level l = flatL sp l := by
  induction l with
  | nil => rfl
  | cons x l ih =>
    simp only [FreeInL, Bool.and_eq_true] at hl
    have ih := ih hl.2
    simp only [broken] at ih
    simp only [broken, List.flatMap_cons, flatL, ih]
    congr 2
    split
    · rename_i h t
      have : h ∉ heads := by
        intro hm
        have h1 := hl.1
        simp only [FreeIn, hh h hm, Bool.false_and] at h1
        exact absurd h1 (by decide)
      rw [if_neg this]
    · rfl

theorem broken_append (sp : Str → Str) (heads : List Str) (level : Int) (a b : List Sexp) :
    broken sp heads level (a ++ b) = broken sp heads level a ++ broken sp heads level b := by
  simp [broken]

theorem Pad.text (sp : Str → Str) (p : Pad F) (anc : List Str) (level : Int)
    (ht : str! "fp_lib_table" ∉ anc) :
    chunk sp (str! "module" :: anc) level p.ser = startLine 1 (level + 1) ++ ['('] ++ sp (str! "pad") ++
      broken sp [str! "net"] (level + 2) (body p.ser) ++ [')'] := by
  have htm : str! "fp_lib_table" ∉ str! "pad" :: str! "module" :: anc := by
    simpa using ht
  have e2 : level + 1 + 1 = level + 2 := by omega
  rw [Pad.ser_parts]
  obtain ⟨a, b⟩ := layOut_placed sp (str! "module") (str! "pad") (p.front ++
    (match p.net with | some n => [n.ser] | none => []) ++ p.back) ownLine anc level 0 (by decide)
  rw [chunk, a, b]
  have hh : ∀ h ∈ [str! "net"], free (str! "pad") h = false := by decide
  rw [List.append_assoc p.front, layOutL_append_free _ _ _ _ _ _ _ p.free_front htm]
  simp only [node, body, broken_append]
  rw [broken_free sp _ (level + 2) _ _ p.free_front hh, broken_free sp _ (level + 2) _ _ p.free_back hh]
  cases p.net with
  | none =>
    simp only [List.nil_append]
    rw [layOutL_free sp _ _ _ _ _ p.free_back htm]
    simp [leadIn, leadOut, ownLine, broken]
  | some n =>
    have hr : byRules footprintRules (str! "pad") (str! "net") = some ownLine := by decide
    have hn := layOut_line sp (str! "pad") (str! "net") [ofI n.num, .str n.name]
      (str! "module" :: anc) (level + 1) (0 + p.front.countP isPoint) hr (by rfl) (by simpa using ht)
    simp only [List.cons_append, List.nil_append, layOutL]
    rw [layOutL_free sp _ _ _ _ _ p.free_back htm, Net.ser, hn]
    simp [leadIn, leadOut, ownLine, broken, node, e2]

theorem FpText.text (sp : Str → Str) (t : FpText F) (anc : List Str) (level : Int)
    (ht : str! "fp_lib_table" ∉ anc) :
    chunk sp (str! "module" :: anc) level t.ser = startLine 1 (level + 1) ++ ['('] ++ sp (str! "fp_text") ++
      broken sp [str! "effects"] (level + 2) (body t.ser) ++ startLine 1 (level + 1) ++ [')'] := by
  have htm : str! "fp_lib_table" ∉ str! "fp_text" :: str! "module" :: anc := by
    simpa using ht
  have e2 : level + 1 + 1 = level + 2 := by omega
  obtain ⟨a, b⟩ := layOut_placed sp (str! "module") (str! "fp_text")
    (([.str t.name, .str t.value, t.at_.ser, pair (str! "layer") (.str t.layer.show)] ++
     (if t.hide then [.str (str! "hide")] else [])) ++ [t.effects.ser]) ownBlock anc level 0 (by decide)
  have hfr : FreeInL (str! "fp_text") ([.str t.name, .str t.value, t.at_.ser,
      pair (str! "layer") (.str t.layer.show)] ++ (if t.hide then [.str (str! "hide")] else [])) = true := by
    rw [FreeInL_append]
    simp only [FreeInL, FreeIn, At.free_in (str! "fp_text") (by decide), free_pair, Bool.and_eq_true]
    refine ⟨⟨trivial, trivial, trivial, ⟨by decide, by decide⟩, trivial⟩, ?_⟩
    split <;> rfl
  have hh : ∀ h ∈ [str! "effects"], free (str! "fp_text") h = false := by decide
  have hn := layOut_line sp (str! "fp_text") (str! "effects") (t.effects.font.ser ::
      match t.effects.justify with | some j => [j.ser] | none => [])
      (str! "module" :: anc) (level + 1) (0 + List.countP isPoint ([.str t.name, .str t.value, t.at_.ser,
      pair (str! "layer") (.str t.layer.show)] ++ (if t.hide then [.str (str! "hide")] else []))) (by decide)
      t.effects.free_ser (by simpa using ht)
  have he : t.effects.ser = node (str! "effects") (t.effects.font.ser ::
      match t.effects.justify with | some j => [j.ser] | none => []) := rfl
  unfold FpText.ser
  rw [chunk, a, b, layOutL_append_free _ _ _ _ _ _ _ hfr htm]
  simp only [node, body, broken_append]
  rw [← broken_append, broken_free sp _ (level + 2) _ _ hfr hh]
  simp only [layOutL]
  rw [he, hn]
  simp [leadIn, leadOut, ownBlock, broken, node, e2]

theorem Xyz.free_ser (p : Str) (hp : free p (str! "xyz") = true) (x : Xyz F) : FreeIn p x.ser = true := by
  simp [Xyz.ser, node, FreeIn, FreeInL, hp, ofF]

theorem Model.text (sp : Str → Str) (m : Model F) (anc : List Str) (level : Int)
    (ht : str! "fp_lib_table" ∉ anc) :
    chunk sp (str! "module" :: anc) level m.ser = startLine 1 (level + 1) ++ ['('] ++ sp (str! "model") ++
      broken sp [str! "at", str! "scale", str! "rotate"] (level + 2) (body m.ser) ++
      startLine 1 (level + 1) ++ [')'] := by
  have e2 : level + 1 + 1 = level + 2 := by omega
  obtain ⟨a, b⟩ := layOut_placed sp (str! "module") (str! "model")
    [.str m.name, pair (str! "at") m.at_.ser, pair (str! "scale") m.scale.ser,
    pair (str! "rotate") m.rotate.ser] ownBlock anc level 0 (by decide)
  have hx : ∀ (h : Str) (x : Xyz F), h ∈ [str! "at", str! "scale", str! "rotate"] → ∀ nth,
      gap (str! "model" :: str! "module" :: anc) nth (pair h x.ser) ++
        layOut sp (str! "model" :: str! "module" :: anc) (level + 1) nth (pair h x.ser) =
      startLine 1 (level + 2) ++ flat sp (pair h x.ser) := by
    intro h x hm nth
    have h1 : byRules footprintRules (str! "model") h = some ownLine ∧ free h (str! "xyz") = true ∧
        str! "fp_lib_table" ≠ h := by
      simp only [List.mem_cons, List.not_mem_nil, or_false] at hm
      rcases hm with rfl | rfl | rfl <;> decide
    have := layOut_line sp (str! "model") h [x.ser] (str! "module" :: anc) (level + 1) nth h1.1
      (by simp only [FreeInL, Xyz.free_ser h h1.2.1, Bool.and_self])
      (by
        intro e
        rcases List.mem_cons.1 e with e | e
        · exact h1.2.2 e
        · exact absurd e (by simpa using ht))
    rw [e2] at this
    exact this
  unfold Model.ser
  rw [chunk, a, b]
  simp only [layOutL, node, body]
  rw [hx (str! "at") _ (by simp), hx (str! "scale") _ (by simp), hx (str! "rotate") _ (by simp)]
  simp [leadIn, leadOut, ownBlock, broken, gap, layOut, flat, pair]

theorem layOutL_points (sp : Str → Str) (l : List (Xy F)) (anc : List Str) (level : Int) (nth : Nat)
    (hp : str! "polygon" ∉ anc) (hf : str! "filled_polygon" ∉ anc) (hfp : str! "fp_poly" ∈ anc)
    (ht : str! "fp_lib_table" ∉ anc) :
    layOutL sp (str! "pts" :: anc) level nth (l.map Xy.ser) =
      wrapPoints sp 4 (level + 1) nth (l.map Xy.ser) := by
  induction l generalizing nth with
  | nil => rfl
  | cons x l ih =>
    simp only [List.map_cons, layOutL, wrapPoints, ih]
    congr 1
    have htt : str! "fp_lib_table" ∉ str! "pts" :: anc := by simpa using ht
    by_cases hx : x.t = .xy
    · have hi : isPoint x.ser = true := by simp [isPoint, Xy.ser, node, hx, XyType.show]
      have hs : x.ser = node (str! "xy") [ofF x.x, ofF x.y] := by simp [Xy.ser, hx, XyType.show]
      have hk : (if str! "kicad_pcb" ∈ str! "pts" :: anc then byRules boardRules (str! "pts") (str! "xy") else none)
          = none := by
        have : byRules boardRules (str! "pts") (str! "xy") = none := by decide
        rw [this]; simp
      have hb : byRules footprintRules (str! "pts") (str! "xy") = none := by decide
      have hpb : pointBreaks (str! "pts" :: anc) nth = decide (nth ≠ 0 ∧ nth % 4 = 0) := by
        unfold pointBreaks
        by_cases h0 : nth = 0
        · simp [h0, hp, hf]
        · have : str! "fp_poly" ∈ str! "pts" :: anc := List.mem_cons_of_mem _ hfp
          simp only [if_neg h0, if_pos this]
          simp [h0]
      have hne : ¬ (str! "pts" = str! "fp_lib_table") := by decide
      have htl := layOutL_free sp [ofF x.x, ofF x.y] (str! "xy") (str! "pts" :: anc)
      by_cases hc : nth ≠ 0 ∧ nth % 4 = 0
      · have hpl : place (str! "pts" :: anc) nth (str! "xy") = some ownLine := by
          simp only [place, placeIn, hb, hpb, decide_eq_true hc, and_self, if_true]
        rw [if_pos ⟨hi, hc⟩, hs]
        simp only [gap, node, layOut, hpl, Option.isSome_some, if_true, leadIn, inside, leadOut]
        rw [htl (level + 1) 0 rfl (by simpa using ht)]
        simp [ownLine, flat]
      · have hpl : place (str! "pts" :: anc) nth (str! "xy") = none := by
          simp only [place, placeIn, hb, hpb, decide_eq_false hc, hk, Bool.false_eq_true, and_false,
            if_false, if_neg hne, if_neg ht]
        rw [if_neg (fun h => hc h.2), hs]
        simp only [gap, node, layOut, hpl, leadIn, inside, leadOut]
        rw [htl level 0 rfl (by simpa using ht)]
        simp [flat]
    · have hi : isPoint x.ser = false := by
        have : x.t.show ≠ str! "xy" := by
          cases h : x.t <;> first | (exact absurd h hx) | decide
        simpa [isPoint, Xy.ser, node] using this
      have hfree : FreeIn (str! "pts") x.ser = true := by
        have h1 : free (str! "pts") x.t.show = true ∧ x.t.show ≠ str! "fp_lib_table" := by
          cases h : x.t <;> first | (exact absurd h hx) | decide
        simp [Xy.ser, node, FreeIn, FreeInL, h1, ofF]
      have h0 : ¬ (isPoint x.ser = true ∧ nth ≠ 0 ∧ nth % 4 = 0) := by simp [hi]
      rw [if_neg h0, layOut_flat sp _ _ _ _ _ hfree htt]

theorem FpPoly.text (sp : Str → Str) (p : FpPoly F) (anc : List Str) (level : Int)
    (ht : str! "fp_lib_table" ∉ anc) (hp : str! "polygon" ∉ anc) (hf : str! "filled_polygon" ∉ anc) :
    chunk sp (str! "module" :: anc) level p.ser =
      startLine 1 (level + 1) ++ ['('] ++ sp (str! "fp_poly") ++ str! " (" ++
      sp (str! "pts") ++ wrapPoints sp 4 (level + 2) 0 (p.pts.map Xy.ser) ++ [')'] ++
      flatL sp [pair (str! "layer") (.str p.layer.show), pair (str! "width") (ofF p.width)] ++ [')'] := by
  have e2 : level + 1 + 1 = level + 2 := by omega
  obtain ⟨a, b⟩ := layOut_placed sp (str! "module") (str! "fp_poly")
    [Pts.ser p.pts, pair (str! "layer") (.str p.layer.show), pair (str! "width") (ofF p.width)]
    ownLine anc level 0 (by decide)
  have htm : str! "fp_lib_table" ∉ str! "fp_poly" :: str! "module" :: anc := by simpa using ht
  have hpl : ∀ nth, place (str! "fp_poly" :: str! "module" :: anc) nth (str! "pts") = none :=
    place_free (by decide) _ htm
  have hpts := layOutL_points sp p.pts (str! "fp_poly" :: str! "module" :: anc) (level + 1) 0
    (by simpa using hp) (by simpa using hf) (by simp) htm
  have hrest := layOutL_free sp [pair (str! "layer") (.str p.layer.show), pair (str! "width") (ofF p.width)]
    (str! "fp_poly") (str! "module" :: anc) (level + 1)
  unfold FpPoly.ser
  rw [chunk, a, b, layOutL, hrest _ (by rfl) htm]
  simp only [Pts.ser, node, layOut, gap, hpl, leadIn, inside, leadOut, hpts, e2]
  simp [ownLine]

/-- Every element is written as its kind says. -/
theorem Elem.chunk_eq (sp : Str → Str) (e : Elem F) (anc : List Str) (level : Int)
    (ht : str! "fp_lib_table" ∉ anc) (hp : str! "polygon" ∉ anc) (hf : str! "filled_polygon" ∉ anc) :
    chunk sp (str! "module" :: anc) level e.ser = elementText sp level e := by
  have htm : str! "fp_lib_table" ∉ str! "module" :: anc := by simpa using ht
  have hl : ∀ h, str! "fp_lib_table" ≠ h → str! "fp_lib_table" ∉ h :: str! "module" :: anc := by
    intro h hh e
    rcases List.mem_cons.1 e with e | e
    · exact hh e
    · exact htm e
  cases e with
  | solderMaskMargin s => exact layOut_flat sp _ _ _ _ _ (by rfl) htm
  | layer s => exact layOut_flat sp _ _ _ _ _ (by rfl) htm
  | descr s => exact layOut_line sp _ (str! "descr") [.str s] anc level 0 (by decide) (by rfl) (hl _ (by decide))
  | tags s => exact layOut_flat sp _ _ _ _ _ (by rfl) htm
  | attr s => exact layOut_line sp _ (str! "attr") [.str s] anc level 0 (by decide) (by rfl) (hl _ (by decide))
  | text p => exact FpText.text sp p anc level ht
  | pad p => exact Pad.text sp p anc level ht
  | poly p => exact FpPoly.text sp p anc level ht hp hf
  | line p =>
    refine layOut_line sp _ (str! "fp_line") _ anc level 0 (by decide) ?_ (hl _ (by decide))
    simp only [FreeInL, Xy.free_line, Bool.true_and]
    rfl
  | circle p =>
    refine layOut_line sp _ (str! "fp_circle") _ anc level 0 (by decide) ?_ (hl _ (by decide))
    simp only [FreeInL, Xy.free_circle, Bool.true_and]
    rfl
  | arc p =>
    refine layOut_flat sp _ _ _ _ _ ?_ htm
    simp only [Elem.ser, FpArc.ser, node, FreeIn, FreeInL, Xy.free_arc, Bool.true_and]
    rfl
  | tedit p => exact layOut_flat sp _ _ _ _ _ (by rfl) htm
  | tstamp p => exact layOut_flat sp _ _ _ _ _ (by rfl) htm
  | path s => exact layOut_line sp _ (str! "path") [.str s] anc level 0 (by decide) (by rfl) (hl _ (by decide))
  | at_ a =>
    refine layOut_line sp _ (str! "at") _ anc level 0 (by decide) ?_ (hl _ (by decide))
    have := a.free_in (str! "fp_text") (by decide)
    simp only [At.ser, node, FreeIn, Bool.and_eq_true] at this
    exact this.2
  | model m => exact Model.text sp m anc level ht
  | clearance s => exact layOut_flat sp _ _ _ _ _ (by rfl) htm
  | locked => rfl

/-! ## Regular trees -/

theorem regular_node {b : Bool} {h : Str} {l : List Sexp} (h1 : h ∉ [[], str! "module", str! "kicad_pcb",
    str! "segment", str! "pts"]) (h2 : RegularL b l) : Regular b (node h l) := by
  simp only [List.mem_cons, List.not_mem_nil, or_false, not_or] at h1
  obtain ⟨a1, a2, a3, a4, a5⟩ := h1
  simp only [node, Regular]
  refine ⟨a1, a2, a3, a4, fun e => a5 e.2, ?_⟩
  simpa [a5] using h2

theorem regular_pair {b : Bool} {h : Str} {x : Sexp} (h1 : h ∉ [[], str! "module", str! "kicad_pcb",
    str! "segment", str! "pts"]) (h2 : Regular b x) : Regular b (pair h x) :=
  regular_node h1 ⟨h2, trivial⟩

theorem regular_str {b : Bool} {s : Str} : Regular b (.str s) := trivial
theorem regular_ofF {b : Bool} {x : F} : Regular b (ofF x) := trivial
theorem regular_ofI {b : Bool} {x : Int} : Regular b (ofI x) := trivial

theorem regularL_if {b c : Bool} {x y : List Sexp} (hx : RegularL b x) (hy : RegularL b y) :
    RegularL b (if c then x else y) := by cases c <;> assumption

theorem regularL_optPair {α : Type} {b : Bool} {n : Str} {f : α → Sexp} (hn : n ∉ [[], str! "module",
    str! "kicad_pcb", str! "segment", str! "pts"]) (hf : ∀ a, Regular b (f a)) (o : Option α) :
    RegularL b (optPair n f o) := by
  cases o with
  | none => trivial
  | some a => exact ⟨regular_pair hn (hf a), trivial⟩

theorem regularL_one {b : Bool} {x : Sexp} (h : Regular b x) : RegularL b [x] := ⟨h, trivial⟩
theorem regularL_nil {b : Bool} : RegularL b [] := trivial
theorem regularL_cons {b : Bool} {x : Sexp} {l : List Sexp} (h : Regular b x) (hl : RegularL b l) :
    RegularL b (x :: l) := ⟨h, hl⟩
theorem regularL_app {b : Bool} {l l' : List Sexp} (h : RegularL b l) (h' : RegularL b l') :
    RegularL b (l ++ l') := RegularL_append.2 ⟨h, h'⟩

theorem Xy.regular {b : Bool} (x : Xy F) : Regular b x.ser := by
  refine regular_node ?_ ⟨trivial, trivial, trivial⟩
  cases x.t <;> decide

theorem Pts.regular (l : List (Xy F)) : Regular false (Pts.ser l) := by
  simp only [Pts.ser, node, Regular, RegularL_iff]
  refine ⟨by decide, by decide, by decide, by decide, by simp, ?_⟩
  intro x hx
  obtain ⟨y, -, rfl⟩ := List.mem_map.1 hx
  exact y.regular

theorem At.regular {b : Bool} (a : At F) : Regular b a.ser := by
  refine regular_node (by decide) (regularL_app ⟨trivial, trivial, trivial⟩ ?_)
  exact regularL_if (regularL_one trivial) trivial

theorem Layers.regular {b : Bool} (l : List Layer) : Regular b (Layers.ser l) := by
  refine regular_node (by decide) (RegularL_iff.2 ?_)
  intro x hx
  obtain ⟨y, -, rfl⟩ := List.mem_map.1 hx
  trivial

theorem Font.regular {b : Bool} (f : Font F) : Regular b f.ser := by
  refine regular_node (by decide) (regularL_app (regularL_app ?_ (regularL_one (regular_pair (by decide) trivial))) ?_)
  · exact regularL_if (regularL_one (regular_node (by decide) ⟨trivial, trivial, trivial⟩)) trivial
  · exact regularL_if (regularL_one trivial) trivial

theorem Effects.regular {b : Bool} (e : Effects F) : Regular b e.ser := by
  refine regular_node (by decide) ⟨e.font.regular, ?_⟩
  cases e.justify with
  | none => trivial
  | some j => cases j <;> exact regularL_one (regular_pair (by decide) trivial)

theorem Drill.regular {b : Bool} (d : Drill F) : Regular b d.ser := by
  refine regular_node (by decide) (regularL_app (regularL_app (regularL_app ?_ ?_) ?_) ?_)
  · cases d.shape <;> first | trivial | exact regularL_one trivial
  · exact regularL_if (regularL_one trivial) trivial
  · exact regularL_if (regularL_one trivial) trivial
  · exact regularL_if (regularL_one (regular_node (by decide) ⟨trivial, trivial, trivial⟩)) trivial

theorem Net.regular {b : Bool} (n : Net) : Regular b n.ser :=
  regular_node (by decide) ⟨trivial, trivial, trivial⟩

theorem Pad.regular {b : Bool} (p : Pad F) : Regular b p.ser := by
  rw [Pad.ser_parts]
  refine regular_node (by decide) (regularL_app (regularL_app ?_ ?_) ?_)
  · refine regularL_app (regularL_app (regularL_app ⟨trivial, trivial, trivial, p.at_.regular,
      p.size.regular, trivial⟩ ?_) ?_) (regularL_one (Layers.regular _))
    · cases p.drill <;> first | trivial | exact regularL_one (Drill.regular _)
    · cases p.rectDelta <;> first | trivial | exact regularL_one (Xy.regular _)
  · cases p.net <;> first | trivial | exact regularL_one (Net.regular _)
  · have hi : ∀ a : Int, Regular b (ofI a) := fun _ => trivial
    have hf : ∀ a : F, Regular b (ofF a) := fun _ => trivial
    exact regularL_app (regularL_app (regularL_app (regularL_app
      (regularL_optPair (by decide) hi _) (regularL_optPair (by decide) hf _))
      (regularL_optPair (by decide) hf _)) (regularL_optPair (by decide) hf _))
      (regularL_optPair (by decide) hf _)

theorem Xyz.regular {b : Bool} (x : Xyz F) : Regular b x.ser :=
  regular_node (by decide) ⟨trivial, trivial, trivial, trivial⟩

theorem Elem.regular (e : Elem F) : Regular false e.ser := by
  have hp : ∀ {h : Str} {s : Str}, h ∉ [[], str! "module", str! "kicad_pcb", str! "segment", str! "pts"] →
      Regular false (pair h (.str s)) := fun h => regular_pair h trivial
  cases e with
  | text t =>
    refine regular_node (by decide) (regularL_app (regularL_app ⟨trivial, trivial, t.at_.regular, hp (by decide),
      trivial⟩ ?_) (regularL_one t.effects.regular))
    exact regularL_if (regularL_one trivial) trivial
  | pad p => exact p.regular
  | poly p => exact regular_node (by decide) ⟨Pts.regular _, hp (by decide), hp (by decide), trivial⟩
  | line p => exact regular_node (by decide) ⟨p.start.regular, p.end_.regular, hp (by decide), hp (by decide), trivial⟩
  | circle p =>
    exact regular_node (by decide) ⟨p.center.regular, p.end_.regular, hp (by decide), hp (by decide), trivial⟩
  | arc p => exact regular_node (by decide) ⟨p.start.regular, p.end_.regular, hp (by decide), hp (by decide),
      hp (by decide), trivial⟩
  | at_ a => exact a.regular
  | model m => exact regular_node (by decide) ⟨trivial, regular_pair (by decide) (Xyz.regular _),
      regular_pair (by decide) (Xyz.regular _), regular_pair (by decide) (Xyz.regular _), trivial⟩
  | locked => trivial
  | _ => exact hp (by decide)

theorem Module.regular (m : Module F) : RegularL false (.str m.name :: m.elements.map Elem.ser) := by
  refine ⟨trivial, RegularL_iff.2 ?_⟩
  intro x hx
  obtain ⟨y, -, rfl⟩ := List.mem_map.1 hx
  exact y.regular

end Fp
end Verif
