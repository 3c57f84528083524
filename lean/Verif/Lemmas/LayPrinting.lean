import Verif.Lemmas.FpPrinting
import Verif.Lemmas.Num
import Verif.Spec.BoardText
/-!
# The layout of boards
-/

namespace Verif
open Spec Sx

namespace Lay
open Flt Fp
variable {F : Type} [Flt F]

theorem place_board {p h : Str} {x : Place} (anc : List Str) (nth : Nat)
    (h1 : byRules footprintRules p h = none) (h2 : p ≠ str! "pts") (h3 : str! "kicad_pcb" ∈ p :: anc)
    (h4 : byRules boardRules p h = some x) : place (p :: anc) nth h = some x := by
  simp only [place, placeIn, h1, h2, false_and, if_false, if_pos h3, h4]

theorem layOut_at (sp : Str → Str) (p h : Str) (l : List Sexp) (x : Place) (anc : List Str)
    (level : Int) (nth : Nat) (hp : place (p :: anc) nth h = some x) :
    gap (p :: anc) nth (node h l) = [] ∧
    layOut sp (p :: anc) level nth (node h l) = leadIn level (some x) ++ ['('] ++ sp h ++
      layOutL sp (h :: p :: anc) (level + 1) 0 l ++ leadOut level (some x) := by
  refine ⟨by simp [gap, node, hp], ?_⟩
  simp only [node, layOut, hp, inside]

theorem layOutL_atoms (sp : Str → Str) (anc : List Str) (level : Int) (nth : Nat) (l : List Str) :
    layOutL sp anc level nth (l.map .str) = flatL sp (l.map .str) := by
  induction l generalizing nth with
  | nil => rfl
  | cons x l ih => simp [layOutL, flatL, gap, layOut, flat, isPoint, ih]

theorem layOutL_append (sp : Str → Str) (anc : List Str) (level : Int) (nth : Nat) (a b : List Sexp) :
    layOutL sp anc level nth (a ++ b) =
      layOutL sp anc level nth a ++ layOutL sp anc level (nth + a.countP isPoint) b := by
  induction a generalizing nth with
  | nil => simp [layOutL]
  | cons x a ih =>
    simp only [List.cons_append, layOutL, ih]
    by_cases e : isPoint x = true
    · simp [e, Nat.add_assoc, Nat.add_comm 1]
    · simp [e]

/-- An entry of a section: an atom, or a list of atoms. -/
def Entry (x : Sexp) : Prop := (∃ s, x = .str s) ∨ ∃ (h : Str) (l : List Str), x = node h (l.map .str)

/-- Sections whose entries have a line each. -/
theorem layOutL_linewise (sp : Str → Str) (p : Str) (anc : List Str) (level : Int) (nth : Nat)
    (hp : p ∈ [str! "general", str! "layers", str! "setup", str! "pcbplotparams", str! "net_class"])
    (hk : str! "kicad_pcb" ∈ anc) (l : List Sexp) (hl : ∀ x ∈ l, Entry x) :
    layOutL sp (p :: anc) level nth l = linewise sp (level + 1) l := by
  have hpl : ∀ n h, place (p :: anc) n h = some ownLine := by
    intro n h
    refine place_board anc n ?_ ?_ (List.mem_cons_of_mem _ hk) ?_
    all_goals
      simp only [List.mem_cons, List.not_mem_nil, or_false] at hp
      rcases hp with rfl | rfl | rfl | rfl | rfl <;>
        simp [byRules, footprintRules, boardRules, Rule.applies]
  induction l generalizing nth with
  | nil => rfl
  | cons x l ih =>
    have ih := ih (if isPoint x then nth + 1 else nth) (fun y hy => hl y (List.mem_cons_of_mem _ hy))
    simp only [layOutL, ih]
    simp only [linewise, List.flatMap_cons]
    congr 1
    rcases hl x List.mem_cons_self with ⟨s, rfl⟩ | ⟨h, t, rfl⟩
    · simp [gap, layOut, flat]
    · obtain ⟨a, b⟩ := layOut_at sp p h (t.map .str) ownLine anc level nth (hpl nth h)
      rw [a, b, layOutL_atoms]
      simp [leadIn, leadOut, ownLine, node, flat]

theorem Layer.entry (l : Layer) : Entry l.ser := by
  refine .inr ⟨showInt l.num, [l.layer.show, l.layerType.show] ++ (if l.hide then [str! "hide"] else []), ?_⟩
  simp only [Layer.ser, node, ofI]
  cases l.hide <;> rfl

theorem SetupElement.entry (s : SetupElement) : Entry s.ser := by
  refine .inr ⟨s.name, s.value1 :: (match s.value2 with | some x => [x] | none => []), ?_⟩
  simp only [SetupElement.ser, node]
  cases s.value2 <;> rfl

theorem General.entries (g : General F) : ∀ x ∈ body g.ser, Entry x := by
  intro x hx
  simp only [General.ser, node, body, List.mem_cons, List.not_mem_nil, or_false] at hx
  rcases hx with rfl | rfl | rfl | rfl | rfl | rfl | rfl | rfl | rfl
  all_goals first
    | exact .inr ⟨_, [showInt _], rfl⟩
    | exact .inr ⟨_, [toStr _], rfl⟩
    | exact .inr ⟨_, [toStr _, toStr _, toStr _, toStr _], rfl⟩

theorem NetClass.entries (n : NetClass F) : ∀ x ∈ body n.ser, Entry x := by
  intro x hx
  simp only [NetClass.ser, node, body, List.mem_append, List.mem_cons, List.not_mem_nil, or_false,
    List.mem_map] at hx
  rcases hx with ((hx | hx) | hx) | ⟨s, -, rfl⟩
  · rcases hx with rfl | rfl | rfl | rfl | rfl | rfl | rfl | rfl
    · exact .inl ⟨_, rfl⟩
    · exact .inl ⟨_, rfl⟩
    all_goals exact .inr ⟨_, [toStr _], rfl⟩
  · cases h : n.diffPairGap with
    | none => rw [h] at hx; exact absurd hx (by simp [optPair])
    | some y => rw [h] at hx; simp only [optPair, List.mem_singleton] at hx; exact .inr ⟨_, [toStr y], hx⟩
  · cases h : n.diffPairWidth with
    | none => rw [h] at hx; exact absurd hx (by simp [optPair])
    | some y => rw [h] at hx; simp only [optPair, List.mem_singleton] at hx; exact .inr ⟨_, [toStr y], hx⟩
  · exact .inr ⟨_, [s], rfl⟩

/-! ## Sections and elements -/

/-- Directly inside a board. -/
theorem place_top {h : Str} {x : Place} (nth : Nat) (h4 : byRules boardRules (str! "kicad_pcb") h = some x) :
    place [str! "kicad_pcb"] nth h = some x := by
  refine place_board [] nth ?_ (by decide) (by simp) h4
  simp [byRules, footprintRules, Rule.applies]

theorem top_flat (sp : Str → Str) (h : Str) (l : List Sexp) (n : Nat) (level : Int)
    (h4 : byRules boardRules (str! "kicad_pcb") h = some ⟨n + 1, false, 0⟩) (hl : FreeInL h l = true)
    (ht : str! "fp_lib_table" ≠ h) :
    gap [str! "kicad_pcb"] 0 (node h l) = [] ∧
    layOut sp [str! "kicad_pcb"] level 0 (node h l) = startLine (n + 1) (level + 1) ++ flat sp (node h l) := by
  obtain ⟨a, b⟩ := layOut_at sp (str! "kicad_pcb") h l _ [] level 0 (place_top 0 h4)
  refine ⟨a, ?_⟩
  rw [b, layOutL_free sp l h [str! "kicad_pcb"] (level + 1) 0 hl (by simp [ht])]
  simp [leadIn, leadOut, flat, node]

theorem top_block (sp : Str → Str) (h : Str) (l : List Sexp) (n : Nat) (level : Int) (k : Nat)
    (h4 : byRules boardRules (str! "kicad_pcb") h = some ⟨n + 1, true, k⟩) :
    gap [str! "kicad_pcb"] 0 (node h l) = [] ∧
    layOut sp [str! "kicad_pcb"] level 0 (node h l) = section_ sp (n + 1) (level + 1) h
      (layOutL sp [h, str! "kicad_pcb"] (level + 1) 0 l) ++ List.replicate k '\n' := by
  obtain ⟨a, b⟩ := layOut_at sp (str! "kicad_pcb") h l _ [] level 0 (place_top 0 h4)
  refine ⟨a, ?_⟩
  rw [b]
  simp [leadIn, leadOut, section_]

theorem optTstamp_free (p : Str) (hp : (free p (str! "tstamp") && decide (str! "tstamp" ≠ str! "fp_lib_table")) = true)
    (o : Option Str) : FreeInL p (Fp.optPair (str! "tstamp") .str o) = true :=
  free_optPair p _ _ (fun a => ⟨a, rfl⟩) hp o

theorem Xy.free_gr (p : Str) (hp : p ∈ [str! "gr_line", str! "gr_arc", str! "gr_circle", str! "segment"])
    (x : Xy F) : FreeIn p x.ser = true := by
  refine Fp.Xy.free_ser p ?_ x
  simp only [List.mem_cons, List.not_mem_nil, or_false] at hp
  rcases hp with rfl | rfl | rfl | rfl <;> intro t <;> cases t <;> decide

theorem GrText.text (sp : Str → Str) (t : GrText F) (p : Str) (anc : List Str) (level : Int) (nth : Nat)
    (ht : str! "fp_lib_table" ∉ p :: anc) :
    layOutL sp (str! "gr_text" :: p :: anc) level nth (body t.ser) =
      broken sp [str! "effects"] (level + 1) (body t.ser) := by
  have htm : str! "fp_lib_table" ∉ str! "gr_text" :: p :: anc := by
    intro e
    rcases List.mem_cons.1 e with e | e
    · exact absurd e (by decide)
    · exact ht e
  have hfr : FreeInL (str! "gr_text") [.str t.value, t.at_.ser, pair (str! "layer") (.str t.layer.show)] = true := by
    simp only [FreeInL, FreeIn, Fp.At.free_in (str! "gr_text") (by decide), Bool.true_and]
    rfl
  have hbk := optTstamp_free (str! "gr_text") (by decide) t.tstamp
  have hh : ∀ h ∈ [str! "effects"], free (str! "gr_text") h = false := by decide
  have hb : body t.ser = [.str t.value, t.at_.ser, pair (str! "layer") (.str t.layer.show)] ++
      ([t.effects.ser] ++ Fp.optPair (str! "tstamp") .str t.tstamp) := rfl
  have he : t.effects.ser = node (str! "effects") (t.effects.font.ser ::
      match t.effects.justify with | some j => [j.ser] | none => []) := rfl
  rw [hb, layOutL_append_free _ _ _ _ _ _ _ hfr htm, broken_append, broken_append,
    broken_free sp _ (level + 1) _ _ hfr hh, broken_free sp _ (level + 1) _ _ hbk hh]
  simp only [List.cons_append, List.nil_append, layOutL]
  have hn := layOut_line sp (str! "gr_text") (str! "effects") (t.effects.font.ser ::
      match t.effects.justify with | some j => [j.ser] | none => []) (p :: anc) level
    (nth + List.countP isPoint [.str t.value, t.at_.ser, pair (str! "layer") (.str t.layer.show)]) (by decide)
    t.effects.free_ser (by
      intro e
      rcases List.mem_cons.1 e with e | e
      · exact absurd e (by decide)
      · exact htm e)
  rw [layOutL_free sp _ _ _ _ _ hbk htm, he, hn]
  simp [broken, node]

theorem Module.text (sp : Str → Str) (m : Fp.Module F) (level : Int) :
    layOutL sp [str! "module", str! "kicad_pcb"] level 0 (.str m.name :: m.elements.map Fp.Elem.ser) =
      [' '] ++ sp m.name ++ m.elements.flatMap (elementText sp level) := by
  rw [layOutL_chunks _ (by decide), List.flatMap_cons]
  have h : ∀ l : List (Fp.Elem F), (l.map Fp.Elem.ser).flatMap (chunk sp [str! "module", str! "kicad_pcb"] level) =
      l.flatMap (elementText sp level) := by
    intro l
    induction l with
    | nil => rfl
    | cons e l ih =>
      simp only [List.map_cons, List.flatMap_cons, ih]
      rw [Fp.Elem.chunk_eq sp e [str! "kicad_pcb"] level (by decide) (by decide) (by decide)]
  rw [h]
  rfl

/-- Every element is written as its kind says. -/
theorem entryText_known (sp : Str → Str) (level : Int) {h : Str} (l : List Sexp) (hh : h ∈ entryNames) :
    entryText sp level (node h l) = layOut sp [str! "kicad_pcb"] level 0 (node h l) := by
  have : foreignEntry (node h l) = false := by simp [foreignEntry, node, hh]
  simp [entryText, this]

theorem Elem.layOut_eq' (sp : Str → Str) (e : Elem F) (level : Int) :
    gap [str! "kicad_pcb"] 0 e.ser = (match e with | .other x => gap [str! "kicad_pcb"] 0 x | _ => []) ∧
    ((∀ x, e ≠ .other x) → layOut sp [str! "kicad_pcb"] level 0 e.ser = boardElementText sp level e) := by
  cases e with
  | other x => exact ⟨rfl, fun h => absurd rfl (h x)⟩
  | module_ m =>
    obtain ⟨a, b⟩ := top_block sp (str! "module") (.str m.name :: m.elements.map Fp.Elem.ser) 1 level 0 (by decide)
    refine ⟨a, fun _ => ?_⟩
    rw [Module.text] at b
    simp only [List.replicate_zero, List.append_nil] at b
    exact b
  | net n => exact (top_flat sp (str! "net") _ 0 level (by decide) (by rfl) (by decide)).imp id fun h _ => h
  | netClass n =>
    obtain ⟨a, b⟩ := top_block sp (str! "net_class") (body n.ser) 1 level 0 (by decide)
    refine ⟨a, fun _ => ?_⟩
    rw [layOutL_linewise sp (str! "net_class") [str! "kicad_pcb"] (level + 1) 0 (by simp) (by simp) _ n.entries] at b
    have e2 : level + 1 + 1 = level + 2 := by omega
    rw [e2] at b
    have e3 : node (str! "net_class") (body n.ser) = n.ser := rfl
    simp only [e3, List.replicate_zero, List.append_nil] at b
    exact b
  | grText t =>
    obtain ⟨a, b⟩ := top_block sp (str! "gr_text") (body t.ser) 0 level 0 (by decide)
    refine ⟨a, fun _ => ?_⟩
    rw [GrText.text sp t (str! "kicad_pcb") [] (level + 1) 0 (by decide)] at b
    have e2 : level + 1 + 1 = level + 2 := by omega
    rw [e2] at b
    have e3 : node (str! "gr_text") (body t.ser) = t.ser := rfl
    simp only [e3, List.replicate_zero, List.append_nil] at b
    exact b
  | grLine x =>
    refine And.imp id (fun h _ => h) (top_flat sp (str! "gr_line") _ 0 level (by decide) ?_ (by decide))
    rw [FreeInL_append, optTstamp_free _ (by decide)]
    simp only [FreeInL, Xy.free_gr (str! "gr_line") (by decide), Bool.true_and, Bool.and_true]
    rfl
  | grArc x =>
    refine And.imp id (fun h _ => h) (top_flat sp (str! "gr_arc") _ 0 level (by decide) ?_ (by decide))
    rw [FreeInL_append, optTstamp_free _ (by decide)]
    simp only [FreeInL, Xy.free_gr (str! "gr_arc") (by decide), Bool.true_and, Bool.and_true]
    rfl
  | grCircle x =>
    refine And.imp id (fun h _ => h) (top_flat sp (str! "gr_circle") _ 0 level (by decide) ?_ (by decide))
    rw [FreeInL_append, optTstamp_free _ (by decide)]
    simp only [FreeInL, Xy.free_gr (str! "gr_circle") (by decide), Bool.true_and, Bool.and_true]
    rfl
  | segment x =>
    refine And.imp id (fun h _ => h) (top_flat sp (str! "segment") _ 0 level (by decide) ?_ (by decide))
    rw [FreeInL_append, FreeInL_append, optTstamp_free _ (by decide),
      free_optPair _ (str! "status") _ (fun a => ⟨a, rfl⟩) (by decide)]
    simp only [FreeInL, Xy.free_gr (str! "segment") (by decide), Bool.true_and, Bool.and_true]
    rfl
  | via x =>
    refine And.imp id (fun h _ => h) (top_flat sp (str! "via") _ 0 level (by decide) ?_ (by decide))
    simp only [FreeInL_append, Bool.and_eq_true]
    refine ⟨⟨⟨⟨?_, ?_⟩, ?_⟩, ?_⟩, ?_⟩
    · split <;> rfl
    · split <;> rfl
    · simp only [FreeInL, Fp.At.free_in (str! "via") (by decide), Bool.true_and]
      rfl
    · split <;> rfl
    · simp only [FreeInL, Fp.Layers.free_in (str! "via") (by decide), Bool.true_and]
      rfl
  | dimension d =>
    exact ⟨(layOut_at sp (str! "kicad_pcb") (str! "dimension") _ _ [] level 0 (place_top 0 (by decide : _ = some ownBlock))).1, fun _ => rfl⟩
  | zone z =>
    exact ⟨(layOut_at sp (str! "kicad_pcb") (str! "zone") _ _ [] level 0 (place_top 0 (by decide : _ = some ownBlock))).1, fun _ => rfl⟩

theorem Elem.layOut_eq (sp : Str → Str) (e : Elem F) (level : Int) :
    gap [str! "kicad_pcb"] 0 e.ser = (match e with | .other x => gap [str! "kicad_pcb"] 0 x | _ => []) ∧
    entryText sp level e.ser = boardElementText sp level e := by
  obtain ⟨a, b⟩ := e.layOut_eq' sp level
  refine ⟨a, ?_⟩
  cases e with
  | other x => rfl
  | _ =>
    rw [← b (by intro x h; cases h)]
    exact entryText_known sp level _ (by decide)

theorem Elem.headOf_ser (e : Elem F) :
    (match headOf e.ser with | none => false | some h => decide (h = str! "module")) = afterModule false e ∧
    (match headOf e.ser with | none => true | some h => decide (h = str! "module")) = afterModule true e ∧
    (∀ b, (b || decide (headOf e.ser = some (str! "segment"))) = seenSegment b e) := by
  cases e with
  | other x =>
    refine ⟨?_, ?_, fun b => rfl⟩ <;> (simp only [Elem.ser, afterModule]; cases headOf x <;> rfl)
  | segment x => exact ⟨by rfl, by rfl, fun b => by cases b <;> rfl⟩
  | _ => exact ⟨by rfl, by rfl, fun b => by cases b <;> rfl⟩

theorem boardItems_elements (sp : Str → Str) (level : Int) (l : List (Elem F)) (m s : Bool) :
    boardItems sp level m s (l.map Elem.ser) = boardElements sp level m s l := by
  induction l generalizing m s with
  | nil => rfl
  | cons e l ih =>
    obtain ⟨a, b⟩ := e.layOut_eq sp level
    obtain ⟨h1, h2, h3⟩ := e.headOf_ser
    simp only [List.map_cons, boardItems, boardElements, a, b, separator, h3, ih]
    congr 2
    cases m
    · exact h1
    · exact h2

theorem boardItems_append (sp : Str → Str) (level : Int) (a b : List Sexp)
    (ha : ∀ x ∈ a, ∃ h, headOf x = some h ∧ h ≠ str! "module" ∧ h ≠ str! "segment") :
    boardItems sp level false false (a ++ b) =
      a.flatMap (fun x => gap [str! "kicad_pcb"] 0 x ++ entryText sp level x) ++
        boardItems sp level false false b := by
  induction a with
  | nil => rfl
  | cons x a ih =>
    obtain ⟨h, h1, h2, h3⟩ := ha x List.mem_cons_self
    have ih := ih (fun y hy => ha y (List.mem_cons_of_mem _ hy))
    simp only [List.cons_append, boardItems, List.flatMap_cons, h1, boardBreak]
    simp [h2, h3, ih]

/-! ## Regularity -/

theorem Pts.regular_pair {h : Str} (hh : h ∉ [[], str! "module", str! "kicad_pcb", str! "segment", str! "pts"])
    (l : List (Xy F)) : Regular false (pair h (Fp.Pts.ser l)) :=
  Fp.regular_pair hh (Fp.Pts.regular l)

theorem GrText.regular (t : GrText F) : Regular false t.ser := by
  refine regular_node (by decide) (regularL_app ⟨trivial, t.at_.regular, regular_pair (by decide) trivial,
    t.effects.regular, trivial⟩ ?_)
  have hs : ∀ a : Str, Regular false (.str a) := fun _ => trivial
  exact regularL_optPair (by decide) hs _

theorem NetClass.regular (n : NetClass F) : Regular false n.ser := by
  have hf : ∀ a : F, Regular false (ofF a) := fun _ => trivial
  have hp : ∀ {h : Str} {s : Str}, h ∉ [[], str! "module", str! "kicad_pcb", str! "segment", str! "pts"] →
      Regular false (pair h (.str s)) := fun h => regular_pair h trivial
  refine regular_node (by decide) (regularL_app (regularL_app (regularL_app ⟨trivial, trivial, hp (by decide),
    hp (by decide), hp (by decide), hp (by decide), hp (by decide), hp (by decide), trivial⟩
    (regularL_optPair (by decide) hf _)) (regularL_optPair (by decide) hf _)) (RegularL_iff.2 ?_))
  intro x hx
  obtain ⟨y, -, rfl⟩ := List.mem_map.1 hx
  exact hp (by decide)

theorem Dimension.regular (d : Dimension F) : Regular false d.ser := by
  have hs : ∀ a : Str, Regular false (.str a) := fun _ => trivial
  exact regular_node (by decide) (regularL_app (regularL_app ⟨trivial, regular_pair (by decide) trivial,
    regular_pair (by decide) trivial, trivial⟩ (regularL_optPair (by decide) hs _))
    ⟨d.text.regular, Pts.regular_pair (by decide) _, Pts.regular_pair (by decide) _,
      Pts.regular_pair (by decide) _, Pts.regular_pair (by decide) _, Pts.regular_pair (by decide) _,
      Pts.regular_pair (by decide) _, Pts.regular_pair (by decide) _, trivial⟩)

theorem Fill.regular (f : Fill F) : Regular false f.ser := by
  have hs : ∀ a : Str, Regular false (.str a) := fun _ => trivial
  have hp : ∀ {h : Str} {s : Str}, h ∉ [[], str! "module", str! "kicad_pcb", str! "segment", str! "pts"] →
      Regular false (pair h (.str s)) := fun h => regular_pair h trivial
  refine regular_node (by decide) (regularL_app (regularL_app (regularL_app (regularL_app ?_ ?_)
    ⟨hp (by decide), hp (by decide), hp (by decide), trivial⟩) (regularL_optPair (by decide) hs _)) ?_)
  · exact regularL_if (regularL_one trivial) trivial
  · exact regularL_if (regularL_one (hp (by decide))) trivial
  · exact regularL_if (regularL_one (hp (by decide))) trivial

theorem Zone.regular (z : Zone F) (ho : RegularL false z.other) : Regular false z.ser := by
  have hp : ∀ {h : Str} {s : Str}, h ∉ [[], str! "module", str! "kicad_pcb", str! "segment", str! "pts"] →
      Regular false (pair h (.str s)) := fun h => regular_pair h trivial
  have hpts : ∀ a : List (Xy F), Regular false (Fp.Pts.ser a) := Fp.Pts.regular
  refine regular_node (by decide) (regularL_app (regularL_app (regularL_app (regularL_app (regularL_app
    (regularL_app (regularL_app (regularL_app ⟨hp (by decide), hp (by decide), hp (by decide), hp (by decide),
      regular_node (by decide) ⟨trivial, trivial, trivial⟩, trivial⟩ ?_) ⟨?_, hp (by decide), trivial⟩) ?_)
      (regularL_one z.fill.regular)) ?_) ?_) (regularL_optPair (by decide) hpts _)) ho)
  · split
    · exact regularL_one (hp (by decide))
    · trivial
  · refine regular_node (by decide) (regularL_app ?_ (regularL_one (hp (by decide))))
    cases z.connectPads.connection <;> first | trivial | exact regularL_one trivial
  · cases z.keepout with
    | none => trivial
    | some k => exact regularL_one (regular_node (by decide) ⟨hp (by decide), hp (by decide), hp (by decide), trivial⟩)
  · refine RegularL_iff.2 fun x hx => ?_
    obtain ⟨y, -, rfl⟩ := List.mem_map.1 hx
    exact Pts.regular_pair (by decide) _
  · refine RegularL_iff.2 fun x hx => ?_
    obtain ⟨y, -, rfl⟩ := List.mem_map.1 hx
    exact Pts.regular_pair (by decide) _

theorem item_of_regular {h : Str} {l : List Sexp} (hr : Regular false (node h l)) : BoardItem (node h l) := by
  simp only [node, Regular] at hr
  exact Or.inr ⟨hr.1, hr.2.2.1, by simpa using hr.2.2.2.2.2⟩

theorem item_node {h : Str} {l : List Sexp} (h1 : h ∉ [[], str! "kicad_pcb", str! "pts"])
    (hl : RegularL false l) : BoardItem (node h l) := by
  simp only [List.mem_cons, List.not_mem_nil, or_false, not_or] at h1
  refine Or.inr ⟨h1.1, h1.2.1, ?_⟩
  simpa [h1.2.2] using hl

theorem Elem.item (e : Elem F) (h1 : ∀ x, e = .other x → BoardItem x)
    (h2 : ∀ z, e = .zone z → RegularL false z.other) : BoardItem e.ser := by
  have hs : ∀ a : Str, Regular false (.str a) := fun _ => trivial
  have hp : ∀ {h : Str} {s : Str}, h ∉ [[], str! "module", str! "kicad_pcb", str! "segment", str! "pts"] →
      Regular false (pair h (.str s)) := fun h => regular_pair h trivial
  cases e with
  | other x => exact h1 x rfl
  | module_ m => exact item_node (by decide) m.regular
  | net n => exact item_of_regular n.regular
  | netClass n => exact item_of_regular n.regular
  | grText t => exact item_of_regular t.regular
  | grLine x => exact item_node (by decide) (regularL_app ⟨x.start.regular, x.end_.regular, hp (by decide),
      hp (by decide), hp (by decide), trivial⟩ (regularL_optPair (by decide) hs _))
  | grArc x => exact item_node (by decide) (regularL_app ⟨x.start.regular, x.end_.regular, hp (by decide),
      hp (by decide), hp (by decide), trivial⟩ (regularL_optPair (by decide) hs _))
  | grCircle x => exact item_node (by decide) (regularL_app ⟨x.center.regular, x.end_.regular, hp (by decide),
      hp (by decide), trivial⟩ (regularL_optPair (by decide) hs _))
  | dimension d => exact item_of_regular d.regular
  | zone z => exact item_of_regular (z.regular (h2 z rfl))
  | segment x => exact item_node (by decide) (regularL_app (regularL_app ⟨x.start.regular, x.end_.regular,
      hp (by decide), hp (by decide), hp (by decide), trivial⟩ (regularL_optPair (by decide) hs _))
      (regularL_optPair (by decide) hs _))
  | via x =>
    refine item_node (by decide) (regularL_app (regularL_app (regularL_app (regularL_app ?_ ?_)
      ⟨x.at_.regular, hp (by decide), trivial⟩) ?_) ⟨Fp.Layers.regular _, hp (by decide), trivial⟩)
    · exact regularL_if (regularL_one trivial) trivial
    · exact regularL_if (regularL_one trivial) trivial
    · exact regularL_if (regularL_one (hp (by decide))) trivial

theorem Layer.regular (l : Layer) : Regular false l.ser := by
  have hn : ∀ w : Str, (∃ c ∈ w, c ∉ intChars) → showInt l.num ≠ w := by
    rintro w ⟨c, hc, hn⟩ rfl
    exact hn (showInt_chars _ c hc)
  have : showInt l.num ∉ [[], str! "module", str! "kicad_pcb", str! "segment", str! "pts"] := by
    simp only [List.mem_cons, List.not_mem_nil, or_false, not_or]
    exact ⟨showInt_ne_nil _, hn _ ⟨'m', by decide⟩, hn _ ⟨'k', by decide⟩, hn _ ⟨'s', by decide⟩,
      hn _ ⟨'p', by decide⟩⟩
  exact regular_node this (regularL_app (l := [.str l.layer.show, .str l.layerType.show]) ⟨trivial, trivial, trivial⟩
    (regularL_if (regularL_one trivial) trivial))

theorem SetupElement.regular (s : SetupElement) (h : s.name ≠ [] ∧ s.name ≠ str! "module" ∧
    s.name ≠ str! "kicad_pcb" ∧ s.name ≠ str! "segment") : Regular false s.ser := by
  simp only [SetupElement.ser, List.cons_append, List.nil_append, Regular]
  refine ⟨h.1, h.2.1, h.2.2.1, h.2.2.2, by simp, trivial, ?_⟩
  cases s.value2 <;> simp [RegularL, Regular]

theorem General.regular (g : General F) : Regular false g.ser := by
  have hp : ∀ {h : Str} {s : Str}, h ∉ [[], str! "module", str! "kicad_pcb", str! "segment", str! "pts"] →
      Regular false (pair h (.str s)) := fun h => regular_pair h trivial
  exact regular_node (by decide) ⟨hp (by decide), hp (by decide),
    regular_node (by decide) ⟨trivial, trivial, trivial, trivial, trivial⟩, hp (by decide), hp (by decide),
    hp (by decide), hp (by decide), hp (by decide), hp (by decide), trivial⟩

/-- The trees before the elements. -/
def headerTrees (l : Layout F) : List Sexp :=
  [pair (str! "version") (ofI l.version), node (str! "host") [.str l.host.tool, .str l.host.build],
   l.general.ser, pair (str! "page") (.str l.page), node (str! "layers") (l.layers.map Layer.ser), l.setup.ser]

theorem headerTrees_item (l : Layout F) (h : PlainBoard l) : ∀ x ∈ headerTrees l, BoardItem x := by
  have hs := h.1
  intro x hx
  simp only [headerTrees, List.mem_cons, List.not_mem_nil, or_false] at hx
  rcases hx with rfl | rfl | rfl | rfl | rfl | rfl
  · exact item_node (by decide) ⟨trivial, trivial⟩
  · exact item_node (by decide) ⟨trivial, trivial, trivial⟩
  · exact item_of_regular l.general.regular
  · exact item_node (by decide) ⟨trivial, trivial⟩
  · refine item_node (by decide) (RegularL_iff.2 fun x hx => ?_)
    obtain ⟨y, -, rfl⟩ := List.mem_map.1 hx
    exact y.regular
  · refine item_node (by decide) (regularL_app (RegularL_iff.2 fun x hx => ?_) (regularL_one
      (regular_node (by decide) (RegularL_iff.2 fun x hx => ?_))))
    · obtain ⟨y, hy, rfl⟩ := List.mem_map.1 hx
      exact y.regular (hs y (List.mem_append_left _ hy))
    · obtain ⟨y, hy, rfl⟩ := List.mem_map.1 hx
      exact y.regular (hs y (List.mem_append_right _ hy))

theorem header_text (sp : Str → Str) (level : Int) (l : Layout F) :
    (headerTrees l).flatMap (fun x => gap [str! "kicad_pcb"] 0 x ++ entryText sp level x) =
      headerText sp level l := by
  have hver : entryText sp level (pair (str! "version") (ofI l.version)) =
      layOut sp [str! "kicad_pcb"] level 0 (pair (str! "version") (ofI l.version)) := by
    rw [(layOut_free sp (pair (str! "version") (ofI l.version)) (str! "kicad_pcb") [] level 0 (by rfl) (by decide)).1]
    exact if_pos (by rfl)
  have hhost : entryText sp level (node (str! "host") [.str l.host.tool, .str l.host.build]) =
      layOut sp [str! "kicad_pcb"] level 0 (node (str! "host") [.str l.host.tool, .str l.host.build]) := by
    rw [(layOut_free sp (node (str! "host") [.str l.host.tool, .str l.host.build]) (str! "kicad_pcb") [] level 0
      (by rfl) (by decide)).1]
    exact if_pos (by rfl)
  have hgen : entryText sp level l.general.ser = layOut sp [str! "kicad_pcb"] level 0 l.general.ser :=
    entryText_known sp level _ (by decide)
  have hpage : entryText sp level (pair (str! "page") (.str l.page)) =
      layOut sp [str! "kicad_pcb"] level 0 (pair (str! "page") (.str l.page)) :=
    entryText_known sp level _ (by decide)
  have hlay : entryText sp level (node (str! "layers") (l.layers.map Layer.ser)) =
      layOut sp [str! "kicad_pcb"] level 0 (node (str! "layers") (l.layers.map Layer.ser)) :=
    entryText_known sp level _ (by decide)
  have hsetup : entryText sp level l.setup.ser = layOut sp [str! "kicad_pcb"] level 0 l.setup.ser :=
    entryText_known sp level _ (by decide)
  have e2 : level + 1 + 1 = level + 2 := by omega
  have e3 : level + 2 + 1 = level + 3 := by omega
  have hv := layOut_flat sp (str! "kicad_pcb") (pair (str! "version") (ofI l.version)) [] level 0 (by rfl) (by decide)
  have hh := layOut_flat sp (str! "kicad_pcb") (node (str! "host") [.str l.host.tool, .str l.host.build]) [] level 0
    (by rfl) (by decide)
  obtain ⟨g1, g2⟩ := top_block sp (str! "general") (body l.general.ser) 1 level 0 (by decide)
  rw [layOutL_linewise sp (str! "general") [str! "kicad_pcb"] (level + 1) 0 (by simp) (by simp) _ l.general.entries,
    e2] at g2
  have hg : node (str! "general") (body l.general.ser) = l.general.ser := rfl
  rw [hg] at g1 g2
  obtain ⟨p1, p2⟩ := top_flat sp (str! "page") [.str l.page] 1 level (by decide) (by rfl) (by decide)
  have hpg : node (str! "page") [.str l.page] = pair (str! "page") (.str l.page) := rfl
  rw [hpg] at p1 p2
  obtain ⟨l1, l2⟩ := top_block sp (str! "layers") (l.layers.map Layer.ser) 0 level 0 (by decide)
  rw [layOutL_linewise sp (str! "layers") [str! "kicad_pcb"] (level + 1) 0 (by simp) (by simp) _ (by
    intro x hx
    obtain ⟨y, -, rfl⟩ := List.mem_map.1 hx
    exact y.entry), e2] at l2
  obtain ⟨s1, s2⟩ := top_block sp (str! "setup") (l.setup.elements.map SetupElement.ser ++
    [node (str! "pcbplotparams") (l.setup.pcbplotparams.map SetupElement.ser)]) 1 level 1 (by decide)
  rw [layOutL_append, layOutL_linewise sp (str! "setup") [str! "kicad_pcb"] (level + 1) 0 (by simp) (by simp) _ (by
    intro x hx
    obtain ⟨y, -, rfl⟩ := List.mem_map.1 hx
    exact y.entry), e2] at s2
  have hpl : ∀ n, place [str! "setup", str! "kicad_pcb"] n (str! "pcbplotparams") = some ownLine := by
    intro n
    exact place_board _ n (by decide) (by decide) (by simp) (by decide)
  obtain ⟨q1, q2⟩ := layOut_at sp (str! "setup") (str! "pcbplotparams")
    (l.setup.pcbplotparams.map SetupElement.ser) ownLine [str! "kicad_pcb"] (level + 1)
    (0 + (l.setup.elements.map SetupElement.ser).countP isPoint) (hpl _)
  rw [e2, layOutL_linewise sp (str! "pcbplotparams") [str! "setup", str! "kicad_pcb"] (level + 2) 0 (by simp) (by simp) _ (by
    intro x hx
    obtain ⟨y, -, rfl⟩ := List.mem_map.1 hx
    exact y.entry), e3] at q2
  simp only [layOutL, q1, q2] at s2
  have hset : node (str! "setup") (l.setup.elements.map SetupElement.ser ++
    [node (str! "pcbplotparams") (l.setup.pcbplotparams.map SetupElement.ser)]) = l.setup.ser := rfl
  rw [hset] at s1 s2
  simp only [headerTrees, List.flatMap_cons, List.flatMap_nil, hver, hhost, hgen, hpage, hlay, hsetup, hv, hh, g1, g2, p1, p2, l1, l2, s1, s2]
  simp [headerText, flatL, leadIn, leadOut, ownLine, e2, section_]

theorem toText_eq (q : Str → Bool) (level : Int) (l : Layout F) (h : PlainBoard l) :
    Lay.toText q level l = str! "(" ++ Fm.atomText q (str! "kicad_pcb") ++ headerText (Fm.atomText q) level l ++
      boardElements (Fm.atomText q) level false false l.elements ++ str! "\n)\n" := by
  have hser : l.ser = node (str! "kicad_pcb") (headerTrees l ++ l.elements.map Elem.ser) := rfl
  rw [Lay.toText, hser, Fm.toText_board, boardText, boardItems_append, header_text, boardItems_elements]
  · simp
  · intro x hx
    simp only [headerTrees, List.mem_cons, List.not_mem_nil, or_false] at hx
    rcases hx with rfl | rfl | rfl | rfl | rfl | rfl
    all_goals exact ⟨_, rfl, by decide, by decide⟩
  · intro x hx
    rcases List.mem_append.1 hx with hx | hx
    · exact headerTrees_item l h x hx
    · obtain ⟨e, he, rfl⟩ := List.mem_map.1 hx
      exact e.item (h.2 e he).1 (h.2 e he).2

end Lay
end Verif
