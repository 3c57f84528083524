import Verif.Model.Layout.Codec
import Verif.Lemmas.FpCodec
import Verif.Spec.LayoutFile
/-!
# Layouts: reading what was written
-/

namespace Verif.Lay
open Verif Flt Sx Spec

set_option linter.unusedSectionVars false
set_option linter.unusedSimpArgs false

variable {F : Type} [Flt F] [TextLaws F] [ZeroLaws F]

theorem single_pair {α : Type} {n : Str} {dec : Sexp → Res α} {v : Sexp} {a : α}
    (h : dec v = .ok a) : single n dec (pair n v) = .ok a := by
  simp [single, pair_eq, h]

theorem single_head {α : Type} {n m : Str} {dec : Sexp → Res α} {r : List Sexp} (h : m ≠ n) :
    single n dec (node m r) = .err .sexp := by
  simp [single, iter_node_ne h]

theorem General.de_ser (g : General F) (h : GoodGeneral g) : General.de g.ser = .ok g := by
  obtain ⟨h1, h2, h3, h4, h5, h6, h7⟩ := h
  simp [General.de, General.ser, Area.de, Area.ser, int_ofI, *]

theorem Host.de_ser (h : Host) : Host.de (node (str! "host") [.str h.tool, .str h.build]) = .ok h := by
  simp [Host.de]

theorem LayerType.de_ser (t : LayerType) : LayerType.de (.str t.show) = .ok t := by
  cases t <;> simp [LayerType.de, LayerType.show]

theorem Layer.de_ser (l : Layer) (h1 : inI64 l.num) (h2 : GoodLayer l.layer) :
    Layer.de l.ser = .ok l := by
  obtain ⟨num, layer, t, hide⟩ := l
  simp only at h1 h2
  cases hide
  · simp [Layer.de, Layer.ser, list, int_ofI _ h1, C21_write_read _ h2, LayerType.de_ser]
  · simp [Layer.de, Layer.ser, list, int_ofI _ h1, C21_write_read _ h2, LayerType.de_ser,
      maybe_ok (string_str _)]

theorem LayerVec.de_ser (l : List Layer) (h : ∀ x ∈ l, inI64 x.num ∧ GoodLayer x.layer) :
    LayerVec.de (node (str! "layers") (l.map Layer.ser)) = .ok l := by
  have := vec_map Layer.de Layer.ser id l fun b hb => Layer.de_ser b (h b hb).1 (h b hb).2
  simpa [LayerVec.de] using this

@[simp] theorem SetupElement.de_ser (s : SetupElement) : SetupElement.de s.ser = .ok s := by
  obtain ⟨n, a, b⟩ := s
  cases b <;> simp [SetupElement.de, SetupElement.ser, list, maybe_ok (string_str _)]

theorem Setup.fill_elements (l : List SetupElement) (h : ∀ s ∈ l, s.name ≠ str! "pcbplotparams")
    (r : List Sexp) : ∀ st : Setup, Setup.fill st (l.map SetupElement.ser ++ r) =
      Setup.fill { st with elements := st.elements ++ l } r := by
  induction l with
  | nil => intro st; simp
  | cons s l ih =>
    intro st
    rw [List.forall_mem_cons] at h
    have hn : listName s.ser = .ok s.name := rfl
    simp [Setup.fill, hn, h.1, ih h.2]

theorem Setup.de_ser (s : Setup) (h : ∀ e ∈ s.elements, e.name ≠ str! "pcbplotparams") :
    Setup.de s.ser = .ok s := by
  have := vec_map SetupElement.de SetupElement.ser id s.pcbplotparams fun b _ => SetupElement.de_ser b
  simp [Setup.de, Setup.ser, Setup.fill_elements _ h, Setup.fill, this]

theorem NetClass.fill_nets (l : List Str) : ∀ nc : NetClass F,
    NetClass.fill nc (l.map fun s => pair (str! "add_net") (.str s)) =
      .ok { nc with nets := nc.nets ++ l } := by
  induction l with
  | nil => intro nc; simp [NetClass.fill]
  | cons s l ih =>
    intro nc
    simp [NetClass.fill, ih]

theorem NetClass.fill_clearance (nc : NetClass F) (x : F) (r : List Sexp) :
    NetClass.fill nc (pair (str! "clearance") (ofF x) :: r) = NetClass.fill { nc with clearance := x } r := by
  rw [NetClass.fill, listName_pair, Res.bind_ok]
  simp only [single_pair (flt_ofF x), Res.bind_ok]
  rfl

theorem NetClass.fill_trace_width (nc : NetClass F) (x : F) (r : List Sexp) :
    NetClass.fill nc (pair (str! "trace_width") (ofF x) :: r) = NetClass.fill { nc with traceWidth := x } r := by
  rw [NetClass.fill, listName_pair, Res.bind_ok]
  simp only [single_pair (flt_ofF x), Res.bind_ok]
  rfl

theorem NetClass.fill_via_dia (nc : NetClass F) (x : F) (r : List Sexp) :
    NetClass.fill nc (pair (str! "via_dia") (ofF x) :: r) = NetClass.fill { nc with viaDia := x } r := by
  rw [NetClass.fill, listName_pair, Res.bind_ok]
  simp only [single_pair (flt_ofF x), Res.bind_ok]
  rfl

theorem NetClass.fill_via_drill (nc : NetClass F) (x : F) (r : List Sexp) :
    NetClass.fill nc (pair (str! "via_drill") (ofF x) :: r) = NetClass.fill { nc with viaDrill := x } r := by
  rw [NetClass.fill, listName_pair, Res.bind_ok]
  simp only [single_pair (flt_ofF x), Res.bind_ok]
  rfl

theorem NetClass.fill_uvia_dia (nc : NetClass F) (x : F) (r : List Sexp) :
    NetClass.fill nc (pair (str! "uvia_dia") (ofF x) :: r) = NetClass.fill { nc with uviaDia := x } r := by
  rw [NetClass.fill, listName_pair, Res.bind_ok]
  simp only [single_pair (flt_ofF x), Res.bind_ok]
  rfl

theorem NetClass.fill_uvia_drill (nc : NetClass F) (x : F) (r : List Sexp) :
    NetClass.fill nc (pair (str! "uvia_drill") (ofF x) :: r) = NetClass.fill { nc with uviaDrill := x } r := by
  rw [NetClass.fill, listName_pair, Res.bind_ok]
  simp only [single_pair (flt_ofF x), Res.bind_ok]
  rfl

theorem NetClass.fill_diff_pair_gap (nc : NetClass F) (x : F) (r : List Sexp) :
    NetClass.fill nc (pair (str! "diff_pair_gap") (ofF x) :: r) = NetClass.fill { nc with diffPairGap := some x } r := by
  rw [NetClass.fill, listName_pair, Res.bind_ok]
  simp only [single_pair (flt_ofF x), Res.bind_ok]
  rfl

theorem NetClass.fill_diff_pair_width (nc : NetClass F) (x : F) (r : List Sexp) :
    NetClass.fill nc (pair (str! "diff_pair_width") (ofF x) :: r) = NetClass.fill { nc with diffPairWidth := some x } r := by
  rw [NetClass.fill, listName_pair, Res.bind_ok]
  simp only [single_pair (flt_ofF x), Res.bind_ok]
  rfl

theorem NetClass.de_ser (n : NetClass F) : NetClass.de n.ser = .ok n := by
  obtain ⟨name, desc, a, b, c, d, e, f, g, h, nets⟩ := n
  simp only [NetClass.de, NetClass.ser, iter_node, Res.bind_ok, List.cons_append, List.nil_append,
    eat_cons, string_str, NetClass.fill_clearance, NetClass.fill_trace_width, NetClass.fill_via_dia,
    NetClass.fill_via_drill, NetClass.fill_uvia_dia, NetClass.fill_uvia_drill]
  cases g <;> cases h <;>
    simp only [Fp.optPair, List.nil_append, List.cons_append, NetClass.fill_diff_pair_gap,
      NetClass.fill_diff_pair_width, NetClass.fill_nets]

theorem inList_tstamp (s : Str) :
    inList (str! "tstamp") string (pair (str! "tstamp") (.str s)) = .ok s := by simp

theorem inList_flt (n : Str) (x : F) : inList n (flt (F := F)) (pair n (ofF x)) = .ok x := by simp
theorem inList_str (n : Str) (s : Str) : inList n string (pair n (.str s)) = .ok s := by simp

theorem GrText.de_ser (t : GrText F) (h : GoodGrText t) : GrText.de t.ser = .ok t := by
  obtain ⟨v, a, l, e, ts⟩ := t
  obtain ⟨h1, h2⟩ := h
  simp only at h1 h2
  cases ts <;>
    simp [GrText.de, GrText.ser, Fp.Layer.de_ser _ h1, Fp.Effects.de_ser _ h2, Fp.optPair,
      maybe_ok (inList_str _ _)]

theorem GrLine.de_ser (t : GrLine F) (h : GoodLayer t.layer) : GrLine.de t.ser = .ok t := by
  obtain ⟨s, e, a, l, w, ts⟩ := t
  simp only at h
  cases ts <;>
    simp [GrLine.de, GrLine.ser, Fp.Layer.de_ser _ h, Fp.optPair, maybe_ok (inList_str _ _),
      maybe_ok (inList_flt _ _)]

theorem GrArc.de_ser (t : GrArc F) (h : GoodLayer t.layer) : GrArc.de t.ser = .ok t := by
  obtain ⟨s, e, a, l, w, ts⟩ := t
  simp only at h
  cases ts <;>
    simp [GrArc.de, GrArc.ser, Fp.Layer.de_ser _ h, Fp.optPair, maybe_ok (inList_str _ _),
      maybe_ok (inList_flt _ _)]

theorem GrCircle.de_ser (t : GrCircle F) (h : GoodLayer t.layer) : GrCircle.de t.ser = .ok t := by
  obtain ⟨s, e, l, w, ts⟩ := t
  simp only at h
  cases ts <;>
    simp [GrCircle.de, GrCircle.ser, Fp.Layer.de_ser _ h, Fp.optPair, maybe_ok (inList_str _ _),
      maybe_ok (inList_flt _ _)]

theorem inList_ne {α : Type} {n m : Str} {dec : Sexp → Res α} {r : List Sexp} (h : m ≠ n) :
    inList n dec (node m r) = .err .sexp := by
  unfold inList node
  rcases r with _ | ⟨a, _ | ⟨b, r⟩⟩ <;> simp [namedValue, h]

theorem Dimension.de_ser (d : Dimension F) (h1 : GoodLayer d.layer) (h2 : GoodGrText d.text) :
    Dimension.de d.ser = .ok d := by
  have ht := GrText.de_ser d.text h2
  have hn : inList (str! "tstamp") string d.text.ser = .err .sexp := inList_ne (by decide)
  simp only [Dimension.de, Dimension.ser, iter_node, Res.bind_ok, List.cons_append, List.nil_append,
    eat_cons, string_str, inList_pair, flt_ofF, Fp.Layer.de_ser _ h1]
  cases hc : d.tstamp <;>
    simp [Fp.optPair, maybe_err hn, maybe_ok (inList_str _ _), ht, ← hc]

theorem Segment.de_ser (s : Segment F) (h1 : GoodLayer s.layer) (h2 : inI64 s.net) :
    Segment.de s.ser = .ok s := by
  obtain ⟨a, b, w, l, n, ts, st⟩ := s
  simp only at h1 h2
  have hn : ∀ x, inList (str! "tstamp") string (pair (str! "status") (.str x)) = .err .sexp :=
    fun x => inList_ne (by decide)
  cases ts <;> cases st <;>
    simp [Segment.de, Segment.ser, Fp.Layer.de_ser _ h1, Fp.optPair, maybe_ok (inList_str _ _),
      int_ofI _ h2, maybe_err (hn _)]

theorem Via.de_ser (v : Via F) (h1 : ∀ l ∈ v.layers, GoodLayer l) (h2 : inI64 v.net) :
    Via.de v.ser = .ok v := by
  obtain ⟨b, m, a, s, d, ls, n⟩ := v
  simp only at h1 h2
  have hl : ∀ (n : Str), literal n a.ser = .err .sexp := fun n => rfl
  have hb : literal (str! "blind") (.str (str! "micro")) = .err .sexp := by decide
  have hd : inList (str! "drill") (flt (F := F)) (Fp.Layers.ser ls) = .err .sexp := inList_ne (by decide)
  have hn : inList (str! "net") int (pair (str! "net") (ofI n)) = .ok n := by
    simp [int_ofI _ h2]
  have tail : (do
      let (drill, i) ← maybe (inList (str! "drill") (flt (F := F)))
        ((if !feq d zero then [pair (str! "drill") (ofF d)] else []) ++
          [Fp.Layers.ser ls, pair (str! "net") (ofI n)])
      let (layers, i) ← eat Fp.Layers.de i
      let (net, i) ← maybe (inList (str! "net") int) i
      close i (Via.mk b m a s (drill.getD zero) layers (net.getD 0))) = .ok ⟨b, m, a, s, d, ls, n⟩ := by
    by_cases hz : feq d zero = true
    · have := eq_zero hz
      subst this
      simp [hz, maybe_err hd, Fp.Layers.de_ser _ h1, maybe_ok hn]
    · simp [hz, maybe_ok (inList_flt _ _), Fp.Layers.de_ser _ h1, maybe_ok hn]
  cases b <;> cases m <;>
    simp [Via.de, Via.ser, maybe_err (hl _), maybe_ok (literal_self _), maybe_err hb] <;>
    simpa using tail

/-! ## Zones -/

theorem Keepout.de_ser (k : Keepout) : Keepout.de k.ser = .ok k := by
  obtain ⟨a, b, c⟩ := k
  cases a <;> cases b <;> cases c <;> simp [Keepout.de, Keepout.ser, allowed] <;> decide

theorem Hatch.de_ser (h : Hatch F) : Hatch.de h.ser = .ok h := by simp [Hatch.de, Hatch.ser]

theorem ConnectPads.de_ser (c : ConnectPads F) : ConnectPads.de c.ser = .ok c := by
  obtain ⟨a, b⟩ := c
  cases a with
  | none =>
    have : string (pair (str! "clearance") (ofF b)) = .err .sexp := rfl
    simp [ConnectPads.de, ConnectPads.ser, maybe_err this]
  | some s => simp [ConnectPads.de, ConnectPads.ser, maybe_ok (string_str _)]

theorem Fill.de_ser (f : Fill F) (h : inI64 f.arcSegments) : Fill.de f.ser = .ok f := by
  obtain ⟨fi, se, ar, tg, tb, sm, cr⟩ := f
  simp only at h
  have h1 : ∀ n v, literal (str! "yes") (pair n v) = .err .sexp := fun n v => rfl
  have h2 : ∀ v, inList (str! "mode") string (pair (str! "arc_segments") v) = .err .sexp :=
    fun v => inList_ne (by decide)
  have h3 : ∀ v, inList (str! "smoothing") string (pair (str! "radius") v) = .err .sexp :=
    fun v => inList_ne (by decide)
  have tail : (do
      let (smoothing, i) ← maybe (inList (str! "smoothing") string)
        (Fp.optPair (str! "smoothing") .str sm ++
          (if !feq cr zero then [pair (str! "radius") (ofF cr)] else []))
      let (radius, i) ← maybe (inList (str! "radius") (flt (F := F))) i
      close i (Fill.mk fi se ar tg tb smoothing (radius.getD zero))) = .ok ⟨fi, se, ar, tg, tb, sm, cr⟩ := by
    by_cases hz : feq cr zero = true
    · have := eq_zero hz
      subst this
      cases sm <;> simp [hz, Fp.optPair, maybe_ok (inList_str _ _)]
    · cases sm <;> simp [hz, Fp.optPair, maybe_ok (inList_str _ _), maybe_err (h3 _),
        maybe_ok (inList_flt _ _)]
  cases fi <;> cases se <;>
    simp [Fill.de, Fill.ser, maybe_ok (literal_self _), maybe_err (h1 _ _), maybe_err (h2 _),
      maybe_ok (inList_str _ _), int_ofI _ h] <;>
    simpa using tail

/-- The three outline readers of a zone reject a tree. -/
def notOutline (F : Type) [Flt F] (s : Sexp) : Prop :=
  (∀ p, single (str! "polygon") (Fp.Pts.de (F := F)) s ≠ .ok p) ∧
  (∀ p, single (str! "filled_polygon") (Fp.Pts.de (F := F)) s ≠ .ok p) ∧
  (∀ p, single (str! "fill_segments") (Fp.Pts.de (F := F)) s ≠ .ok p)

theorem single_name {α : Type} {n : Str} {dec : Sexp → Res α} {s : Sexp} {a : α}
    (h : single n dec s = .ok a) : ∃ r, s = .list (.str n :: r) := by
  simp only [single, Res.bind_eq_ok] at h
  obtain ⟨i, hi, _⟩ := h
  unfold iter at hi
  split at hi
  · split at hi
    · rename_i h; subst h; exact ⟨_, rfl⟩
    · cases hi
  · cases hi

theorem notOutline_of {s : Sexp} (h : NotOutline s) : notOutline F s := by
  refine ⟨fun p hp => ?_, fun p hp => ?_, fun p hp => ?_⟩ <;>
    obtain ⟨r, rfl⟩ := single_name hp <;> exact absurd (h _ _ rfl) (by decide)

theorem Zone.fillRest_polygons (l : List (List (Fp.Xy F))) (r : List Sexp) : ∀ z : Zone F,
    Zone.fillRest z (l.map (fun p => pair (str! "polygon") (Fp.Pts.ser p)) ++ r) =
      Zone.fillRest { z with polygons := z.polygons ++ l } r := by
  induction l with
  | nil => intro z; simp
  | cons p l ih =>
    intro z
    simp [Zone.fillRest, single_pair (Fp.Pts.de_ser p), ih]

theorem Zone.fillRest_filled (l : List (List (Fp.Xy F))) (r : List Sexp) : ∀ z : Zone F,
    Zone.fillRest z (l.map (fun p => pair (str! "filled_polygon") (Fp.Pts.ser p)) ++ r) =
      Zone.fillRest { z with filledPolygons := z.filledPolygons ++ l } r := by
  induction l with
  | nil => intro z; simp
  | cons p l ih =>
    intro z
    have h1 : single (str! "polygon") (Fp.Pts.de (F := F))
        (pair (str! "filled_polygon") (Fp.Pts.ser p)) = .err .sexp := single_head (by decide)
    simp [Zone.fillRest, single_pair (Fp.Pts.de_ser p), h1, ih]

theorem Zone.fillRest_segments (o : Option (List (Fp.Xy F))) (r : List Sexp) (z : Zone F)
    (hz : z.fillSegments = none) :
    Zone.fillRest z (Fp.optPair (str! "fill_segments") Fp.Pts.ser o ++ r) =
      Zone.fillRest { z with fillSegments := o } r := by
  cases o with
  | none => simp [Fp.optPair, ← hz]
  | some p =>
    have h1 : single (str! "polygon") (Fp.Pts.de (F := F))
        (pair (str! "fill_segments") (Fp.Pts.ser p)) = .err .sexp := single_head (by decide)
    have h2 : single (str! "filled_polygon") (Fp.Pts.de (F := F))
        (pair (str! "fill_segments") (Fp.Pts.ser p)) = .err .sexp := single_head (by decide)
    simp [Fp.optPair, Zone.fillRest, h1, h2, single_pair (Fp.Pts.de_ser p)]

theorem Zone.fillRest_other (l : List Sexp) (h : ∀ s ∈ l, notOutline F s) : ∀ z : Zone F,
    Zone.fillRest z l = { z with other := z.other ++ l } := by
  induction l with
  | nil => intro z; simp [Zone.fillRest]
  | cons s l ih =>
    intro z
    rw [List.forall_mem_cons] at h
    obtain ⟨⟨h1, h2, h3⟩, h⟩ := h
    rw [Zone.fillRest]
    split
    · rename_i hp; exact absurd hp (h1 _)
    · split
      · rename_i hp; exact absurd hp (h2 _)
      · split
        · rename_i hp; exact absurd hp (h3 _)
        · rw [ih h]; simp

theorem asU64_nat (n : Nat) (h : n ≤ maxI64) : asU64 (n : Int) = n := by
  unfold asU64 maxI64 at *
  omega

theorem int_showNat (n : Nat) (h : n ≤ maxI64) : int (.str (showNat n)) = .ok (n : Int) := by
  have := int_ofI (n : Int) (by unfold inI64 maxI64 at *; omega)
  simpa [ofI, showInt] using this

theorem Zone.de_ser (z : Zone F) (h1 : inI64 z.net) (h2 : GoodLayer z.layer)
    (h3 : z.priority ≤ maxI64) (h4 : inI64 z.fill.arcSegments) (h5 : ∀ s ∈ z.other, notOutline F s) :
    Zone.de z.ser = .ok z := by
  have hp : inList (str! "priority") int z.connectPads.ser = .err .sexp := inList_ne (by decide)
  have hp' : inList (str! "priority") int (pair (str! "priority") (.str (showNat z.priority))) =
      .ok (z.priority : Int) := by
    simp [int_showNat _ h3]
  have hk : Keepout.de z.fill.ser = .err .sexp := rfl
  have hprio : ∀ r, maybe (inList (str! "priority") int)
      ((if z.priority > 0 then [pair (str! "priority") (.str (showNat z.priority))] else []) ++
        z.connectPads.ser :: r) =
      .ok (if z.priority > 0 then some (z.priority : Int) else none, z.connectPads.ser :: r) := by
    intro r
    by_cases h0 : z.priority > 0
    · simp only [h0, if_true, List.cons_append, List.nil_append, maybe_ok hp']
    · simp only [h0, if_false, List.nil_append, maybe_err hp]
  have hpv : asU64 ((if z.priority > 0 then some (z.priority : Int) else none).getD 0) = z.priority := by
    by_cases h0 : z.priority > 0
    · simp [h0, asU64_nat _ h3]
    · have : z.priority = 0 := by omega
      simp [this, asU64]
  have hkeep : ∀ r, maybe Keepout.de ((match z.keepout with | some k => [k.ser] | none => []) ++
      z.fill.ser :: r) = .ok (z.keepout, z.fill.ser :: r) := by
    intro r
    cases z.keepout with
    | none => simp [maybe_err hk]
    | some k => simp [maybe_ok (Keepout.de_ser k)]
  simp only [Zone.de, Zone.ser, iter_node, Res.bind_ok, List.cons_append, List.nil_append,
    eat_cons, inList_pair, int_ofI _ h1, string_str, Fp.Layer.de_ser _ h2, Hatch.de_ser,
    List.append_assoc]
  refine (Fp.bind_of_eq (hprio _)).trans ?_
  simp only [Res.bind_ok, ConnectPads.de_ser, eat_cons, inList_pair, flt_ofF]
  refine (Fp.bind_of_eq (hkeep _)).trans ?_
  simp only [Res.bind_ok, eat_cons, Fill.de_ser _ h4, hpv]
  rw [Zone.fillRest_polygons, Zone.fillRest_filled, Zone.fillRest_segments _ _ _ rfl,
    Zone.fillRest_other _ h5]
  simp

/-! ## The whole layout -/

/-- `GoodBoardElem` in terms of the readers. -/
def Elem.good : Elem F → Prop
  | .zone z => inI64 z.net ∧ GoodLayer z.layer ∧ z.priority ≤ maxI64 ∧ inI64 z.fill.arcSegments ∧
      ∀ s ∈ z.other, notOutline F s
  | e => GoodBoardElem e

theorem Elem.good_of {e : Elem F} (h : GoodBoardElem e) : e.good := by
  cases e with
  | zone z => exact ⟨h.1, h.2.1, h.2.2.1, h.2.2.2.1, fun s hs => notOutline_of (h.2.2.2.2 s hs)⟩
  | _ => exact h

theorem Elem.step_ser (e : Elem F) (h : e.good) (l : Layout F) :
    l.step e.ser = .ok { l with elements := l.elements ++ [e] } := by
  cases e with
  | other s =>
    obtain ⟨n, r, rfl, hn⟩ := h
    have hl : listName (.list (.str n :: r)) = .ok n := rfl
    simp only [layoutSections, List.mem_cons, List.not_mem_nil, or_false, not_or] at hn
    obtain ⟨h1, h2, h3, h4, h5, h6, h7, h8, h9, h10, h11, h12, h13, h14, h15, h16, h17⟩ := hn
    simp only [Elem.ser, Layout.step, hl, Res.bind_ok, if_neg, *, not_false_eq_true]
  | module_ m =>
    have := Fp.Module.de_ser m h
    have hl : listName m.ser = .ok (str! "module") := rfl
    simp only [Elem.ser, Layout.step, hl, Res.bind_ok, this]; rfl
  | net m =>
    have := Fp.Net.de_ser m h
    have hl : listName m.ser = .ok (str! "net") := rfl
    simp only [Elem.ser, Layout.step, hl, Res.bind_ok, this]; rfl
  | netClass m =>
    have := NetClass.de_ser m
    have hl : listName m.ser = .ok (str! "net_class") := rfl
    simp only [Elem.ser, Layout.step, hl, Res.bind_ok, this]; rfl
  | grText m =>
    have := GrText.de_ser m h
    have hl : listName m.ser = .ok (str! "gr_text") := rfl
    simp only [Elem.ser, Layout.step, hl, Res.bind_ok, this]; rfl
  | grLine m =>
    have := GrLine.de_ser m h
    have hl : listName m.ser = .ok (str! "gr_line") := rfl
    simp only [Elem.ser, Layout.step, hl, Res.bind_ok, this]; rfl
  | grArc m =>
    have := GrArc.de_ser m h
    have hl : listName m.ser = .ok (str! "gr_arc") := rfl
    simp only [Elem.ser, Layout.step, hl, Res.bind_ok, this]; rfl
  | grCircle m =>
    have := GrCircle.de_ser m h
    have hl : listName m.ser = .ok (str! "gr_circle") := rfl
    simp only [Elem.ser, Layout.step, hl, Res.bind_ok, this]; rfl
  | dimension m =>
    have := Dimension.de_ser m h.1 h.2
    have hl : listName m.ser = .ok (str! "dimension") := rfl
    simp only [Elem.ser, Layout.step, hl, Res.bind_ok, this]; rfl
  | segment m =>
    have := Segment.de_ser m h.1 h.2
    have hl : listName m.ser = .ok (str! "segment") := rfl
    simp only [Elem.ser, Layout.step, hl, Res.bind_ok, this]; rfl
  | via m =>
    have := Via.de_ser m h.1 h.2
    have hl : listName m.ser = .ok (str! "via") := rfl
    simp only [Elem.ser, Layout.step, hl, Res.bind_ok, this]; rfl
  | zone m =>
    obtain ⟨h1, h2, h3, h4, h5⟩ := h
    have := Zone.de_ser m h1 h2 h3 h4 h5
    have hl : listName m.ser = .ok (str! "zone") := rfl
    simp only [Elem.ser, Layout.step, hl, Res.bind_ok, this]; rfl

theorem Layout.fill_elements (es : List (Elem F)) (h : ∀ e ∈ es, e.good) :
    ∀ l : Layout F, Layout.fill l (es.map Elem.ser) = .ok { l with elements := l.elements ++ es } := by
  induction es with
  | nil => intro l; simp [Layout.fill]
  | cons e es ih =>
    intro l
    rw [List.forall_mem_cons] at h
    simp [Layout.fill, Elem.step_ser e h.1, ih h.2]

theorem Layout.step_version (l : Layout F) (i : Int) (h : inI64 i) :
    l.step (pair (str! "version") (ofI i)) = .ok { l with version := i } := by
  rw [Layout.step, listName_pair, Res.bind_ok, single_pair (int_ofI i h)]; rfl

theorem Layout.step_host (l : Layout F) (x : Host) :
    l.step (node (str! "host") [.str x.tool, .str x.build]) = .ok { l with host := x } := by
  rw [Layout.step, listName_node, Res.bind_ok, Host.de_ser]; rfl

theorem Layout.step_general (l : Layout F) (x : General F) (h : GoodGeneral x) :
    l.step x.ser = .ok { l with general := x } := by
  have hl : listName x.ser = .ok (str! "general") := rfl
  rw [Layout.step, hl, Res.bind_ok, General.de_ser x h]; rfl

theorem Layout.step_page (l : Layout F) (x : Str) :
    l.step (pair (str! "page") (.str x)) = .ok { l with page := x } := by
  rw [Layout.step, listName_pair, Res.bind_ok, single_pair (string_str x)]; rfl

theorem Layout.step_layers (l : Layout F) (x : List Layer) (h : ∀ y ∈ x, inI64 y.num ∧ GoodLayer y.layer) :
    l.step (node (str! "layers") (x.map Layer.ser)) = .ok { l with layers := x } := by
  rw [Layout.step, listName_node, Res.bind_ok, LayerVec.de_ser x h]; rfl

theorem Layout.step_setup (l : Layout F) (x : Setup) (h : ∀ e ∈ x.elements, e.name ≠ str! "pcbplotparams") :
    l.step x.ser = .ok { l with setup := x } := by
  have hl : listName x.ser = .ok (str! "setup") := rfl
  rw [Layout.step, hl, Res.bind_ok, Setup.de_ser x h]; rfl

theorem Layout.de_ser' (l : Layout F) (h1 : inI64 l.version) (h2 : GoodGeneral l.general)
    (h3 : ∀ x ∈ l.layers, inI64 x.num ∧ GoodLayer x.layer)
    (h4 : ∀ s ∈ l.setup.elements, s.name ≠ str! "pcbplotparams") (h5 : ∀ e ∈ l.elements, e.good) :
    Layout.de l.ser = .ok l := by
  simp only [Layout.de, Layout.ser, iter_node, Res.bind_ok, List.cons_append, List.nil_append,
    Layout.fill, Layout.step_version _ _ h1, Layout.step_host, Layout.step_general _ _ h2,
    Layout.step_page, Layout.step_layers _ _ h3, Layout.step_setup _ _ h4,
    Layout.fill_elements _ h5]
  rfl

theorem Layout.de_ser (l : Layout F) (h : SavableLayout l) : Layout.de l.ser = .ok l :=
  Layout.de_ser' l h.1 h.2.1 h.2.2.1 h.2.2.2.1 fun e he => Elem.good_of (h.2.2.2.2 e he)

/-! ## What is written can be tokenised -/

theorem okTree_clean {q : Str → Bool} (hq : QuotesWhenNeeded q) : ∀ {t : Sexp}, CleanTree t → OkTree q t := by
  intro t
  refine Sexp.rec (motive_1 := fun t => CleanTree t → OkTree q t)
    (motive_2 := fun l => CleanTrees l → OkTrees q l) ?_ ?_ ?_ ?_ ?_ t
  · intro l ih h; exact ih h
  · intro s h; exact Fp.okAtom_clean hq h
  · intro h; exact h
  · intro _; trivial
  · intro x xs ih1 ih2 h; exact ⟨ih1 h.1, ih2 h.2⟩

theorem okTree_layer {q : Str → Bool} (hq : QuotesWhenNeeded q) {l : Fp.Layer}
    (h : ∀ s ∈ layerStrings l, Clean s) : OkTree q (pair (str! "layer") (.str l.show)) :=
  okTree_pair (by decide) (okTree_str (Fp.okAtom_clean hq (Fp.Layer.clean_show l h)))

theorem okTrees_optStr {q : Str → Bool} (hq : QuotesWhenNeeded q) {n : Str} (hn : Plain n)
    {o : Option Str} (h : ∀ s ∈ o.toList, Clean s) : OkTrees q (Fp.optPair n .str o) := by
  cases o with
  | none => trivial
  | some s => exact ⟨okTree_pair hn (okTree_str (Fp.okAtom_clean hq (h s (by simp)))), trivial⟩

theorem okTree_lit (q : Str → Bool) {s : Str} (h : Plain s) : OkTree q (.str s) := okAtom_plain h q

theorem okTrees_map {α : Type} {q : Str → Bool} {f : α → Sexp} {l : List α}
    (h : ∀ a ∈ l, OkTree q (f a)) : OkTrees q (l.map f) := by
  rw [okTrees_iff]
  simpa using h

theorem okTrees_ite {q : Str → Bool} {c : Prop} [Decidable c] {t : Sexp} (h : OkTree q t) :
    OkTrees q (if c then [t] else []) := by
  split
  · exact ⟨h, trivial⟩
  · trivial

theorem GrText.ok_ser {q : Str → Bool} (hq : QuotesWhenNeeded q) (t : GrText F)
    (h : ∀ s ∈ t.value :: (layerStrings t.layer ++ t.tstamp.toList), Clean s) : OkTree q t.ser := by
  simp only [List.forall_mem_cons, List.forall_mem_append] at h
  exact okTree_node (by decide) (okTrees_append ⟨okTree_str (Fp.okAtom_clean hq h.1),
    Fp.At.ok_ser q _, okTree_layer hq h.2.1, Fp.Effects.ok_ser q _, trivial⟩
    (okTrees_optStr hq (by decide) h.2.2))

theorem Zone.ok_ser {q : Str → Bool} (hq : QuotesWhenNeeded q) (z : Zone F)
    (h : ∀ s ∈ boardStrings (.zone z), Clean s) (h' : ∀ t ∈ z.other, CleanTree t) :
    OkTree q z.ser := by
  simp only [boardStrings, List.forall_mem_cons, List.forall_mem_append] at h
  obtain ⟨h1, h2, h3, ⟨h4, h5⟩, h6⟩ := h
  have hc : OkTree q z.connectPads.ser := by
    refine okTree_node (by decide) (okTrees_append ?_ ⟨okTree_pair (by decide) (okTree_ofF q _), trivial⟩)
    split
    · rename_i s hs; exact ⟨okTree_str (Fp.okAtom_clean hq (h5 s (by simp [hs]))), trivial⟩
    · trivial
  have hf : OkTree q z.fill.ser := by
    refine okTree_node (by decide) (okTrees_append (okTrees_append (okTrees_append (okTrees_append
      (okTrees_ite (okTree_lit q (by decide)))
      (okTrees_ite (okTree_pair (by decide) (okTree_lit q (by decide)))))
      ⟨okTree_pair (by decide) (okTree_ofI q _), okTree_pair (by decide) (okTree_ofF q _),
        okTree_pair (by decide) (okTree_ofF q _), trivial⟩) (okTrees_optStr hq (by decide) h6))
      (okTrees_ite (okTree_pair (by decide) (okTree_ofF q _))))
  have hk : ∀ k : Keepout, OkTree q k.ser := by
    rintro ⟨a, b, c⟩
    cases a <;> cases b <;> cases c <;>
      exact okTree_node (by decide) ⟨okTree_pair (by decide) (okTree_lit q (by decide)),
        okTree_pair (by decide) (okTree_lit q (by decide)),
        okTree_pair (by decide) (okTree_lit q (by decide)), trivial⟩
  have hp : OkTree q (.str (showNat z.priority)) := by
    have := okTree_ofI q (z.priority : Int)
    simpa [ofI, showInt] using this
  refine okTree_node (by decide) ?_
  refine okTrees_append (okTrees_append (okTrees_append (okTrees_append (okTrees_append
    (okTrees_append (okTrees_append (okTrees_append ?_ ?_) ?_) ?_) ?_) ?_) ?_) ?_) ?_
  · exact ⟨okTree_pair (by decide) (okTree_ofI q _),
      okTree_pair (by decide) (okTree_str (Fp.okAtom_clean hq h1)), okTree_layer hq h4,
      okTree_pair (by decide) (okTree_str (Fp.okAtom_clean hq h2)),
      okTree_node (by decide) ⟨okTree_str (Fp.okAtom_clean hq h3), okTree_ofF q _, trivial⟩, trivial⟩
  · exact okTrees_ite (okTree_pair (by decide) hp)
  · exact ⟨hc, okTree_pair (by decide) (okTree_ofF q _), trivial⟩
  · split
    · exact ⟨hk _, trivial⟩
    · trivial
  · exact ⟨hf, trivial⟩
  · exact okTrees_map fun p _ => okTree_pair (by decide) (Fp.Pts.ok_ser q p)
  · exact okTrees_map fun p _ => okTree_pair (by decide) (Fp.Pts.ok_ser q p)
  · exact Fp.optPair_ok q (by decide) _ (Fp.Pts.ok_ser q) _
  · rw [okTrees_iff]; exact fun t ht => okTree_clean hq (h' t ht)

theorem Elem.ok_ser {q : Str → Bool} (hq : QuotesWhenNeeded q) (e : Elem F)
    (h : ∀ s ∈ boardStrings e, Clean s) (h' : ∀ t ∈ boardTrees e, CleanTree t)
    (hm : ∀ m, e = .module_ m → ∀ e ∈ m.elements, ∀ p, e = .pad p → ∀ d, p.drill = some d →
      d.shape = none ∨ d.shape = some (str! "oval")) : OkTree q e.ser := by
  cases e with
  | other s => exact okTree_clean hq (h' s (by simp [boardTrees]))
  | module_ m =>
    simp only [boardStrings, List.forall_mem_cons, List.mem_flatMap, forall_exists_index, and_imp] at h
    exact Fp.Module.ok_clean q hq m h.1 (fun e he s hs => h.2 s e he hs) (hm m rfl)
  | net n => exact Fp.Net.ok_ser q n (Fp.okAtom_clean hq (h _ (by simp [boardStrings])))
  | netClass n =>
    simp only [boardStrings, List.forall_mem_cons] at h
    exact okTree_node (by decide) (okTrees_append (okTrees_append (okTrees_append
      ⟨okTree_str (Fp.okAtom_clean hq h.1), okTree_str (Fp.okAtom_clean hq h.2.1),
        okTree_pair (by decide) (okTree_ofF q _), okTree_pair (by decide) (okTree_ofF q _),
        okTree_pair (by decide) (okTree_ofF q _), okTree_pair (by decide) (okTree_ofF q _),
        okTree_pair (by decide) (okTree_ofF q _), okTree_pair (by decide) (okTree_ofF q _), trivial⟩
      (Fp.optPair_ok q (by decide) _ (okTree_ofF q) _)) (Fp.optPair_ok q (by decide) _ (okTree_ofF q) _))
      (okTrees_map fun s hs => okTree_pair (by decide) (okTree_str (Fp.okAtom_clean hq (h.2.2 s hs)))))
  | grText t => exact GrText.ok_ser hq t h
  | grLine l =>
    simp only [boardStrings, List.forall_mem_append] at h
    exact okTree_node (by decide) (okTrees_append ⟨Fp.Xy.ok_ser q _, Fp.Xy.ok_ser q _,
      okTree_pair (by decide) (okTree_ofF q _), okTree_layer hq h.1,
      okTree_pair (by decide) (okTree_ofF q _), trivial⟩ (okTrees_optStr hq (by decide) h.2))
  | grArc l =>
    simp only [boardStrings, List.forall_mem_append] at h
    exact okTree_node (by decide) (okTrees_append ⟨Fp.Xy.ok_ser q _, Fp.Xy.ok_ser q _,
      okTree_pair (by decide) (okTree_ofF q _), okTree_layer hq h.1,
      okTree_pair (by decide) (okTree_ofF q _), trivial⟩ (okTrees_optStr hq (by decide) h.2))
  | grCircle l =>
    simp only [boardStrings, List.forall_mem_append] at h
    exact okTree_node (by decide) (okTrees_append ⟨Fp.Xy.ok_ser q _, Fp.Xy.ok_ser q _,
      okTree_layer hq h.1,
      okTree_pair (by decide) (okTree_ofF q _), trivial⟩ (okTrees_optStr hq (by decide) h.2))
  | dimension d =>
    have hsplit : (∀ s ∈ d.name :: (layerStrings d.layer ++ d.tstamp.toList), Clean s) ∧
        ∀ s ∈ d.text.value :: (layerStrings d.text.layer ++ d.text.tstamp.toList), Clean s :=
      ⟨fun s hs => h s (by simp only [boardStrings, List.mem_cons, List.mem_append] at hs ⊢; tauto),
        fun s hs => h s (by simp only [boardStrings, List.mem_cons, List.mem_append] at hs ⊢; tauto)⟩
    obtain ⟨ha, hb⟩ := hsplit
    simp only [List.forall_mem_cons, List.forall_mem_append] at ha
    refine okTree_node (by decide) (okTrees_append (okTrees_append
      ⟨okTree_str (Fp.okAtom_clean hq ha.1), okTree_pair (by decide) (okTree_ofF q _),
        okTree_layer hq ha.2.1, trivial⟩ (okTrees_optStr hq (by decide) ha.2.2))
      ⟨GrText.ok_ser hq d.text hb, ?_⟩)
    exact ⟨okTree_pair (by decide) (Fp.Pts.ok_ser q _), okTree_pair (by decide) (Fp.Pts.ok_ser q _),
      okTree_pair (by decide) (Fp.Pts.ok_ser q _), okTree_pair (by decide) (Fp.Pts.ok_ser q _),
      okTree_pair (by decide) (Fp.Pts.ok_ser q _), okTree_pair (by decide) (Fp.Pts.ok_ser q _),
      okTree_pair (by decide) (Fp.Pts.ok_ser q _), trivial⟩
  | segment l =>
    simp only [boardStrings, List.forall_mem_append] at h
    exact okTree_node (by decide) (okTrees_append (okTrees_append ⟨Fp.Xy.ok_ser q _, Fp.Xy.ok_ser q _,
      okTree_pair (by decide) (okTree_ofF q _), okTree_layer hq h.1.1,
      okTree_pair (by decide) (okTree_ofI q _), trivial⟩ (okTrees_optStr hq (by decide) h.1.2))
      (okTrees_optStr hq (by decide) h.2))
  | via v =>
    simp only [boardStrings, List.mem_flatMap, forall_exists_index, and_imp] at h
    refine okTree_node (by decide) (okTrees_append (okTrees_append (okTrees_append (okTrees_append
      (okTrees_ite (okTree_lit q (by decide))) (okTrees_ite (okTree_lit q (by decide))))
      ⟨Fp.At.ok_ser q _, okTree_pair (by decide) (okTree_ofF q _), trivial⟩)
      (okTrees_ite (okTree_pair (by decide) (okTree_ofF q _))))
      ⟨okTree_node (by decide) (okTrees_map fun l hl => okTree_str (Fp.okAtom_clean hq
        (Fp.Layer.clean_show l fun s hs => h s l hl hs))),
        okTree_pair (by decide) (okTree_ofI q _), trivial⟩)
  | zone z => exact Zone.ok_ser hq z h h'

theorem SetupElement.ok_ser {q : Str → Bool} (hq : QuotesWhenNeeded q) (e : SetupElement)
    (h : ∀ s ∈ setupStrings e, Clean s) : OkTree q e.ser := by
  simp only [setupStrings, List.forall_mem_cons] at h
  refine okTrees_append ⟨okTree_str (Fp.okAtom_clean hq h.1), okTree_str (Fp.okAtom_clean hq h.2.1),
    trivial⟩ ?_
  cases hv : e.value2 with
  | none => trivial
  | some s => exact ⟨okTree_str (Fp.okAtom_clean hq (h.2.2 s (by simp [hv]))), trivial⟩

theorem Layout.ok_ser {q : Str → Bool} (hq : QuotesWhenNeeded q) (l : Layout F) (h : CleanLayout l)
    (hm : ∀ e ∈ l.elements, ∀ m, e = .module_ m → ∀ e ∈ m.elements, ∀ p, e = .pad p →
      ∀ d, p.drill = some d → d.shape = none ∨ d.shape = some (str! "oval")) : OkTree q l.ser := by
  obtain ⟨h, he⟩ := h
  simp only [headerStrings, List.forall_mem_cons, List.forall_mem_append, List.mem_flatMap,
    forall_exists_index, and_imp] at h
  obtain ⟨h1, h2, h3, ⟨h4, h5⟩, h6⟩ := h
  refine okTree_node (by decide) (okTrees_append ⟨okTree_pair (by decide) (okTree_ofI q _),
    okTree_node (by decide) ⟨okTree_str (Fp.okAtom_clean hq h1), okTree_str (Fp.okAtom_clean hq h2),
      trivial⟩, ?_, okTree_pair (by decide) (okTree_str (Fp.okAtom_clean hq h3)),
    okTree_node (by decide) (okTrees_map fun x hx => ?_),
    okTree_node (by decide) (okTrees_append (okTrees_map fun x hx =>
      SetupElement.ok_ser hq x fun s hs => h5 s x hx hs) ⟨okTree_node (by decide)
        (okTrees_map fun x hx => SetupElement.ok_ser hq x fun s hs => h6 s x hx hs), trivial⟩),
    trivial⟩ (okTrees_map fun e hx => Elem.ok_ser hq e (he e hx).1 (he e hx).2 (hm e hx)))
  · exact okTree_node (by decide) ⟨okTree_pair (by decide) (okTree_ofI q _),
      okTree_pair (by decide) (okTree_ofI q _),
      okTree_node (by decide) ⟨okTree_ofF q _, okTree_ofF q _, okTree_ofF q _, okTree_ofF q _, trivial⟩,
      okTree_pair (by decide) (okTree_ofF q _), okTree_pair (by decide) (okTree_ofI q _),
      okTree_pair (by decide) (okTree_ofI q _), okTree_pair (by decide) (okTree_ofI q _),
      okTree_pair (by decide) (okTree_ofI q _), okTree_pair (by decide) (okTree_ofI q _), trivial⟩
  · refine okTrees_append ⟨okTree_ofI q _,
      okTree_str (Fp.okAtom_clean hq (Fp.Layer.clean_show x.layer fun s hs => h4 s x hx hs)), ?_, trivial⟩
      (okTrees_ite (okTree_lit q (by decide)))
    cases x.layerType <;> exact okTree_lit q (by decide)

end Verif.Lay
