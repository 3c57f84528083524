import Verif.Lemmas.FpMsg
/-!
# Lemmas: the messages about boards
-/

set_option linter.unusedSimpArgs false

namespace Verif
open Spec Sx Tree Flt Answer Sx.Msg

variable {F : Type} [Flt F]

namespace Lay.Msg
open Fp.Msg

/-! ## The same outcomes without the messages -/

@[simp] theorem forget_layerType (disp : Sexp → Str) (e : Sexp) : (layerType disp e).forget = LayerType.de e := by
  unfold layerType LayerType.de
  simp only [forget_bind, forget_lift, forget_ite, forget_ok, forget_own]

@[simp] theorem forget_boardLayer (disp : Sexp → Str) (e : Sexp) : (boardLayer disp e).forget = Layer.de e := by
  unfold boardLayer Layer.de
  simp only [forget_bind, forget_lift, forget_layerOf, forget_eat, forget_layerType]

@[simp] theorem forget_boardLayers (disp : Sexp → Str) (e : Sexp) : (boardLayers disp e).forget = LayerVec.de e := by
  unfold boardLayers LayerVec.de
  simp only [forget_bind, forget_lift, forget_vec, forget_boardLayer]

@[simp] theorem forget_netClassFill (l : List Sexp) (nc : NetClass F) : (netClassFill nc l).forget = NetClass.fill nc l := by
  induction l generalizing nc with
  | nil => rfl
  | cons x l ih =>
    unfold netClassFill NetClass.fill
    simp only [forget_bind, forget_lift, forget_ite, forget_own, ih]

@[simp] theorem forget_netClass (e : Sexp) : (netClass e : Answer (NetClass F)).forget = NetClass.de e := by
  unfold netClass NetClass.de
  simp only [forget_bind, forget_lift, forget_netClassFill]

@[simp] theorem forget_grText (e : Sexp) : (grText e : Answer (GrText F)).forget = GrText.de e := by
  unfold grText GrText.de
  simp only [forget_bind, forget_lift, forget_eat, forget_layer]

@[simp] theorem forget_grLine (e : Sexp) : (grLine e : Answer (GrLine F)).forget = GrLine.de e := by
  unfold grLine GrLine.de
  simp only [forget_bind, forget_lift, forget_eat, forget_layer, forget_xy]

@[simp] theorem forget_grArc (e : Sexp) : (grArc e : Answer (GrArc F)).forget = GrArc.de e := by
  unfold grArc GrArc.de
  simp only [forget_bind, forget_lift, forget_eat, forget_layer, forget_xy]

@[simp] theorem forget_grCircle (e : Sexp) : (grCircle e : Answer (GrCircle F)).forget = GrCircle.de e := by
  unfold grCircle GrCircle.de
  simp only [forget_bind, forget_lift, forget_eat, forget_layer, forget_xy]

@[simp] theorem forget_dimension (e : Sexp) : (dimension e : Answer (Dimension F)).forget = Dimension.de e := by
  unfold dimension Dimension.de
  simp only [forget_bind, forget_lift, forget_eat, forget_layer, forget_grText, forget_inList, forget_pts]

@[simp] theorem forget_zone (e : Sexp) : (zone e : Answer (Zone F)).forget = Zone.de e := by
  unfold zone Zone.de
  simp only [forget_bind, forget_lift, forget_eat, forget_layer, forget_ok]

@[simp] theorem forget_segment (e : Sexp) : (segment e : Answer (Segment F)).forget = Segment.de e := by
  unfold segment Segment.de
  simp only [forget_bind, forget_lift, forget_eat, forget_layer, forget_xy]

@[simp] theorem forget_via (e : Sexp) : (via e : Answer (Via F)).forget = Via.de e := by
  unfold via Via.de
  simp only [forget_bind, forget_lift, forget_eat, forget_layers]

@[simp] theorem forget_step (disp : Sexp → Str) (dbg : F → Str) (b : Layout F) (e : Sexp) :
    (step disp dbg b e).forget = b.step e := by
  unfold step Layout.step
  simp only [forget_bind, forget_lift, forget_ite, forget_ok, forget_boardLayers, forget_module, forget_netClass,
    forget_grText, forget_grLine, forget_grArc, forget_grCircle, forget_dimension, forget_zone, forget_segment, forget_via]

@[simp] theorem forget_fill (disp : Sexp → Str) (dbg : F → Str) (l : List Sexp) (b : Layout F) :
    (fill disp dbg b l).forget = Layout.fill b l := by
  induction l generalizing b with
  | nil => rfl
  | cons x l ih =>
    unfold fill Layout.fill
    simp only [forget_bind, forget_step, ih]

@[simp] theorem forget_layout (disp : Sexp → Str) (dbg : F → Str) (e : Sexp) :
    (layout disp dbg e).forget = Layout.de e := by
  unfold layout Layout.de
  simp only [forget_bind, forget_lift, forget_fill]

@[simp] theorem forget_parse (disp : Sexp → Str) (dbg : F → Str) (t : Str) : (parse disp dbg t).forget = Lay.parse t := by
  unfold parse Lay.parse
  simp only [forget_bind, forget_lift, forget_layout]

/-! ## Layers -/

theorem layerType_own (disp : Sexp → Str) (e : Sexp) (m : Str) : layerType disp e = .own m ↔
    ∃ w, e = .str w ∧ w ∉ boardLayerTypes.map Prod.fst ∧ m = str! "unknown layertype " ++ w ++ str! " in " ++ disp e := by
  unfold layerType boardLayerTypes
  rw [lift_bind_own]
  simp only [string_iff, List.map_cons, List.map_nil, List.mem_cons, List.not_mem_nil, or_false, not_or]
  refine exists_congr fun w => and_congr_right ?_
  rintro rfl
  constructor
  · intro h
    repeat (split at h; · cases h)
    cases h
    exact ⟨⟨by assumption, by assumption, by assumption, by assumption, by assumption⟩, rfl⟩
  · rintro ⟨⟨h1, h2, h3, h4, h5⟩, rfl⟩
    rw [if_neg h1, if_neg h2, if_neg h3, if_neg h4, if_neg h5]

theorem layerType_reads (disp : Sexp → Str) (x : Sexp) : (∃ a, layerType disp x = .ok a) ↔ KnownWord boardLayerTypes x := by
  simp only [eq_ok, forget_layerType, layerType_iff, KnownWord, List.mem_map]
  constructor
  · rintro ⟨a, w, rfl, h⟩; exact ⟨w, rfl, (w, a), h, rfl⟩
  · rintro ⟨w, rfl, ⟨w', a⟩, h, rfl⟩; exact ⟨a, _, rfl, h⟩

theorem boardLayer_own (disp : Sexp → Str) (e : Sexp) (m : Str) :
    boardLayer disp e = .own m ↔ BoardLayerTells disp e m := by
  refine lift_bind_own.trans (exists_congr fun l => and_congr (list_iff ..) ?_)
  refine eat_lift_spot int_iff (fun num r => ?_) l
  refine layerWord_spot (fun _ _ => rfl) (fun a r => ?_) r
  refine eat_spot (layerType_reads disp) (layerType_own disp) (fun a r => ?_) r
  exact quiet_done (quiet_bind fun _ => quiet_lift _) _ _

theorem boardLayer_reads (disp : Sexp → Str) (x : Sexp) : (∃ a, boardLayer disp x = .ok a) ↔ Reads BoardLayerTree x := by
  simp only [eq_ok, forget_boardLayer, boardLayer_iff, Reads]

theorem boardLayers_own (disp : Sexp → Str) (e : Sexp) (m : Str) :
    boardLayers disp e = .own m ↔ BoardLayersTells disp e m := by
  refine within_iff fun r => ?_
  rw [blame_rest]
  exact vec_own (boardLayer_reads disp) (boardLayer_own disp) r m

/-! ## Net classes -/

theorem netClassFill_own (l : List Sexp) (nc : NetClass F) (m : Str) : netClassFill nc l = .own m ↔
    FirstFault (Reads (NetClassItemTree (F := F))) (UnknownName netClassNames (str! "unknown net_class field ")) l m := by
  induction l generalizing nc with
  | nil =>
    constructor
    · intro h; cases h
    · rintro ⟨pre, x, post, h, _⟩; cases pre <;> cases h
  | cons x l ih =>
    have hlater : ∀ (it : NetClassItem F), NetClassItemTree x it →
        FirstFault (Reads (NetClassItemTree (F := F))) (UnknownName netClassNames (str! "unknown net_class field ")) l m →
        FirstFault (Reads (NetClassItemTree (F := F))) (UnknownName netClassNames (str! "unknown net_class field "))
          (x :: l) m := by
      rintro it hx ⟨pre, y, post, rfl, hp, hy⟩
      refine ⟨x :: pre, y, post, rfl, ?_, hy⟩
      intro z hz
      rcases List.mem_cons.1 hz with rfl | hz
      · exact ⟨it, hx⟩
      · exact hp z hz
    unfold netClassFill
    rw [lift_bind_own]
    simp only [listName_iff]
    constructor
    · rintro ⟨n, ⟨r, rfl⟩, h⟩
      rcases ite_cases h with ⟨hn, h⟩ | ⟨h1, h⟩
      · subst hn
        obtain ⟨v, hv, h⟩ := lift_bind_own.1 h
        obtain ⟨s, hs, h⟩ := lift_bind_own.1 h
        exact hlater _ (.addNet ⟨v, (namedValue_iff ..).1 hv, (string_iff ..).1 hs⟩) ((ih _).1 h)
      rcases ite_cases h with ⟨hn, h⟩ | ⟨h2, h⟩
      · subst hn
        obtain ⟨f, hf, h⟩ := lift_bind_own.1 h
        exact hlater _ (.clearance ((single_iff num_iff ..).1 hf)) ((ih _).1 h)
      rcases ite_cases h with ⟨hn, h⟩ | ⟨h3, h⟩
      · subst hn
        obtain ⟨f, hf, h⟩ := lift_bind_own.1 h
        exact hlater _ (.traceWidth ((single_iff num_iff ..).1 hf)) ((ih _).1 h)
      rcases ite_cases h with ⟨hn, h⟩ | ⟨h4, h⟩
      · subst hn
        obtain ⟨f, hf, h⟩ := lift_bind_own.1 h
        exact hlater _ (.viaDia ((single_iff num_iff ..).1 hf)) ((ih _).1 h)
      rcases ite_cases h with ⟨hn, h⟩ | ⟨h5, h⟩
      · subst hn
        obtain ⟨f, hf, h⟩ := lift_bind_own.1 h
        exact hlater _ (.viaDrill ((single_iff num_iff ..).1 hf)) ((ih _).1 h)
      rcases ite_cases h with ⟨hn, h⟩ | ⟨h6, h⟩
      · subst hn
        obtain ⟨f, hf, h⟩ := lift_bind_own.1 h
        exact hlater _ (.uviaDia ((single_iff num_iff ..).1 hf)) ((ih _).1 h)
      rcases ite_cases h with ⟨hn, h⟩ | ⟨h7, h⟩
      · subst hn
        obtain ⟨f, hf, h⟩ := lift_bind_own.1 h
        exact hlater _ (.uviaDrill ((single_iff num_iff ..).1 hf)) ((ih _).1 h)
      rcases ite_cases h with ⟨hn, h⟩ | ⟨h8, h⟩
      · subst hn
        obtain ⟨f, hf, h⟩ := lift_bind_own.1 h
        exact hlater _ (.diffPairGap ((single_iff num_iff ..).1 hf)) ((ih _).1 h)
      rcases ite_cases h with ⟨hn, h⟩ | ⟨h9, h⟩
      · subst hn
        obtain ⟨f, hf, h⟩ := lift_bind_own.1 h
        exact hlater _ (.diffPairWidth ((single_iff num_iff ..).1 hf)) ((ih _).1 h)
      cases h
      refine ⟨[], _, l, rfl, by simp, n, r, rfl, ?_, rfl⟩
      simp only [netClassNames, List.mem_cons, List.not_mem_nil, or_false, not_or]
      exact ⟨h1, h2, h3, h4, h5, h6, h7, h8, h9⟩
    · rintro ⟨pre, y, post, h, hp, hy⟩
      cases pre with
      | nil =>
        cases h
        obtain ⟨n, r, rfl, hn, rfl⟩ := hy
        refine ⟨n, ⟨r, rfl⟩, ?_⟩
        simp only [netClassNames, List.mem_cons, List.not_mem_nil, or_false, not_or] at hn
        obtain ⟨h1, h2, h3, h4, h5, h6, h7, h8, h9⟩ := hn
        rw [if_neg h1, if_neg h2, if_neg h3, if_neg h4, if_neg h5, if_neg h6, if_neg h7, if_neg h8, if_neg h9]
      | cons z pre =>
        cases h
        have hff : FirstFault (Reads (NetClassItemTree (F := F))) (UnknownName netClassNames (str! "unknown net_class field "))
            (pre ++ y :: post) m := ⟨pre, y, post, rfl, fun z hz => hp z (List.mem_cons_of_mem _ hz), hy⟩
        obtain ⟨it, hit⟩ := hp x List.mem_cons_self
        cases hit with
        | addNet h =>
          have h' := h
          obtain ⟨v, rfl, hv⟩ := h
          refine ⟨_, ⟨_, rfl⟩, ?_⟩
          rw [if_pos rfl, (namedValue_iff ..).2 rfl]
          change (lift (string v) >>= _) = _
          rw [(string_iff ..).2 hv]
          exact (ih _).2 hff
        | clearance h =>
          have h' := h
          obtain ⟨v, rfl, hv⟩ := h
          refine ⟨_, ⟨_, rfl⟩, ?_⟩
          rw [if_neg (by decide), if_pos rfl, (single_iff num_iff ..).2 h']
          exact (ih _).2 hff
        | traceWidth h =>
          have h' := h
          obtain ⟨v, rfl, hv⟩ := h
          refine ⟨_, ⟨_, rfl⟩, ?_⟩
          rw [if_neg (by decide), if_neg (by decide), if_pos rfl, (single_iff num_iff ..).2 h']
          exact (ih _).2 hff
        | viaDia h =>
          have h' := h
          obtain ⟨v, rfl, hv⟩ := h
          refine ⟨_, ⟨_, rfl⟩, ?_⟩
          rw [if_neg (by decide), if_neg (by decide), if_neg (by decide), if_pos rfl, (single_iff num_iff ..).2 h']
          exact (ih _).2 hff
        | viaDrill h =>
          have h' := h
          obtain ⟨v, rfl, hv⟩ := h
          refine ⟨_, ⟨_, rfl⟩, ?_⟩
          rw [if_neg (by decide), if_neg (by decide), if_neg (by decide), if_neg (by decide), if_pos rfl,
            (single_iff num_iff ..).2 h']
          exact (ih _).2 hff
        | uviaDia h =>
          have h' := h
          obtain ⟨v, rfl, hv⟩ := h
          refine ⟨_, ⟨_, rfl⟩, ?_⟩
          rw [if_neg (by decide), if_neg (by decide), if_neg (by decide), if_neg (by decide), if_neg (by decide),
            if_pos rfl, (single_iff num_iff ..).2 h']
          exact (ih _).2 hff
        | uviaDrill h =>
          have h' := h
          obtain ⟨v, rfl, hv⟩ := h
          refine ⟨_, ⟨_, rfl⟩, ?_⟩
          rw [if_neg (by decide), if_neg (by decide), if_neg (by decide), if_neg (by decide), if_neg (by decide),
            if_neg (by decide), if_pos rfl, (single_iff num_iff ..).2 h']
          exact (ih _).2 hff
        | diffPairGap h =>
          have h' := h
          obtain ⟨v, rfl, hv⟩ := h
          refine ⟨_, ⟨_, rfl⟩, ?_⟩
          rw [if_neg (by decide), if_neg (by decide), if_neg (by decide), if_neg (by decide), if_neg (by decide),
            if_neg (by decide), if_neg (by decide), if_pos rfl, (single_iff num_iff ..).2 h']
          exact (ih _).2 hff
        | diffPairWidth h =>
          have h' := h
          obtain ⟨v, rfl, hv⟩ := h
          refine ⟨_, ⟨_, rfl⟩, ?_⟩
          rw [if_neg (by decide), if_neg (by decide), if_neg (by decide), if_neg (by decide), if_neg (by decide),
            if_neg (by decide), if_neg (by decide), if_neg (by decide), if_pos rfl, (single_iff num_iff ..).2 h']
          exact (ih _).2 hff

theorem netClass_own (e : Sexp) (m : Str) : (netClass e : Answer (NetClass F)) = .own m ↔ NetClassTells F e m := by
  refine within_iff fun r => ?_
  refine eat_lift_spot Fp.word_iff (fun name r => ?_) r
  refine eat_lift_spot Fp.word_iff (fun desc r => ?_) r
  rw [blame_rest]
  exact netClassFill_own r _ m

/-! ## Drawings -/

theorem grText_own (e : Sexp) (m : Str) : (grText e : Answer (GrText F)) = .own m ↔ GrTextTells F e m := by
  refine within_iff fun r => ?_
  refine eat_lift_spot Fp.word_iff (fun _ r => ?_) r
  refine eat_lift_spot Fp.at_iff (fun _ r => ?_) r
  refine eat_spot layer_reads layer_own (fun _ r => ?_) r
  exact quiet_done (quiet_bind fun _ => quiet_bind fun _ => quiet_lift _) _ _

theorem grText_reads (x : Sexp) : (∃ a, (grText x : Answer (GrText F)) = .ok a) ↔ Reads (GrTextTree (F := F)) x := by
  simp only [eq_ok, forget_grText, grText_iff, Reads]

theorem grLine_own (e : Sexp) (m : Str) : (grLine e : Answer (GrLine F)) = .own m ↔ GrLineTells F e m := by
  refine within_iff fun r => ?_
  refine eat_spot xy_reads xy_own (fun _ r => ?_) r
  refine eat_spot xy_reads xy_own (fun _ r => ?_) r
  refine maybe_spot (inList_iff num_iff _) (inList_calm flt_calm _) (fun _ r => ?_) r
  refine eat_spot layer_reads layer_own (fun _ r => ?_) r
  exact quiet_done (quiet_bind fun _ => quiet_bind fun _ => quiet_lift _) _ _

theorem grArc_own (e : Sexp) (m : Str) : (grArc e : Answer (GrArc F)) = .own m ↔ GrArcTells F e m := by
  refine within_iff fun r => ?_
  refine eat_spot xy_reads xy_own (fun _ r => ?_) r
  refine eat_spot xy_reads xy_own (fun _ r => ?_) r
  refine eat_lift_spot (inList_iff num_iff _) (fun _ r => ?_) r
  refine eat_spot layer_reads layer_own (fun _ r => ?_) r
  exact quiet_done (quiet_bind fun _ => quiet_bind fun _ => quiet_lift _) _ _

theorem grCircle_own (e : Sexp) (m : Str) : (grCircle e : Answer (GrCircle F)) = .own m ↔ GrCircleTells F e m := by
  refine within_iff fun r => ?_
  refine eat_spot xy_reads xy_own (fun _ r => ?_) r
  refine eat_spot xy_reads xy_own (fun _ r => ?_) r
  refine eat_spot layer_reads layer_own (fun _ r => ?_) r
  exact quiet_done (quiet_bind fun _ => quiet_bind fun _ => quiet_lift _) _ _

theorem feature_reads (n : Str) (x : Sexp) :
    (∃ a, Sx.Msg.inList n (pts (F := F)) x = .ok a) ↔ Reads (Named n (PtsTree (F := F))) x := by
  simp only [eq_ok, forget_inList, forget_pts, inList_iff Fp.pts_iff, Reads]

theorem dimension_own (e : Sexp) (m : Str) : (dimension e : Answer (Dimension F)) = .own m ↔ DimensionTells F e m := by
  refine within_iff fun r => ?_
  refine eat_lift_spot Fp.word_iff (fun _ r => ?_) r
  refine eat_lift_spot (inList_iff num_iff _) (fun _ r => ?_) r
  refine eat_spot layer_reads layer_own (fun _ r => ?_) r
  refine maybe_spot (inList_iff Fp.word_iff _) (inList_calm string_calm _) (fun _ r => ?_) r
  refine eat_spot grText_reads grText_own (fun _ r => ?_) r
  refine eat_spot (feature_reads _) (inList_own pts_own _) (fun _ r => ?_) r
  refine eat_spot (feature_reads _) (inList_own pts_own _) (fun _ r => ?_) r
  refine eat_spot (feature_reads _) (inList_own pts_own _) (fun _ r => ?_) r
  refine eat_spot (feature_reads _) (inList_own pts_own _) (fun _ r => ?_) r
  refine eat_spot (feature_reads _) (inList_own pts_own _) (fun _ r => ?_) r
  refine eat_spot (feature_reads _) (inList_own pts_own _) (fun _ r => ?_) r
  refine eat_spot (feature_reads _) (inList_own pts_own _) (fun _ r => ?_) r
  exact quiet_done (quiet_lift _) _ _

/-! ## Zones and tracks -/

theorem zone_own (e : Sexp) (m : Str) : (zone e : Answer (Zone F)) = .own m ↔ ZoneTells e m := by
  refine within_iff fun r => ?_
  refine eat_lift_spot (inList_iff int_iff _) (fun _ r => ?_) r
  refine eat_lift_spot (inList_iff Fp.word_iff _) (fun _ r => ?_) r
  refine eat_spot layer_reads layer_own (fun _ r => ?_) r
  exact quiet_done (quiet_bind fun _ => quiet_bind fun _ => quiet_bind fun _ => quiet_bind fun _ => quiet_bind fun _ =>
    quiet_bind fun _ => quiet_bind fun _ => quiet_ok _) _ _

theorem segment_own (e : Sexp) (m : Str) : (segment e : Answer (Segment F)) = .own m ↔ SegmentTells F e m := by
  refine within_iff fun r => ?_
  refine eat_spot xy_reads xy_own (fun _ r => ?_) r
  refine eat_spot xy_reads xy_own (fun _ r => ?_) r
  refine eat_lift_spot (inList_iff num_iff _) (fun _ r => ?_) r
  refine eat_spot layer_reads layer_own (fun _ r => ?_) r
  exact quiet_done (quiet_bind fun _ => quiet_bind fun _ => quiet_bind fun _ => quiet_lift _) _ _

theorem literal_reads (n : Str) (x : Sexp) : (∃ a, literal n x = .ok a) ↔ x = .str n := by
  simp only [literal_iff, exists_and_left, exists_eq, and_true]

theorem via_own (e : Sexp) (m : Str) : (via e : Answer (Via F)) = .own m ↔ ViaTells F e m := by
  refine within_iff fun r => ?_
  refine maybe_spot' (literal_reads _) (literal_calm _) (fun _ r => ?_) r
  refine maybe_spot' (literal_reads _) (literal_calm _) (fun _ r => ?_) r
  refine eat_lift_spot Fp.at_iff (fun _ r => ?_) r
  refine eat_lift_spot (inList_iff num_iff _) (fun _ r => ?_) r
  refine maybe_spot (inList_iff num_iff _) (inList_calm flt_calm _) (fun _ r => ?_) r
  refine eat_spot layers_reads layers_own (fun _ r => ?_) r
  exact quiet_done (quiet_bind fun _ => quiet_lift _) _ _

/-! ## Boards -/

/-- A part of a board that can get a message has a name of the table. -/
theorem within_head {n : Str} {ss : List Spot} {e : Sexp} {m : Str} (h : PartOf n ss e m) : ∃ r, e = .list (.str n :: r) := by
  obtain ⟨r, h, _⟩ := h
  exact ⟨r, h⟩

theorem bind_push_own {α β : Type} (x : Answer α) (f : α → β) (m : Str) : (x >>= fun v => Answer.ok (f v)) = .own m ↔ x = .own m := by
  rw [bind_eq_own]
  simp

theorem step_own (disp : Sexp → Str) (dbg : F → Str) (b : Layout F) (e : Sexp) (m : Str) :
    step disp dbg b e = .own m ↔ BoardPartTells F disp dbg e m := by
  have hq : ∀ {α : Type} (f : α → Layout F) (x : Res α), ¬ (lift x >>= fun v => Answer.ok (f v)) = Answer.own m :=
    fun f x => quiet_bind (fun _ => quiet_ok _) m
  unfold step
  rw [lift_bind_own]
  simp only [listName_iff]
  constructor
  · rintro ⟨n, ⟨r, rfl⟩, h⟩
    rcases ite_cases h with ⟨_, h⟩ | ⟨_, h⟩
    · exact absurd h (hq _ _)
    rcases ite_cases h with ⟨_, h⟩ | ⟨_, h⟩
    · exact absurd h (hq _ _)
    rcases ite_cases h with ⟨_, h⟩ | ⟨_, h⟩
    · exact absurd h (hq _ _)
    rcases ite_cases h with ⟨_, h⟩ | ⟨_, h⟩
    · exact absurd h (hq _ _)
    rcases ite_cases h with ⟨_, h⟩ | ⟨_, h⟩
    · exact .layers ((boardLayers_own ..).1 ((bind_push_own ..).1 h))
    rcases ite_cases h with ⟨_, h⟩ | ⟨_, h⟩
    · exact .module_ ((module_own ..).1 ((bind_push_own ..).1 h))
    rcases ite_cases h with ⟨_, h⟩ | ⟨_, h⟩
    · exact absurd h (hq _ _)
    rcases ite_cases h with ⟨_, h⟩ | ⟨_, h⟩
    · exact .netClass ((netClass_own ..).1 ((bind_push_own ..).1 h))
    rcases ite_cases h with ⟨_, h⟩ | ⟨_, h⟩
    · exact .grText ((grText_own ..).1 ((bind_push_own ..).1 h))
    rcases ite_cases h with ⟨_, h⟩ | ⟨_, h⟩
    · exact .grLine ((grLine_own ..).1 ((bind_push_own ..).1 h))
    rcases ite_cases h with ⟨_, h⟩ | ⟨_, h⟩
    · exact .grArc ((grArc_own ..).1 ((bind_push_own ..).1 h))
    rcases ite_cases h with ⟨_, h⟩ | ⟨_, h⟩
    · exact .grCircle ((grCircle_own ..).1 ((bind_push_own ..).1 h))
    rcases ite_cases h with ⟨_, h⟩ | ⟨_, h⟩
    · exact .dimension ((dimension_own ..).1 ((bind_push_own ..).1 h))
    rcases ite_cases h with ⟨_, h⟩ | ⟨_, h⟩
    · exact .zone ((zone_own (F := F) ..).1 ((bind_push_own ..).1 h))
    rcases ite_cases h with ⟨_, h⟩ | ⟨_, h⟩
    · exact .segment ((segment_own ..).1 ((bind_push_own ..).1 h))
    rcases ite_cases h with ⟨_, h⟩ | ⟨_, h⟩
    · exact .via ((via_own ..).1 ((bind_push_own ..).1 h))
    rcases ite_cases h with ⟨_, h⟩ | ⟨_, h⟩
    · exact absurd h (hq _ _)
    cases h
  · intro h
    cases h with
    | layers h =>
      obtain ⟨r, rfl⟩ := within_head h
      refine ⟨_, ⟨r, rfl⟩, ?_⟩
      rw [if_neg (by decide), if_neg (by decide), if_neg (by decide), if_neg (by decide), if_pos rfl, bind_push_own]
      exact (boardLayers_own ..).2 h
    | module_ h =>
      obtain ⟨r, rfl⟩ := within_head h
      refine ⟨_, ⟨r, rfl⟩, ?_⟩
      rw [if_neg (by decide), if_neg (by decide), if_neg (by decide), if_neg (by decide), if_neg (by decide), if_pos rfl,
        bind_push_own]
      exact (module_own ..).2 h
    | netClass h =>
      obtain ⟨r, rfl⟩ := within_head h
      refine ⟨_, ⟨r, rfl⟩, ?_⟩
      rw [if_neg (by decide), if_neg (by decide), if_neg (by decide), if_neg (by decide), if_neg (by decide),
        if_neg (by decide), if_neg (by decide), if_pos rfl, bind_push_own]
      exact (netClass_own ..).2 h
    | grText h =>
      obtain ⟨r, rfl⟩ := within_head h
      refine ⟨_, ⟨r, rfl⟩, ?_⟩
      rw [if_neg (by decide), if_neg (by decide), if_neg (by decide), if_neg (by decide), if_neg (by decide),
        if_neg (by decide), if_neg (by decide), if_neg (by decide), if_pos rfl, bind_push_own]
      exact (grText_own ..).2 h
    | grLine h =>
      obtain ⟨r, rfl⟩ := within_head h
      refine ⟨_, ⟨r, rfl⟩, ?_⟩
      rw [if_neg (by decide), if_neg (by decide), if_neg (by decide), if_neg (by decide), if_neg (by decide),
        if_neg (by decide), if_neg (by decide), if_neg (by decide), if_neg (by decide), if_pos rfl, bind_push_own]
      exact (grLine_own ..).2 h
    | grArc h =>
      obtain ⟨r, rfl⟩ := within_head h
      refine ⟨_, ⟨r, rfl⟩, ?_⟩
      rw [if_neg (by decide), if_neg (by decide), if_neg (by decide), if_neg (by decide), if_neg (by decide),
        if_neg (by decide), if_neg (by decide), if_neg (by decide), if_neg (by decide), if_neg (by decide), if_pos rfl,
        bind_push_own]
      exact (grArc_own ..).2 h
    | grCircle h =>
      obtain ⟨r, rfl⟩ := within_head h
      refine ⟨_, ⟨r, rfl⟩, ?_⟩
      rw [if_neg (by decide), if_neg (by decide), if_neg (by decide), if_neg (by decide), if_neg (by decide),
        if_neg (by decide), if_neg (by decide), if_neg (by decide), if_neg (by decide), if_neg (by decide),
        if_neg (by decide), if_pos rfl, bind_push_own]
      exact (grCircle_own ..).2 h
    | dimension h =>
      obtain ⟨r, rfl⟩ := within_head h
      refine ⟨_, ⟨r, rfl⟩, ?_⟩
      rw [if_neg (by decide), if_neg (by decide), if_neg (by decide), if_neg (by decide), if_neg (by decide),
        if_neg (by decide), if_neg (by decide), if_neg (by decide), if_neg (by decide), if_neg (by decide),
        if_neg (by decide), if_neg (by decide), if_pos rfl, bind_push_own]
      exact (dimension_own ..).2 h
    | zone h =>
      obtain ⟨r, rfl⟩ := within_head h
      refine ⟨_, ⟨r, rfl⟩, ?_⟩
      rw [if_neg (by decide), if_neg (by decide), if_neg (by decide), if_neg (by decide), if_neg (by decide),
        if_neg (by decide), if_neg (by decide), if_neg (by decide), if_neg (by decide), if_neg (by decide),
        if_neg (by decide), if_neg (by decide), if_neg (by decide), if_pos rfl, bind_push_own]
      exact (zone_own ..).2 h
    | segment h =>
      obtain ⟨r, rfl⟩ := within_head h
      refine ⟨_, ⟨r, rfl⟩, ?_⟩
      rw [if_neg (by decide), if_neg (by decide), if_neg (by decide), if_neg (by decide), if_neg (by decide),
        if_neg (by decide), if_neg (by decide), if_neg (by decide), if_neg (by decide), if_neg (by decide),
        if_neg (by decide), if_neg (by decide), if_neg (by decide), if_neg (by decide), if_pos rfl, bind_push_own]
      exact (segment_own ..).2 h
    | via h =>
      obtain ⟨r, rfl⟩ := within_head h
      refine ⟨_, ⟨r, rfl⟩, ?_⟩
      rw [if_neg (by decide), if_neg (by decide), if_neg (by decide), if_neg (by decide), if_neg (by decide),
        if_neg (by decide), if_neg (by decide), if_neg (by decide), if_neg (by decide), if_neg (by decide),
        if_neg (by decide), if_neg (by decide), if_neg (by decide), if_neg (by decide), if_neg (by decide), if_pos rfl,
        bind_push_own]
      exact (via_own ..).2 h

theorem fill_own (disp : Sexp → Str) (dbg : F → Str) (l : List Sexp) (b : Layout F) (m : Str) :
    fill disp dbg b l = .own m ↔ FirstFault (Reads (BoardPartTree (F := F))) (BoardPartTells F disp dbg) l m := by
  induction l generalizing b with
  | nil =>
    constructor
    · intro h; cases h
    · rintro ⟨pre, x, post, h, _⟩; cases pre <;> cases h
  | cons x l ih =>
    rw [fill, bind_eq_own]
    simp only [ih, step_own]
    constructor
    · rintro (h | ⟨b', hb, pre, y, post, rfl, hp, hy⟩)
      · exact ⟨[], x, l, rfl, by simp, h⟩
      · refine ⟨x :: pre, y, post, rfl, ?_, hy⟩
        intro z hz
        rcases List.mem_cons.1 hz with rfl | hz
        · rw [eq_ok, forget_step, step_iff] at hb
          obtain ⟨it, hit, _⟩ := hb
          exact ⟨it, hit⟩
        · exact hp z hz
    · rintro ⟨pre, y, post, h, hp, hy⟩
      cases pre with
      | nil => cases h; exact .inl hy
      | cons z pre =>
        cases h
        obtain ⟨it, hit⟩ := hp x List.mem_cons_self
        refine .inr ⟨withBoardItem b it, ?_, pre, y, post, rfl, fun z hz => hp z (List.mem_cons_of_mem _ hz), hy⟩
        rw [eq_ok, forget_step, step_iff]
        exact ⟨it, hit, rfl⟩

theorem layout_own (disp : Sexp → Str) (dbg : F → Str) (e : Sexp) (m : Str) :
    layout disp dbg e = .own m ↔ BoardTells F disp dbg e m := by
  refine within_iff fun r => ?_
  rw [blame_rest]
  exact fill_own disp dbg r _ m

end Lay.Msg

end Verif
