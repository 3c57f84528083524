import Verif.Lemmas.PartOrder
import Verif.Lemmas.LayBoardGrammar
import Verif.Basic.Nm
/-!
# C102: parts in another order

A program that writes the parts of an element in another order than KiCad does produces a
list that this library either refuses or reads as the same list, except for the ends of
lines: where two points trade places the ends of the tracks and drawings of a board trade
places, and the ends of the lines of a footprint are lost.  In the parts of the format
whose order is free, only parts of the same name keep their order.
-/

namespace Verif
open Spec Flt

variable {F : Type} [Flt F]

/-- Of the orders of the parts of a list only one is read. -/
def Spec.OneOrder {α : Type} (rd : Sexp → Res α) : Prop :=
  ∀ e e' v v', rd e = .ok v → rd e' = .ok v' → Shuffled e e' → e = e'

/-- Of the orders of the parts of a list only one is read, but for the first two. -/
def Spec.OneOrderButTwo {α : Type} (rd : Sexp → Res α) : Prop :=
  ∀ e e' v v', rd e = .ok v → rd e' = .ok v' → Shuffled e e' → e = e' ∨ FirstTwoSwapped e e'

theorem Shuf.oneOrder {α : Type} {rd : Sexp → Res α} {h : Str} {n : Nat} {K : List Str} (hK : K.Nodup)
    (hf : ∀ e v, rd e = .ok v → Shuf.FixedN h n K e) : OneOrder rd :=
  fun _ _ _ _ h1 h2 hs => Shuf.fixedN hK (hf _ _ h1) (hf _ _ h2) hs

theorem Shuf.oneOrderButTwo {α : Type} {rd : Sexp → Res α} {h : Str} {K : List Str} (hK : K.Nodup)
    (hz : str! "size" ∉ K) (hf : ∀ e v, rd e = .ok v → Shuf.Fixed h 0 K e) : OneOrderButTwo rd := by
  intro e e' v v' h1 h2 hs
  rcases Shuf.fixed hK hz (hf _ _ h1) (hf _ _ h2) hs with h | ⟨ws, a, b, R, he, he', hl⟩
  · exact .inl h
  · obtain rfl := List.length_eq_zero_iff.1 hl
    exact .inr ⟨_, _, _, _, he, he'⟩

/-- The parts of a footprint whose parts have one order. -/
theorem C102_footprint_parts :
    OneOrder (Fp.Font.de (F := F)) ∧ OneOrder (Fp.Effects.de (F := F)) ∧ OneOrder (Fp.FpText.de (F := F)) ∧
    OneOrder (Fp.FpPoly.de (F := F)) ∧ OneOrder (Fp.Model.de (F := F)) ∧ OneOrder (Fp.Drill.de (F := F)) ∧
    OneOrderButTwo (Fp.FpLine.de (F := F)) ∧ OneOrderButTwo (Fp.FpCircle.de (F := F)) ∧
    OneOrderButTwo (Fp.FpArc.de (F := F)) :=
  ⟨Shuf.oneOrder (by decide) fun e v h => Shuf.font_fixed ((Fp.font_iff e v).1 h),
   Shuf.oneOrder (by decide) fun e v h => Shuf.effects_fixed ((Fp.effects_iff e v).1 h),
   Shuf.oneOrder (by decide) fun e v h => Shuf.text_fixed ((Fp.fpText_iff e v).1 h),
   Shuf.oneOrder (by decide) fun e v h => Shuf.poly_fixed ((Fp.fpPoly_iff e v).1 h),
   Shuf.oneOrder (by decide) fun e v h => Shuf.model_fixed ((Fp.model_iff e v).1 h),
   fun _ _ _ _ h1 h2 hs => Shuf.wordsThen (Shuf.drill_words ((Fp.drill_iff _ _).1 h1)) (Shuf.drill_words ((Fp.drill_iff _ _).1 h2)) hs,
   Shuf.oneOrderButTwo (by decide) (by decide) fun e v h => Shuf.line_fixed ((Fp.fpLine_iff e v).1 h),
   Shuf.oneOrderButTwo (by decide) (by decide) fun e v h => Shuf.circle_fixed ((Fp.fpCircle_iff e v).1 h),
   Shuf.oneOrderButTwo (by decide) (by decide) fun e v h => Shuf.arc_fixed ((Fp.fpArc_iff e v).1 h)⟩

/-- The parts of a board whose parts have one order. -/
theorem C102_board_parts :
    OneOrder (Lay.General.de (F := F)) ∧ OneOrder (Lay.GrText.de (F := F)) ∧ OneOrder (Lay.Dimension.de (F := F)) ∧
    OneOrder Lay.Keepout.de ∧ OneOrder (Lay.Fill.de (F := F)) ∧ OneOrder (Lay.Via.de (F := F)) ∧
    OneOrder (Lay.ConnectPads.de (F := F)) ∧ OneOrderButTwo (Lay.GrLine.de (F := F)) ∧
    OneOrderButTwo (Lay.GrArc.de (F := F)) ∧ OneOrderButTwo (Lay.GrCircle.de (F := F)) ∧
    OneOrderButTwo (Lay.Segment.de (F := F)) :=
  ⟨Shuf.oneOrder (by decide) fun e v h => Shuf.general_fixed ((Lay.general_iff e v).1 h),
   Shuf.oneOrder (by decide) fun e v h => Shuf.grText_fixed ((Lay.grText_iff e v).1 h),
   Shuf.oneOrder (by decide) fun e v h => Shuf.dimension_fixed ((Lay.dimension_iff e v).1 h),
   Shuf.oneOrder (by decide) fun e v h => Shuf.keepout_fixed ((Lay.keepout_iff e v).1 h),
   Shuf.oneOrder (by decide) fun e v h => Shuf.fill_fixed ((Lay.fill_iff e v).1 h),
   Shuf.oneOrder (by decide) fun e v h => Shuf.via_fixed ((Lay.via_iff e v).1 h),
   fun _ _ _ _ h1 h2 hs => Shuf.wordsThen (Shuf.connectPads_words ((Lay.connectPads_iff _ _).1 h1))
     (Shuf.connectPads_words ((Lay.connectPads_iff _ _).1 h2)) hs,
   Shuf.oneOrderButTwo (by decide) (by decide) fun e v h => Shuf.grLine_fixed ((Lay.grLine_iff e v).1 h),
   Shuf.oneOrderButTwo (by decide) (by decide) fun e v h => Shuf.grArc_fixed ((Lay.grArc_iff e v).1 h),
   Shuf.oneOrderButTwo (by decide) (by decide) fun e v h => Shuf.grCircle_fixed ((Lay.grCircle_iff e v).1 h),
   Shuf.oneOrderButTwo (by decide) (by decide) fun e v h => Shuf.segment_fixed ((Lay.segment_iff e v).1 h)⟩

/-! ## Points that trade places -/

/-- The ends of the drawings and tracks of a board trade places. -/
theorem C102_line_ends {a b : Sexp} {rest : List Sexp} :
    (∀ v : Lay.GrLine F, Lay.GrLine.de (.list (.str (str! "gr_line") :: a :: b :: rest)) = .ok v →
      Lay.GrLine.de (.list (.str (str! "gr_line") :: b :: a :: rest)) = .ok { v with start := v.end_, end_ := v.start }) ∧
    (∀ v : Lay.GrArc F, Lay.GrArc.de (.list (.str (str! "gr_arc") :: a :: b :: rest)) = .ok v →
      Lay.GrArc.de (.list (.str (str! "gr_arc") :: b :: a :: rest)) = .ok { v with start := v.end_, end_ := v.start }) ∧
    (∀ v : Lay.GrCircle F, Lay.GrCircle.de (.list (.str (str! "gr_circle") :: a :: b :: rest)) = .ok v →
      Lay.GrCircle.de (.list (.str (str! "gr_circle") :: b :: a :: rest)) = .ok { v with center := v.end_, end_ := v.center }) ∧
    (∀ v : Lay.Segment F, Lay.Segment.de (.list (.str (str! "segment") :: a :: b :: rest)) = .ok v →
      Lay.Segment.de (.list (.str (str! "segment") :: b :: a :: rest)) = .ok { v with start := v.end_, end_ := v.start }) := by
  refine ⟨fun v h => ?_, fun v h => ?_, fun v h => ?_, fun v h => ?_⟩
  · rw [Lay.grLine_iff] at h ⊢
    obtain ⟨x, y, _, _, _, _, _, _, he, h1, h2, h3⟩ := h
    simp only [Sexp.list.injEq, List.cons.injEq, true_and] at he
    obtain ⟨rfl, rfl, rfl⟩ := he
    exact ⟨_, _, _, _, _, _, _, _, rfl, h2, h1, h3⟩
  · rw [Lay.grArc_iff] at h ⊢
    obtain ⟨x, y, _, _, _, _, _, he, h1, h2, h3⟩ := h
    simp only [Sexp.list.injEq, List.cons.injEq, true_and] at he
    obtain ⟨rfl, rfl, rfl⟩ := he
    exact ⟨_, _, _, _, _, _, _, rfl, h2, h1, h3⟩
  · rw [Lay.grCircle_iff] at h ⊢
    obtain ⟨x, y, _, _, _, _, he, h1, h2, h3⟩ := h
    simp only [Sexp.list.injEq, List.cons.injEq, true_and] at he
    obtain ⟨rfl, rfl, rfl⟩ := he
    exact ⟨_, _, _, _, _, _, rfl, h2, h1, h3⟩
  · rw [Lay.segment_iff] at h ⊢
    obtain ⟨x, y, _, _, _, _, _, he, h1, h2, h3⟩ := h
    simp only [Sexp.list.injEq, List.cons.injEq, true_and] at he
    obtain ⟨rfl, rfl, rfl⟩ := he
    exact ⟨_, _, _, _, _, _, _, rfl, h2, h1, h3⟩

/-- A point with a name. -/
def Spec.point (n : Str) (r : List Sexp) : Sexp := .list (.str n :: r)

/-- The ends of the lines of a footprint are lost if they are given in the wrong order, and nothing is said about it. -/
theorem C102_lost_ends {ra rb rest : List Sexp} :
    (∀ v : Fp.FpLine F,
      Fp.FpLine.de (.list (.str (str! "fp_line") :: point (str! "start") ra :: point (str! "end") rb :: rest)) = .ok v →
      Fp.FpLine.de (.list (.str (str! "fp_line") :: point (str! "end") rb :: point (str! "start") ra :: rest)) =
        .ok { v with start := ⟨zero, zero, .start⟩, end_ := ⟨zero, zero, .end_⟩ }) ∧
    (∀ v : Fp.FpCircle F,
      Fp.FpCircle.de (.list (.str (str! "fp_circle") :: point (str! "center") ra :: point (str! "end") rb :: rest)) = .ok v →
      Fp.FpCircle.de (.list (.str (str! "fp_circle") :: point (str! "end") rb :: point (str! "center") ra :: rest)) =
        .ok { v with center := ⟨zero, zero, .center⟩, end_ := ⟨zero, zero, .end_⟩ }) ∧
    (∀ v : Fp.FpArc F,
      Fp.FpArc.de (.list (.str (str! "fp_arc") :: point (str! "start") ra :: point (str! "end") rb :: rest)) = .ok v →
      Fp.FpArc.de (.list (.str (str! "fp_arc") :: point (str! "end") rb :: point (str! "start") ra :: rest)) =
        .ok { v with start := ⟨zero, zero, .start⟩, end_ := ⟨zero, zero, .end_⟩ }) := by
  have ts : ∀ u, (str! "start", u) ∈ xyNames → u = .start := by intro u; cases u <;> decide
  have te : ∀ u, (str! "end", u) ∈ xyNames → u = .end_ := by intro u; cases u <;> decide
  have tc : ∀ u, (str! "center", u) ∈ xyNames → u = .center := by intro u; cases u <;> decide
  refine ⟨fun v h => ?_, fun v h => ?_, fun v h => ?_⟩
  · rw [Fp.fpLine_iff] at h ⊢
    obtain ⟨_, a, b, e, h1, -⟩ := h
    simp only [Sexp.list.injEq, List.cons.injEq, true_and] at e
    subst e
    obtain ⟨p, q, rfl, rfl, hp, hq, h2⟩ := Shuf.parts_swap (Shuf.key_point (by decide)) (Shuf.key_point (by decide)) h1
    exact ⟨_, _, _, rfl, h2, Shuf.not_there (Shuf.xy_type hq te) (by decide), Shuf.not_there (Shuf.xy_type hp ts) (by decide)⟩
  · rw [Fp.fpCircle_iff] at h ⊢
    obtain ⟨_, a, b, e, h1, -⟩ := h
    simp only [Sexp.list.injEq, List.cons.injEq, true_and] at e
    subst e
    obtain ⟨p, q, rfl, rfl, hp, hq, h2⟩ := Shuf.parts_swap (Shuf.key_point (by decide)) (Shuf.key_point (by decide)) h1
    exact ⟨_, _, _, rfl, h2, Shuf.not_there (Shuf.xy_type hq te) (by decide), Shuf.not_there (Shuf.xy_type hp tc) (by decide)⟩
  · rw [Fp.fpArc_iff] at h ⊢
    obtain ⟨a, b, g, l, w, ao, bo, go, lo, wo, e, h1, h2, h3, h4, h5, h6, -, -, h9⟩ := h
    simp only [Sexp.list.injEq, List.cons.injEq, true_and] at e
    obtain ⟨rfl, rfl, rfl⟩ := Shuf.opt_two (K := [str! "angle", str! "layer", str! "width"]) (by decide) h1 h2 h3
      (Shuf.app (Shuf.opt_key (Shuf.named_key (by decide)) h4) (Shuf.app (Shuf.opt_key Shuf.layer_key h5)
        (Shuf.opt_key (Shuf.named_key (by decide)) h6))) (Shuf.key_point (by decide)) (Shuf.key_point (by decide)) e
    obtain ⟨p, rfl, hp⟩ := Shuf.opt_one h1
    obtain ⟨q, rfl, hq⟩ := Shuf.opt_one h2
    exact ⟨_, _, _, _, _, _, _, _, _, _, rfl, h2, h1, by simp, h4, h5, h6, Shuf.not_there (Shuf.xy_type hq te) (by decide),
      Shuf.not_there (Shuf.xy_type hp ts) (by decide), h9⟩

/-! ## Pads -/

/-- A pad whose parts have different names is read the same in every order in which it is read. -/
theorem C102_pad {e e' : Sexp} {v v' : Fp.Pad F} (h : Fp.Pad.de e = .ok v) (h' : Fp.Pad.de e' = .ok v')
    (hs : Shuffled e e') (hn : ∀ n xs, e = .list (n :: xs) → (namesOf xs).Nodup) : v' = v := by
  have := (Fp.pad_iff e' v).2 (Shuf.pad_shuffled ((Fp.pad_iff _ _).1 h) ((Fp.pad_iff _ _).1 h') hs hn)
  rw [h'] at this
  cases this
  rfl

/-! ## Parts whose order is free -/

/-- The parts of a net class with different names can trade places. -/
theorem C102_net_class {name desc : Str} {l l' : List Sexp} {v : Lay.NetClass F}
    (h : Lay.NetClass.de (.list (.str (str! "net_class") :: .str name :: .str desc :: l)) = .ok v)
    (hl : Rearranged OtherName l l') :
    Lay.NetClass.de (.list (.str (str! "net_class") :: .str name :: .str desc :: l')) = .ok v := by
  rw [Lay.netClass_iff] at h ⊢
  obtain ⟨_, is, e, h0, h1, h2, h3, h4, h5, h6, h7, h8, h9⟩ := h
  simp only [Sexp.list.injEq, List.cons.injEq, Sexp.str.injEq, true_and] at e
  obtain ⟨rfl, rfl, rfl⟩ := e
  obtain ⟨is', m, -, q⟩ := Shuf.many_swap hl is h0
  have q' := fun (β : Type) (f : NetClassItem F → Option β) (n : Str) hf =>
    q β f fun x y a b hxy ha hb => Shuf.none_or f n hf (Shuf.other_classItem hxy ha hb)
  refine ⟨_, is', rfl, m, ?_, ?_, ?_, ?_, ?_, ?_, ?_, ?_, ?_⟩
  · rw [h1, q' _ _ (str! "clearance") (by rintro (_ | _) h <;> first | rfl | exact absurd rfl h)]
  · rw [h2, q' _ _ (str! "trace_width") (by rintro (_ | _) h <;> first | rfl | exact absurd rfl h)]
  · rw [h3, q' _ _ (str! "via_dia") (by rintro (_ | _) h <;> first | rfl | exact absurd rfl h)]
  · rw [h4, q' _ _ (str! "via_drill") (by rintro (_ | _) h <;> first | rfl | exact absurd rfl h)]
  · rw [h5, q' _ _ (str! "uvia_dia") (by rintro (_ | _) h <;> first | rfl | exact absurd rfl h)]
  · rw [h6, q' _ _ (str! "uvia_drill") (by rintro (_ | _) h <;> first | rfl | exact absurd rfl h)]
  · rw [h7, q' _ _ (str! "diff_pair_gap") (by rintro (_ | _) h <;> first | rfl | exact absurd rfl h)]
  · rw [h8, q' _ _ (str! "diff_pair_width") (by rintro (_ | _) h <;> first | rfl | exact absurd rfl h)]
  · rw [h9, q' _ _ (str! "add_net") (by rintro (_ | _) h <;> first | rfl | exact absurd rfl h)]

/-- The plot parameters can be anywhere in the setup. -/
theorem C102_setup {l l' : List Sexp} {v : Lay.Setup} (h : Lay.Setup.de (.list (.str (str! "setup") :: l)) = .ok v)
    (hl : Rearranged OtherSetting l l') : Lay.Setup.de (.list (.str (str! "setup") :: l')) = .ok v := by
  rw [Lay.setup_iff] at h ⊢
  obtain ⟨_, is, e, h0, h1, h2⟩ := h
  simp only [Sexp.list.injEq, List.cons.injEq, true_and] at e
  subst e
  obtain ⟨is', m, -, q⟩ := Shuf.many_swap hl is h0
  have key : ∀ x y a b, OtherSetting x y → SetupItemTree x a → SetupItemTree y b →
      (a.element? = none ∨ b.element? = none) ∧ (a.params? = none ∨ b.params? = none) := by
    rintro x y a b ⟨n, m, r, s, rfl, rfl, hnm, ho⟩ ha hb
    have kind : ∀ (n : Str) (r : List Sexp) (a : SetupItem), SetupItemTree (.list (.str n :: r)) a →
        (n = str! "pcbplotparams" → a.element? = none) ∧ (n ≠ str! "pcbplotparams" → a.params? = none) := by
      intro n r a h
      generalize hx : Sexp.list (.str n :: r) = x at h
      cases h with
      | element h hn =>
        subst hx
        obtain ⟨_, e, -⟩ := h
        simp only [Sexp.list.injEq, List.cons.injEq, Sexp.str.injEq] at e
        exact ⟨fun h => absurd (e.1.symm.trans h) hn, fun _ => rfl⟩
      | params h =>
        simp only [Sexp.list.injEq, List.cons.injEq, Sexp.str.injEq] at hx
        exact ⟨fun _ => rfl, fun h => absurd hx.1 h⟩
    obtain ⟨a1, a2⟩ := kind _ _ _ ha
    obtain ⟨b1, b2⟩ := kind _ _ _ hb
    rcases ho with rfl | rfl
    · exact ⟨.inl (a1 rfl), .inr (b2 (Ne.symm hnm))⟩
    · exact ⟨.inr (b1 rfl), .inl (a2 hnm)⟩
  refine ⟨_, is', rfl, m, ?_, ?_⟩
  · rw [h1, q _ _ fun x y a b h ha hb => (key x y a b h ha hb).1]
  · rw [h2, q _ _ fun x y a b h ha hb => (key x y a b h ha hb).2]

/-- The sections of a board that are not elements can be anywhere. -/
theorem C102_board {l l' : List Sexp} {v : Lay.Layout F}
    (h : Lay.Layout.de (.list (.str (str! "kicad_pcb") :: l)) = .ok v) (hl : Rearranged OtherSection l l') :
    Lay.Layout.de (.list (.str (str! "kicad_pcb") :: l')) = .ok v := by
  rw [Lay.board_iff] at h ⊢
  obtain ⟨_, is, e, h0, h1, h2, h3, h4, h5, h6, h7⟩ := h
  simp only [Sexp.list.injEq, List.cons.injEq, true_and] at e
  subst e
  obtain ⟨is', m, -, q⟩ := Shuf.many_swap hl is h0
  have q' := fun (β : Type) (f : BoardPart F → Option β) (n : Str) hf =>
    q β f fun x y a b hxy ha hb => Shuf.none_or f n hf (Shuf.other_boardPart hxy ha hb)
  refine ⟨_, is', rfl, m, ?_, ?_, ?_, ?_, ?_, ?_, ?_⟩
  · rw [h1, q' _ _ (str! "version") (by rintro (_ | _) h <;> first | rfl | exact absurd rfl h)]
  · rw [h2, q' _ _ (str! "host") (by rintro (_ | _) h <;> first | rfl | exact absurd rfl h)]
  · rw [h3, q' _ _ (str! "general") (by rintro (_ | _) h <;> first | rfl | exact absurd rfl h)]
  · rw [h4, q' _ _ (str! "page") (by rintro (_ | _) h <;> first | rfl | exact absurd rfl h)]
  · rw [h5, q' _ _ (str! "layers") (by rintro (_ | _) h <;> first | rfl | exact absurd rfl h)]
  · rw [h6, q' _ _ (str! "setup") (by rintro (_ | _) h <;> first | rfl | exact absurd rfl h)]
  · rw [h7, q' _ _ [] (by rintro (_ | _) h <;> first | rfl | exact absurd rfl h)]

/-- The elements of a footprint are read in the order in which they are written. -/
theorem C102_module {name : Str} {l l' : List Sexp} {v : Fp.Module F}
    (h : Fp.Module.de (.list (.str (str! "module") :: .str name :: l)) = .ok v) (hl : l.Perm l') :
    ∃ es, v.elements.Perm es ∧
      Fp.Module.de (.list (.str (str! "module") :: .str name :: l')) = .ok { v with elements := es } := by
  rw [Fp.module_iff] at h
  obtain ⟨_, e, h⟩ := h
  simp only [Sexp.list.injEq, List.cons.injEq, Sexp.str.injEq, true_and] at e
  obtain ⟨rfl, rfl⟩ := e
  obtain ⟨es, h1, h2⟩ := Shuf.many_perm hl _ h
  exact ⟨es, h2, (Fp.module_iff _ _).2 ⟨_, rfl, h1⟩⟩

/-- The last parts of a pad with different names can trade places. -/
theorem C102_pad_entries {ws : List Str} {l l' : List Sexp} {v : Fp.Pad F} (hw : ws.length = 3)
    (h : Fp.Pad.de (.list (.str (str! "pad") :: (ws.map .str ++ l))) = .ok v) (hl : Rearranged OtherEntry l l') :
    Fp.Pad.de (.list (.str (str! "pad") :: (ws.map .str ++ l'))) = .ok v := by
  match ws, hw with
  | [w1, w2, w3], _ =>
    rw [Fp.pad_iff] at h ⊢
    obtain ⟨t, shape, a, x, d, ls, E, ao, xo, lo, es, e, h1, h2, h3, h4, h5, h6, h7, h8, h9, h10, h11, g1, g2, g3, g4, g5, g6⟩ := h
    simp only [List.map_cons, List.map_nil, List.cons_append, List.nil_append, Sexp.list.injEq, List.cons.injEq, Sexp.str.injEq,
      true_and] at e
    obtain ⟨rfl, rfl, rfl, rfl⟩ := e
    have hP := Shuf.app (Shuf.opt_key Shuf.at_key h3) (Shuf.app (Shuf.opt_key Shuf.xy_key h4)
      (Shuf.app (Shuf.opt_key Shuf.drill_key h5) (Shuf.opt_key Shuf.layers_key h6)))
    obtain ⟨E', e', hE⟩ := Shuf.split_swap (Q := fun x => Shuf.key x ∈ padEntryNames)
      (by
        rintro x y ⟨n, m, r, s, rfl, rfl, -, hn, hm⟩
        have : ∀ n ∈ padEntryNames, n ∉ Shuf.points := by decide
        simp only [Shuf.key_list (this n hn), Shuf.key_list (this m hm)]
        exact ⟨hn, hm⟩) hl (a ++ (x ++ (d ++ ls))) E
      (by
        intro z hz
        have h0 : ∀ k ∈ [str! "at"] ++ ([str! "size"] ++ ([str! "drill"] ++ [str! "layers"])), k ∉ padEntryNames := by decide
        exact h0 _ (hP.subset (List.mem_map_of_mem hz))) (by simp)
    subst e'
    obtain ⟨es', m, -, q⟩ := Shuf.many_swap hE es h7
    have q' := fun (β : Type) (f : PadEntry F → Option β) (n : Str) hf =>
      q β f fun x y a b hxy ha hb => by
        obtain ⟨n', m', r, s, hx, hy, hnm, -⟩ := hxy
        exact Shuf.none_or f n hf (Shuf.other_entry ⟨n', m', r, s, hx, hy, hnm⟩ ha hb)
    refine ⟨w2, w3, a, x, d, ls, E', ao, xo, lo, es', by simp, h1, h2, h3, h4, h5, h6, m, h8, h9, h10, h11, ?_, ?_, ?_, ?_, ?_, ?_⟩
    · rw [g1, q' _ _ (str! "net") (by rintro (_ | _) h <;> first | rfl | exact absurd rfl h)]
    · rw [g2, q' _ _ (str! "solder_paste_margin") (by rintro (_ | _) h <;> first | rfl | exact absurd rfl h)]
    · rw [g3, q' _ _ (str! "solder_mask_margin") (by rintro (_ | _) h <;> first | rfl | exact absurd rfl h)]
    · rw [g4, q' _ _ (str! "clearance") (by rintro (_ | _) h <;> first | rfl | exact absurd rfl h)]
    · rw [g5, q' _ _ (str! "thermal_gap") (by rintro (_ | _) h <;> first | rfl | exact absurd rfl h)]
    · rw [g6, q' _ _ (str! "zone_connect") (by rintro (_ | _) h <;> first | rfl | exact absurd rfl h)]

/-- A polygon of a zone can trade places with anything else behind the first parts of the zone. -/
theorem C102_zone {l l' : List Sexp} {v : Lay.Zone F} (h : Lay.Zone.de (.list (.str (str! "zone") :: l)) = .ok v)
    (hl : Rearranged (OtherPolygon F) l l') : Lay.Zone.de (.list (.str (str! "zone") :: l')) = .ok v := by
  rw [Lay.zone_iff] at h ⊢
  obtain ⟨a, b, c, d, e, f, g, i, j, k, items, o, is, he, h1, h2, h3, h4, h5, h6, h7, h8, h9, h10, hm, hp, z1, z2, z3, z4⟩ := h
  simp only [Sexp.list.injEq, List.cons.injEq, true_and] at he
  subst he
  have head : ∀ z ∈ a :: b :: c :: d :: e :: (f ++ g :: i :: (j ++ [k])), ∃ n ∈ zoneHeadNames, ∃ r, z = .list (.str n :: r) := by
    obtain ⟨_, rfl, -⟩ := h1
    obtain ⟨_, rfl, -⟩ := h2
    obtain ⟨_, rfl, -⟩ := h3
    obtain ⟨_, rfl, -⟩ := h4
    obtain ⟨_, rfl, -⟩ := h5
    obtain ⟨_, _, rfl, -⟩ := h7
    obtain ⟨_, rfl, -⟩ := h8
    obtain ⟨_, _, _, _, _, _, _, _, _, rfl, -⟩ := h10
    have hf : ∀ z ∈ f, ∃ n ∈ zoneHeadNames, ∃ r, z = .list (.str n :: r) := by
      rcases h6 with ⟨rfl, -⟩ | ⟨x, _, rfl, ⟨_, rfl, -⟩, -⟩
      · simp
      · intro z hz
        obtain rfl := List.mem_singleton.1 hz
        exact ⟨_, by decide, _, rfl⟩
    have hj : ∀ z ∈ j, ∃ n ∈ zoneHeadNames, ∃ r, z = .list (.str n :: r) := by
      rcases h9 with ⟨rfl, -⟩ | ⟨x, _, rfl, ⟨_, _, _, rfl, -⟩, -⟩
      · simp
      · intro z hz
        obtain rfl := List.mem_singleton.1 hz
        exact ⟨_, by decide, _, rfl⟩
    intro z hz
    simp only [List.mem_cons, List.mem_append, List.not_mem_nil, or_false] at hz
    rcases hz with rfl | rfl | rfl | rfl | rfl | hz | rfl | rfl | hz | rfl
    iterate 5 exact ⟨_, by decide, _, rfl⟩
    · exact hf z hz
    iterate 2 exact ⟨_, by decide, _, rfl⟩
    · exact hj z hz
    · exact ⟨_, by decide, _, rfl⟩
  obtain ⟨E, e', hE⟩ := Shuf.split_swap (Q := fun z => ∀ n ∈ zoneHeadNames, ∀ r, z ≠ .list (.str n :: r))
    (fun x y h => ⟨fun n hn r => (h.2.2 n hn r).1, fun n hn r => (h.2.2 n hn r).2⟩) hl
    (a :: b :: c :: d :: e :: (f ++ g :: i :: (j ++ [k]))) items
    (fun z hz hq => by
      obtain ⟨n, hn, r, hz⟩ := head z hz
      exact hq n hn r hz) (by simp)
  subst e'
  obtain ⟨is', m, -, q⟩ := Shuf.many_swap hE is hm
  have q' := fun (β : Type) (f : ZoneItem F → Option β) (n : Str) hf =>
    q β f fun x y a b hxy ha hb => Shuf.none_or f n hf (Shuf.other_zoneItem hxy ha hb)
  refine ⟨a, b, c, d, e, f, g, i, j, k, E, o, is', by simp, h1, h2, h3, h4, h5, h6, h7, h8, h9, h10, m, hp, ?_, ?_, ?_, ?_⟩
  · rw [z1, q' _ _ (str! "polygon") (by rintro (_ | _) h <;> first | rfl | exact absurd rfl h)]
  · rw [z2, q' _ _ (str! "filled_polygon") (by rintro (_ | _) h <;> first | rfl | exact absurd rfl h)]
  · rw [z3, q' _ _ (str! "fill_segments") (by rintro (_ | _) h <;> first | rfl | exact absurd rfl h)]
  · rw [z4, q' _ _ [] (by rintro (_ | _) h <;> first | rfl | exact absurd rfl h)]

/-! ## Cases -/

/-- Layer and place of a text in the wrong order. -/
example : (∃ v, ((parseSexp (str! "(fp_text user A (at 1 2) (layer F.SilkS))")).bind Fp.FpText.de : Res (Fp.FpText Nm)) = .ok v) ∧
    (∃ k, ((parseSexp (str! "(fp_text user A (layer F.SilkS) (at 1 2))")).bind Fp.FpText.de : Res (Fp.FpText Nm)) = .err k) :=
  ⟨⟨_, rfl⟩, _, rfl⟩

/-- The ends of a line in the wrong order are lost. -/
example : ((parseSexp (str! "(fp_line (start 1 2) (end 3 4) (layer F.SilkS) (width 1))")).bind Fp.FpLine.de : Res (Fp.FpLine Nm)) =
      .ok ⟨⟨⟨1000000⟩, ⟨2000000⟩, .start⟩, ⟨⟨3000000⟩, ⟨4000000⟩, .end_⟩, ⟨.front, .silkS⟩, ⟨1000000⟩⟩ ∧
    ((parseSexp (str! "(fp_line (end 3 4) (start 1 2) (layer F.SilkS) (width 1))")).bind Fp.FpLine.de : Res (Fp.FpLine Nm)) =
      .ok ⟨⟨⟨0⟩, ⟨0⟩, .start⟩, ⟨⟨0⟩, ⟨0⟩, .end_⟩, ⟨.front, .silkS⟩, ⟨1000000⟩⟩ := ⟨rfl, rfl⟩

/-- The ends of a track. -/
example : ((parseSexp (str! "(segment (end 3 4) (start 1 2) (width 1) (layer F.Cu) (net 5))")).bind Lay.Segment.de : Res (Lay.Segment Nm)) =
      .ok ⟨⟨⟨3000000⟩, ⟨4000000⟩, .end_⟩, ⟨⟨1000000⟩, ⟨2000000⟩, .start⟩, ⟨1000000⟩, ⟨.front, .cu⟩, 5, none, none⟩ := rfl

/-- Two of the parts of a net class. -/
example : Rearranged OtherName
    [.list [.str (str! "clearance"), .str (str! "1")], .list [.str (str! "add_net"), .str (str! "A")],
      .list [.str (str! "add_net"), .str (str! "B")]]
    [.list [.str (str! "add_net"), .str (str! "A")], .list [.str (str! "add_net"), .str (str! "B")],
      .list [.str (str! "clearance"), .str (str! "1")]] :=
  .trans (.swap [] _ _ _ ⟨_, _, _, _, rfl, rfl, by decide⟩)
    (.swap [.list [.str (str! "add_net"), .str (str! "A")]] [] _ _ ⟨_, _, _, _, rfl, rfl, by decide⟩)

/-- The last part of a kind counts, so that parts of one name cannot trade places. -/
example : ((parseSexp (str! "(net_class A B (clearance 1) (clearance 2))")).bind Lay.NetClass.de : Res (Lay.NetClass Nm)) ≠
    ((parseSexp (str! "(net_class A B (clearance 2) (clearance 1))")).bind Lay.NetClass.de : Res (Lay.NetClass Nm)) := by
  decide +kernel

/-- A pad whose last parts are in another order. -/
example : (∃ v, ((parseSexp (str! "(pad 1 smd rect (at 1 2) (size 3 4) (layers F.Cu) (net 1 A) (clearance 2))")).bind Fp.Pad.de :
      Res (Fp.Pad Nm)) = .ok v) ∧
    ((parseSexp (str! "(pad 1 smd rect (at 1 2) (size 3 4) (layers F.Cu) (clearance 2) (net 1 A))")).bind Fp.Pad.de : Res (Fp.Pad Nm)) =
    ((parseSexp (str! "(pad 1 smd rect (at 1 2) (size 3 4) (layers F.Cu) (net 1 A) (clearance 2))")).bind Fp.Pad.de : Res (Fp.Pad Nm)) :=
  ⟨⟨_, rfl⟩, rfl⟩

end Verif
