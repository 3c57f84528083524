import Verif.Lemmas.LayRead
import Verif.Spec.Settle
import Verif.Basic.F64
/-!
# Saved files and what they were saved from
-/

namespace Verif.Spec
open Verif Flt

instance {F : Type} [Flt F] [MonoLaws F] : SelfLaws F where
  lt_zero := by rw [OrdLaws.lt_eq, OrdLaws.le_refl]; rfl
  gap_self a := by
    rw [MonoLaws.sub_self, MonoLaws.abs_zero, OrdLaws.lt_eq, MonoLaws.eps_nonneg]; rfl

instance : SelfLaws F64 where
  lt_zero := by
    rw [F64.zero_eq]
    exact decide_eq_false (lt_irrefl _)
  gap_self a := by
    have hn : ∀ x : F64, x = .nan → lt eps (Flt.abs x) = false := by
      rintro x rfl
      simp
    match a with
    | .nan => exact hn _ rfl
    | .inf true => exact hn _ rfl
    | .inf false => exact hn _ rfl
    | .fin a h =>
      have h0 : (Flt.sub a a).val = 0 := by
        show Fp64.round64 (a.val - a.val) = 0
        rw [sub_self, Fp64.round64_zero]
      have hp := Fp64.pow2_pos 1024
      have h1 : |(Flt.sub a a).val| < Fp64.pow2 1024 := by rw [h0, abs_zero]; exact hp
      rw [F64.sub_fin a a h h h1]
      have h2 : (Flt.abs (Flt.sub a a)).val = 0 := by
        show Fp64.round64 |(Flt.sub a a).val| = 0
        rw [h0, abs_zero, Fp64.round64_zero]
      have h3 : |(Flt.abs (Flt.sub a a)).val| < Fp64.pow2 1024 := by rw [h2, abs_zero]; exact hp
      have h4 : Flt.abs (F64.fin (Flt.sub a a) h1) = F64.fin (Flt.abs (Flt.sub a a)) h3 := F64.of_of h3
      rw [h4]
      show F64.lt (F64.of (Fp64.pow2 (-52))) _ = false
      have h5 : (0 : ℚ) ≤ (Fl.of (Fp64.pow2 (-52))).val := by
        show 0 ≤ Fp64.round64 _
        have := Fp64.round64_mono (Fp64.pow2_pos (-52)).le
        rwa [Fp64.round64_zero] at this
      unfold F64.of
      split
      · exact decide_eq_false (by rw [h2]; exact not_lt.2 h5)
      · rw [decide_eq_false (not_lt.2 (Fp64.pow2_pos (-52)).le)]; rfl

end Verif.Spec

namespace Verif.Fp
open Verif Flt Spec Sx

variable {F : Type} [Flt F] [TextLaws F] [ZeroLaws F]

theorem Font.ser_settle [SelfLaws F] (f : Font F) : (settleFont f).ser = f.ser := by
  unfold settleFont
  split
  · rfl
  · rename_i h
    rw [← Bool.or_eq_true] at h
    simp only [Font.ser, h, SelfLaws.lt_zero, Bool.or_self, Bool.false_eq_true, if_false]

theorem Drill.ser_settle [SelfLaws F] (d : Drill F) (h : HoleWritten d) :
    (settleDrill d).ser = d.ser := by
  unfold settleDrill
  split
  · rename_i hw
    split
    · rfl
    · rename_i hh
      rw [← Bool.and_eq_true] at hh
      simp only [Drill.ser, hh, SelfLaws.gap_self, Bool.and_false, Bool.false_eq_true, if_false]
  · rename_i hw
    obtain ⟨h1, h2⟩ := h.resolve_left hw
    simp only [Drill.ser, h1, h2, hw, SelfLaws.gap_self, Bool.and_false, Bool.and_true, if_true,
      Bool.false_eq_true, if_false, List.append_nil]

theorem Elem.ser_settle [SelfLaws F] (e : Elem F) (h : ReadsBack e) : (settleElem e).ser = e.ser := by
  cases e with
  | text t => simp only [settleElem, Elem.ser, FpText.ser, Effects.ser, Font.ser_settle]
  | pad p =>
    cases hd : p.drill with
    | none => simp only [settleElem, Elem.ser, Pad.ser, hd, Option.map_none]
    | some d =>
      simp only [settleElem, Elem.ser, Pad.ser, hd, Option.map_some, Drill.ser_settle d (h.2 d hd)]
  | _ => rfl

theorem Module.ser_settle [SelfLaws F] (m : Module F) (h : ∀ e ∈ m.elements, ReadsBack e) :
    (settle m).ser = m.ser := by
  simp only [settle, Module.ser, List.map_map]
  congr 2
  exact List.map_congr_left fun e he => Elem.ser_settle e (h e he)

theorem Font.good_settle (f : Font F) (h : f.size.t = .xy) : GoodFont (settleFont f) := by
  unfold settleFont
  split
  · rename_i h'
    exact ⟨h, h'.elim .inl fun x => .inr (.inl x)⟩
  · exact ⟨h, .inr (.inr ⟨rfl, rfl⟩)⟩

theorem Drill.good_settle (d : Drill F) (hs : d.shape = none ∨ d.shape = some (str! "oval"))
    (h : HoleWritten d) : GoodDrill (settleDrill d) := by
  unfold settleDrill
  split
  · rename_i hw
    split
    · rename_i hh
      exact ⟨hs, hw, .inr hh⟩
    · exact ⟨hs, hw, .inl rfl⟩
  · rename_i hw
    exact ⟨hs, (h.resolve_left hw).1, .inl rfl⟩

theorem Elem.good_settle {s : Sexp} {e : Elem F} (h : Elem.de s = .ok e) (hr : ReadsBack e) :
    GoodElem (settleElem e) := by
  cases s with
  | str a =>
    simp only [Elem.de] at h
    split at h
    · simp only [Res.ok.injEq] at h; subst h; trivial
    · simp at h
  | empty => simp [Elem.de] at h
  | list l =>
    simp only [Elem.de, Res.bind_eq_ok] at h
    obtain ⟨n, _, h⟩ := h
    rcases ite_ok h with h | h
    rotate_left; rcases ite_ok h with h | h
    rotate_left; rcases ite_ok h with h | h
    rotate_left; rcases ite_ok h with h | h
    rotate_left; rcases ite_ok h with h | h
    rotate_left; rcases ite_ok h with h | h
    rotate_left; rcases ite_ok h with h | h
    rotate_left; rcases ite_ok h with h | h
    rotate_left; rcases ite_ok h with h | h
    rotate_left; rcases ite_ok h with h | h
    rotate_left; rcases ite_ok h with h | h
    rotate_left; rcases ite_ok h with h | h
    rotate_left; rcases ite_ok h with h | h
    rotate_left; rcases ite_ok h with h | h
    rotate_left; rcases ite_ok h with h | h
    rotate_left; rcases ite_ok h with h | h
    rotate_left; rcases ite_ok h with h | h
    rotate_left; exact absurd h (by simp)
    all_goals obtain ⟨x, hx, rfl⟩ := map_ok_inv h
    all_goals first
      | trivial
      | exact Layer.good_of_de hx
      | exact ⟨(FpText.good_of_de hx).1, Font.good_settle _ (FpText.good_of_de hx).2⟩
      | exact FpPoly.good_of_de hx
      | exact FpLine.good_of_de hx
      | exact FpCircle.good_of_de hx
      | exact FpArc.good_of_de hx
      | exact ⟨hr, stamp_range hx⟩
      | skip
    obtain ⟨p1, p2, p3, p4, p5⟩ := Pad.good_of_de hx
    refine ⟨p1, hr.1, p2, p3, p4, fun d hd => ?_⟩
    obtain ⟨d', hd', rfl⟩ := Option.map_eq_some_iff.1 hd
    exact Drill.good_settle d' (p5 d' hd') (hr.2 d' hd')

theorem Module.elements_of_de {s : Sexp} {m : Module F} (h : Module.de s = .ok m) :
    ∀ e ∈ m.elements, ∃ x, (Elem.de x : Res (Elem F)) = .ok e := by
  simp only [Module.de, Res.bind_eq_ok, Res.ok.injEq] at h
  obtain ⟨i, _, ⟨n, i2⟩, _, es, hes, rfl⟩ := h
  intro e he
  obtain ⟨x, _, hx⟩ := vec_mem hes e he
  exact ⟨x, hx⟩

/-! ## What must hold for the text to be readable -/

theorem vec_map_each {α β : Type} (dec : Sexp → Res α) (f : β → Sexp) :
    ∀ (l : List β) (r : List α), vec dec (l.map f) = .ok r → ∀ b ∈ l, ∃ a, dec (f b) = .ok a
  | [], _, _ => by simp
  | b :: l, r, h => by
    simp only [List.map_cons, vec, Res.bind_eq_ok, Res.ok.injEq] at h
    obtain ⟨a, ha, l', hl, rfl⟩ := h
    intro c hc
    rcases List.mem_cons.1 hc with rfl | hc
    · exact ⟨a, ha⟩
    · exact vec_map_each dec f l l' hl c hc

theorem Drill.written_of_ok (d d' : Drill F) (hsh : d.shape = none ∨ d.shape = some (str! "oval"))
    (h : Drill.de d.ser = .ok d') : HoleWritten d := by
  by_contra hn
  simp only [HoleWritten, not_or] at hn
  obtain ⟨hw, hh⟩ := hn
  rw [← Bool.and_eq_true] at hh
  simp only [Drill.ser, Drill.de, iter_node, Res.bind_ok, hw, hh, Bool.false_eq_true, if_false,
    List.append_nil] at h
  rcases hsh with hs | hs <;>
    simp only [hs, List.nil_append, List.cons_append, maybe_ok (literal_self (str! "oval"))] at h <;>
    split at h <;> simp [eat, maybe] at h

theorem Pad.reads_of_ok {s : Sexp} (p p' : Pad F) (hr : Pad.de s = .ok p) (h : Pad.de p.ser = .ok p') :
    ReadsBack (.pad p) := by
  have hg := Pad.good_of_de hr
  simp only [Pad.ser, Pad.de, iter_node, Res.bind_ok, eat_cons, List.cons_append, List.nil_append,
    string_str, PadType.read_show, PadShape.read_show, maybe_ok (At.de_ser _),
    maybe_ok (Xy.de_ser _), List.append_assoc] at h
  have hx1 : ∀ d : Xy F, (Drill.de d.ser : Res (Drill F)) = .err .sexp := by
    intro d; obtain ⟨x, y, t⟩ := d; cases t <;> rfl
  have hx2 : ∀ d : Xy F, Layers.de d.ser = .err .sexp := by
    intro d; obtain ⟨x, y, t⟩ := d; cases t <;> rfl
  have hx3 : ∀ d : Xy F, (Part.de d.ser : Res (Part F)) = .err .sexp := by
    intro d; obtain ⟨x, y, t⟩ := d; cases t <;> simp [Part.de, Xy.ser, XyType.show]
  have hd2 : ∀ d : Drill F, Layers.de d.ser = .err .sexp := fun d => rfl
  have hd3 : ∀ d : Drill F, (Part.de d.ser : Res (Part F)) = .err .sexp := fun d => Part.de_drill _
  cases hrd : p.rectDelta with
  | some d =>
    exfalso
    simp only [hrd, List.cons_append, List.nil_append] at h
    cases hdr : p.drill with
    | none =>
      simp only [hdr, List.nil_append, maybe_err (hx1 _), maybe_err (hx2 _), Res.bind_ok, vec, hx3,
        Res.bind_err] at h
      simp at h
    | some dr =>
      simp only [hdr, List.nil_append, List.cons_append] at h
      cases hdd : Drill.de (F := F) dr.ser with
      | ok dr' =>
        simp only [maybe_ok hdd, maybe_err (hx2 _), Res.bind_ok, vec, hx3, Res.bind_err] at h
        simp at h
      | err e =>
        simp only [maybe_err hdd, maybe_err (hd2 _), Res.bind_ok, vec, hd3, Res.bind_err] at h
        simp at h
      | panic => simp [maybe, hdd] at h
      | diverge => simp [maybe, hdd] at h
  | none =>
    refine ⟨hrd, fun dr hdr => ?_⟩
    simp only [hrd, hdr, List.nil_append, List.cons_append] at h
    cases hdd : Drill.de (F := F) dr.ser with
    | ok dr' => exact Drill.written_of_ok dr dr' (hg.2.2.2.2 dr hdr) hdd
    | err e =>
      simp only [maybe_err hdd, maybe_err (hd2 _), Res.bind_ok, vec, hd3, Res.bind_err] at h
      simp at h
    | panic => simp [maybe, hdd] at h
    | diverge => simp [maybe, hdd] at h

theorem Elem.reads_of_ok {s : Sexp} (e e' : Elem F) (hr : Elem.de s = .ok e)
    (h : Elem.de e.ser = .ok e') : ReadsBack e := by
  cases s with
  | str a =>
    simp only [Elem.de] at hr
    split at hr
    · simp only [Res.ok.injEq] at hr; subst hr; trivial
    · simp at hr
  | empty => simp [Elem.de] at hr
  | list l =>
    simp only [Elem.de, Res.bind_eq_ok] at hr
    obtain ⟨n, _, hr⟩ := hr
    rcases ite_ok hr with hr | hr
    rotate_left; rcases ite_ok hr with hr | hr
    rotate_left; rcases ite_ok hr with hr | hr
    rotate_left; rcases ite_ok hr with hr | hr
    rotate_left; rcases ite_ok hr with hr | hr
    rotate_left; rcases ite_ok hr with hr | hr
    rotate_left; rcases ite_ok hr with hr | hr
    rotate_left; rcases ite_ok hr with hr | hr
    rotate_left; rcases ite_ok hr with hr | hr
    rotate_left; rcases ite_ok hr with hr | hr
    rotate_left; rcases ite_ok hr with hr | hr
    rotate_left; rcases ite_ok hr with hr | hr
    rotate_left; rcases ite_ok hr with hr | hr
    rotate_left; rcases ite_ok hr with hr | hr
    rotate_left; rcases ite_ok hr with hr | hr
    rotate_left; rcases ite_ok hr with hr | hr
    rotate_left; rcases ite_ok hr with hr | hr
    rotate_left; exact absurd hr (by simp)
    all_goals obtain ⟨x, hx, rfl⟩ := map_ok_inv hr
    all_goals first
      | trivial
      | (rw [Elem.ser, Elem.de_list (n := str! "pad") rfl] at h
         obtain ⟨a, ha, _⟩ := map_ok_inv (f := Elem.pad) h
         exact Pad.reads_of_ok x a hx ha)
      | (by_contra hi
         have hi' : x < 0 := by simpa [ReadsBack] using hi
         rw [(C22_negative_stamp_unreadable (F := F) x hi' (stamp_range hx)).1] at h
         simp at h)
      | (by_contra hi
         have hi' : x < 0 := by simpa [ReadsBack] using hi
         rw [(C22_negative_stamp_unreadable (F := F) x hi' (stamp_range hx)).2] at h
         simp at h)

/-- What a footprint that was read is saved as, and what that reads as. -/
theorem Module.settles [SelfLaws F] {s : Sexp} {m : Module F} (hr : Module.de s = .ok m)
    (r : Module F) :
    Module.de m.ser = .ok r ↔ (∀ e ∈ m.elements, ReadsBack e) ∧ r = settle m := by
  have hel := Module.elements_of_de hr
  have key : (∀ e ∈ m.elements, ReadsBack e) → Module.de m.ser = .ok (settle m) := by
    intro h
    rw [← Module.ser_settle m h]
    refine Module.de_ser _ fun e he => ?_
    obtain ⟨e', he', rfl⟩ := List.mem_map.1 he
    obtain ⟨x, hx⟩ := hel e' he'
    exact Elem.good_settle hx (h e' he')
  constructor
  · intro h
    have hb : ∀ e ∈ m.elements, ReadsBack e := by
      have h' := h
      simp only [Module.de, Module.ser, iter_node, Res.bind_ok, eat_cons, string_str, Res.bind_eq_ok,
        Res.ok.injEq] at h'
      obtain ⟨es, hes, _⟩ := h'
      intro e he
      obtain ⟨x, hx⟩ := hel e he
      obtain ⟨a, ha⟩ := vec_map_each (Elem.de (F := F)) Elem.ser m.elements es hes e he
      exact Elem.reads_of_ok e a hx ha
    refine ⟨hb, ?_⟩
    rw [key hb] at h
    exact (Res.ok.inj h).symm
  · rintro ⟨h, rfl⟩
    exact key h

end Verif.Fp

namespace Verif.Lay
open Verif Flt Spec Sx

variable {F : Type} [Flt F] [TextLaws F] [ZeroLaws F]

theorem GrText.ser_settle [SelfLaws F] (t : GrText F) : (settleText t).ser = t.ser := by
  simp only [settleText, GrText.ser, Fp.Effects.ser, Fp.Font.ser_settle]

theorem Elem.ser_settle [SelfLaws F] (e : Elem F) (h : ReadsBackBoard e) :
    (settleBoardElem e).ser = e.ser := by
  cases e with
  | module_ m => exact Fp.Module.ser_settle m h
  | grText t => exact GrText.ser_settle t
  | dimension d => simp only [settleBoardElem, Elem.ser, Dimension.ser, GrText.ser_settle]
  | _ => rfl

theorem Layout.ser_settle [SelfLaws F] (l : Layout F) (h : ∀ e ∈ l.elements, ReadsBackBoard e) :
    (settleBoard l).ser = l.ser := by
  simp only [settleBoard, Layout.ser, List.map_map]
  congr 2
  exact List.map_congr_left fun e he => Elem.ser_settle e (h e he)

theorem Elem.good_settle {s : Sexp} {e : Elem F} (h : Elem.read s = .ok e) (hs : isElem s = true)
    (hr : ReadsBackBoard e) : (settleBoardElem e).good := by
  rcases Elem.read_inv h hs with ⟨v, hv, rfl⟩ | ⟨v, hv, rfl⟩ | ⟨v, hv, rfl⟩ | ⟨v, hv, rfl⟩ |
    ⟨v, hv, rfl⟩ | ⟨v, hv, rfl⟩ | ⟨v, hv, rfl⟩ | ⟨v, hv, rfl⟩ | ⟨v, hv, rfl⟩ | ⟨v, hv, rfl⟩ |
    ⟨v, hv, rfl⟩ | ⟨hu, rfl⟩
  · intro e he
    obtain ⟨e', he', rfl⟩ := List.mem_map.1 he
    obtain ⟨x, hx⟩ := Fp.Module.elements_of_de hv e' he'
    exact Fp.Elem.good_settle hx (hr e' he')
  · exact Fp.Net.range_of_de hv
  · trivial
  · exact ⟨(GrText.good_of_de hv).1, Fp.Font.good_settle _ (GrText.good_of_de hv).2⟩
  · exact GrLine.good_of_de hv
  · exact GrArc.good_of_de hv
  · exact GrCircle.good_of_de hv
  · obtain ⟨h1, h2, h3⟩ := Dimension.good_of_de hv
    exact ⟨h1, h2, Fp.Font.good_settle _ h3⟩
  · obtain ⟨h1, h2, h3, h4⟩ := Zone.good_of_de hv
    exact ⟨h1, h2, hr, h3, h4⟩
  · exact Segment.good_of_de hv
  · exact Via.good_of_de hv
  · exact hu

theorem Zone.priority_of_ok {s : Sexp} (z z' : Zone F) (hr : Zone.de s = .ok z)
    (h : Zone.de z.ser = .ok z') : z.priority ≤ maxI64 := by
  by_contra hp
  obtain ⟨h1, h2, h3, h4⟩ := Zone.good_of_de hr
  have h0 : z.priority > 0 := by omega
  have hp' : inList (str! "priority") int (pair (str! "priority") (.str (showNat z.priority))) =
      .err .sexp := by
    simp [int_big _ hp]
  have hc : (ConnectPads.de (pair (str! "priority") (.str (showNat z.priority))) :
      Res (ConnectPads F)) = .err .sexp := by
    simp [ConnectPads.de, pair_eq, iter_node_ne]
  simp only [Zone.de, Zone.ser, iter_node, Res.bind_ok, List.cons_append, List.nil_append,
    eat_cons, inList_pair, int_ofI _ h1, string_str, Fp.Layer.de_ser _ h2, Hatch.de_ser,
    List.append_assoc, h0, if_true, maybe_err hp', hc, Res.bind_err] at h
  cases h

theorem Elem.reads_of_ok [SelfLaws F] {s : Sexp} (e e' : Elem F) (hr : Elem.read s = .ok e)
    (hs : isElem s = true) (h : Elem.read e.ser = .ok e') : ReadsBackBoard e := by
  rcases Elem.read_inv hr hs with ⟨v, hv, rfl⟩ | ⟨v, hv, rfl⟩ | ⟨v, hv, rfl⟩ | ⟨v, hv, rfl⟩ |
    ⟨v, hv, rfl⟩ | ⟨v, hv, rfl⟩ | ⟨v, hv, rfl⟩ | ⟨v, hv, rfl⟩ | ⟨v, hv, rfl⟩ | ⟨v, hv, rfl⟩ |
    ⟨v, hv, rfl⟩ | ⟨hu, rfl⟩ <;> try trivial
  · have hl : listName v.ser = .ok (str! "module") := rfl
    simp only [Elem.ser, Elem.read, hl, Res.bind_ok, if_true, Res.bind_eq_ok] at h
    obtain ⟨a, ha, _⟩ := h
    exact ((Fp.Module.settles hv a).1 ha).1
  · have hl : listName v.ser = .ok (str! "zone") := rfl
    simp only [Elem.ser, Elem.read, hl, Res.bind_ok] at h
    have h' : ∃ a, (Zone.de v.ser : Res (Zone F)) = .ok a := by
      cases hz : (Zone.de v.ser : Res (Zone F)) with
      | ok a => exact ⟨a, rfl⟩
      | err x => rw [hz] at h; cases h
      | panic => rw [hz] at h; cases h
      | diverge => rw [hz] at h; cases h
    obtain ⟨a, ha⟩ := h'
    exact Zone.priority_of_ok v a hv ha

/-- What a board that was read is saved as, and what that reads as. -/
theorem Layout.settles [SelfLaws F] {s : Sexp} {l : Layout F} (hr : Layout.de s = .ok l)
    (r : Layout F) :
    Layout.de l.ser = .ok r ↔ (∀ e ∈ l.elements, ReadsBackBoard e) ∧ r = settleBoard l := by
  obtain ⟨h1, h2, h3, h4⟩ := Layout.good_of_de hr
  obtain ⟨i, rfl, hes⟩ := Layout.elements_of_de hr
  have hread : ∀ e ∈ l.elements, ∃ x, isElem x = true ∧ Elem.read x = .ok e := by
    intro e he
    obtain ⟨x, hx, h⟩ := Fp.vec_mem hes e he
    exact ⟨x, (List.mem_filter.1 hx).2, h⟩
  have key : (∀ e ∈ l.elements, ReadsBackBoard e) → Layout.de l.ser = .ok (settleBoard l) := by
    intro h
    rw [← Layout.ser_settle l h]
    refine Layout.de_ser' _ h1 h2 h3 h4 fun e he => ?_
    obtain ⟨e', he', rfl⟩ := List.mem_map.1 he
    obtain ⟨x, hx, hx'⟩ := hread e' he'
    exact Elem.good_settle hx' hx (h e' he')
  constructor
  · intro h
    have hb : ∀ e ∈ l.elements, ReadsBackBoard e := by
      obtain ⟨r', hr', hes'⟩ := Layout.elements_of_de h
      have h6 : r' = [pair (str! "version") (ofI l.version),
        node (str! "host") [.str l.host.tool, .str l.host.build],
        l.general.ser, pair (str! "page") (.str l.page),
        node (str! "layers") (l.layers.map Layer.ser),
        l.setup.ser] ++ l.elements.map Elem.ser := by
        simp only [Layout.ser, node, Sexp.list.injEq, List.cons.injEq, true_and] at hr'
        exact hr'.symm
      have hf : r'.filter isElem = l.elements.map Elem.ser := by
        rw [h6, List.filter_append]
        have h7 : [pair (str! "version") (ofI l.version),
            node (str! "host") [.str l.host.tool, .str l.host.build],
            l.general.ser, pair (str! "page") (.str l.page),
            node (str! "layers") (l.layers.map Layer.ser), l.setup.ser].filter isElem = [] := rfl
        rw [h7, List.nil_append, List.filter_eq_self]
        intro x hx
        obtain ⟨e, he, rfl⟩ := List.mem_map.1 hx
        obtain ⟨y, hy1, hy2⟩ := hread e he
        exact Elem.isElem_ser hy2 hy1
      rw [hf] at hes'
      intro e he
      obtain ⟨x, hx1, hx2⟩ := hread e he
      obtain ⟨a, ha⟩ := Fp.vec_map_each (Elem.read (F := F)) Elem.ser l.elements r.elements hes' e he
      exact Elem.reads_of_ok e a hx2 hx1 ha
    refine ⟨hb, ?_⟩
    rw [key hb] at h
    exact (Res.ok.inj h).symm
  · rintro ⟨h, rfl⟩
    exact key h

end Verif.Lay
