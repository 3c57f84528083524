import Verif.Spec.LayoutGrammar
import Verif.Lemmas.FpGrammar
/-!
# Lemmas: each reader of a board accepts exactly its trees
-/

set_option linter.unusedSimpArgs false
set_option linter.unusedSectionVars false

namespace Verif
open Spec Sx Tree Flt

variable {F : Type} [Flt F]

namespace Lay

theorem heads_cons {α : Type} {P : Sexp → α → Prop} {ps : List (Option Str)} (hp : ∀ x a, P x a → headOf x ∈ ps)
    {x : Sexp} {a : α} (h : P x a) (rest : List Sexp) : Heads ps (x :: rest) := by
  intro y r e
  cases e
  exact hp _ _ h

theorem wordTree_head (x : Sexp) (a : Str) (h : WordTree x a) : headOf x ∈ [none] := by
  obtain rfl := h; simp [headOf]

theorem single_iff {α : Type} {dec : Sexp → Res α} {P : Sexp → α → Prop} (hd : ∀ x a, dec x = .ok a ↔ P x a)
    (n : Str) (e : Sexp) (a : α) : single n dec e = .ok a ↔ Named n P e a := by
  unfold single Named
  constructor
  · intro h
    obtain ⟨i, hi, h⟩ := Res.bind_eq_ok.1 h
    obtain ⟨⟨x, i1⟩, h1, h⟩ := Res.bind_eq_ok.1 h
    obtain ⟨rfl, rfl⟩ := (close_iff ..).1 h
    rw [iter_iff] at hi
    obtain ⟨v, rfl, hv⟩ := (eat_iff ..).1 h1
    exact ⟨v, hi, (hd ..).1 hv⟩
  · rintro ⟨v, rfl, hv⟩
    simp only [(iter_iff ..).2 rfl, Res.bind_ok, eat, (hd ..).2 hv, close_nil]

/-! ## Readers of fixed sequences -/

theorem host_iff (e : Sexp) (v : Host) : Host.de e = .ok v ↔ HostTree e v := by
  unfold Host.de HostTree
  constructor
  · intro h0
    obtain ⟨i0, hi, h0⟩ := Res.bind_eq_ok.1 h0
    obtain ⟨⟨x_tool, i_tool⟩, h_tool, h0⟩ := Res.bind_eq_ok.1 h0
    obtain ⟨⟨x_build, i_build⟩, h_build, h0⟩ := Res.bind_eq_ok.1 h0
    obtain ⟨rfl, rfl⟩ := (close_iff ..).1 h0
    rw [iter_iff] at hi
    obtain ⟨_, rfl, g_tool⟩ := (eat_iff ..).1 h_tool
    rw [string_iff] at g_tool; subst g_tool
    obtain ⟨_, rfl, g_build⟩ := (eat_iff ..).1 h_build
    rw [string_iff] at g_build; subst g_build
    exact hi
  · rintro rfl
    simp only [(iter_iff ..).2 rfl, Res.bind_ok, eat, string_str, close_nil]

theorem host_head (x : Sexp) (a : Host) (h : HostTree x a) : headOf x ∈ [some (str! "host")] := by
  subst h; simp [headOf]

theorem area_iff (e : Sexp) (v : Area F) : Area.de e = .ok v ↔ AreaTree e v := by
  unfold Area.de AreaTree
  constructor
  · intro h0
    obtain ⟨i0, hi, h0⟩ := Res.bind_eq_ok.1 h0
    obtain ⟨⟨x_x1, i_x1⟩, h_x1, h0⟩ := Res.bind_eq_ok.1 h0
    obtain ⟨⟨x_y1, i_y1⟩, h_y1, h0⟩ := Res.bind_eq_ok.1 h0
    obtain ⟨⟨x_x2, i_x2⟩, h_x2, h0⟩ := Res.bind_eq_ok.1 h0
    obtain ⟨⟨x_y2, i_y2⟩, h_y2, h0⟩ := Res.bind_eq_ok.1 h0
    obtain ⟨rfl, rfl⟩ := (close_iff ..).1 h0
    rw [iter_iff] at hi
    obtain ⟨p_x1, rfl, g_x1⟩ := (eat_iff ..).1 h_x1
    obtain ⟨p_y1, rfl, g_y1⟩ := (eat_iff ..).1 h_y1
    obtain ⟨p_x2, rfl, g_x2⟩ := (eat_iff ..).1 h_x2
    obtain ⟨p_y2, rfl, g_y2⟩ := (eat_iff ..).1 h_y2
    exact ⟨p_x1, p_y1, p_x2, p_y2, hi, (num_iff _ _).1 g_x1, (num_iff _ _).1 g_y1, (num_iff _ _).1 g_x2, (num_iff _ _).1 g_y2⟩
  · rintro ⟨p_x1, p_y1, p_x2, p_y2, rfl, g_x1, g_y1, g_x2, g_y2⟩
    simp only [(iter_iff ..).2 rfl, Res.bind_ok, eat, string_str, close_nil, (num_iff _ _).2 g_x1, (num_iff _ _).2 g_y1, (num_iff _ _).2 g_x2, (num_iff _ _).2 g_y2]

theorem area_head (x : Sexp) (a : Area F) (h : AreaTree x a) : headOf x ∈ [some (str! "area")] := by
  obtain ⟨_, _, _, _, rfl, _⟩ := h; simp [headOf]

theorem general_iff (e : Sexp) (v : General F) : General.de e = .ok v ↔ GeneralTree e v := by
  unfold General.de GeneralTree
  constructor
  · intro h0
    obtain ⟨i0, hi, h0⟩ := Res.bind_eq_ok.1 h0
    obtain ⟨⟨x_links, i_links⟩, h_links, h0⟩ := Res.bind_eq_ok.1 h0
    obtain ⟨⟨x_noConnects, i_noConnects⟩, h_noConnects, h0⟩ := Res.bind_eq_ok.1 h0
    obtain ⟨⟨x_area, i_area⟩, h_area, h0⟩ := Res.bind_eq_ok.1 h0
    obtain ⟨⟨x_thickness, i_thickness⟩, h_thickness, h0⟩ := Res.bind_eq_ok.1 h0
    obtain ⟨⟨x_drawings, i_drawings⟩, h_drawings, h0⟩ := Res.bind_eq_ok.1 h0
    obtain ⟨⟨x_tracks, i_tracks⟩, h_tracks, h0⟩ := Res.bind_eq_ok.1 h0
    obtain ⟨⟨x_zones, i_zones⟩, h_zones, h0⟩ := Res.bind_eq_ok.1 h0
    obtain ⟨⟨x_modules, i_modules⟩, h_modules, h0⟩ := Res.bind_eq_ok.1 h0
    obtain ⟨⟨x_nets, i_nets⟩, h_nets, h0⟩ := Res.bind_eq_ok.1 h0
    obtain ⟨rfl, rfl⟩ := (close_iff ..).1 h0
    rw [iter_iff] at hi
    obtain ⟨p_links, rfl, g_links⟩ := (eat_iff ..).1 h_links
    obtain ⟨p_noConnects, rfl, g_noConnects⟩ := (eat_iff ..).1 h_noConnects
    obtain ⟨p_area, rfl, g_area⟩ := (eat_iff ..).1 h_area
    obtain ⟨p_thickness, rfl, g_thickness⟩ := (eat_iff ..).1 h_thickness
    obtain ⟨p_drawings, rfl, g_drawings⟩ := (eat_iff ..).1 h_drawings
    obtain ⟨p_tracks, rfl, g_tracks⟩ := (eat_iff ..).1 h_tracks
    obtain ⟨p_zones, rfl, g_zones⟩ := (eat_iff ..).1 h_zones
    obtain ⟨p_modules, rfl, g_modules⟩ := (eat_iff ..).1 h_modules
    obtain ⟨p_nets, rfl, g_nets⟩ := (eat_iff ..).1 h_nets
    exact ⟨p_links, p_noConnects, p_area, p_thickness, p_drawings, p_tracks, p_zones, p_modules, p_nets, hi, ((inList_iff int_iff (str! "links")) _ _).1 g_links, ((inList_iff int_iff (str! "no_connects")) _ _).1 g_noConnects, (area_iff _ _).1 g_area, ((inList_iff num_iff (str! "thickness")) _ _).1 g_thickness, ((inList_iff int_iff (str! "drawings")) _ _).1 g_drawings, ((inList_iff int_iff (str! "tracks")) _ _).1 g_tracks, ((inList_iff int_iff (str! "zones")) _ _).1 g_zones, ((inList_iff int_iff (str! "modules")) _ _).1 g_modules, ((inList_iff int_iff (str! "nets")) _ _).1 g_nets⟩
  · rintro ⟨p_links, p_noConnects, p_area, p_thickness, p_drawings, p_tracks, p_zones, p_modules, p_nets, rfl, g_links, g_noConnects, g_area, g_thickness, g_drawings, g_tracks, g_zones, g_modules, g_nets⟩
    simp only [(iter_iff ..).2 rfl, Res.bind_ok, eat, string_str, close_nil, ((inList_iff int_iff (str! "links")) _ _).2 g_links, ((inList_iff int_iff (str! "no_connects")) _ _).2 g_noConnects, (area_iff _ _).2 g_area, ((inList_iff num_iff (str! "thickness")) _ _).2 g_thickness, ((inList_iff int_iff (str! "drawings")) _ _).2 g_drawings, ((inList_iff int_iff (str! "tracks")) _ _).2 g_tracks, ((inList_iff int_iff (str! "zones")) _ _).2 g_zones, ((inList_iff int_iff (str! "modules")) _ _).2 g_modules, ((inList_iff int_iff (str! "nets")) _ _).2 g_nets]

theorem general_head (x : Sexp) (a : General F) (h : GeneralTree x a) : headOf x ∈ [some (str! "general")] := by
  obtain ⟨_, _, _, _, _, _, _, _, _, rfl, _⟩ := h; simp [headOf]

theorem grText_iff (e : Sexp) (v : GrText F) : GrText.de e = .ok v ↔ GrTextTree e v := by
  unfold GrText.de GrTextTree
  constructor
  · intro h0
    obtain ⟨i0, hi, h0⟩ := Res.bind_eq_ok.1 h0
    obtain ⟨⟨x_value, i_value⟩, h_value, h0⟩ := Res.bind_eq_ok.1 h0
    obtain ⟨⟨x_at_, i_at_⟩, h_at_, h0⟩ := Res.bind_eq_ok.1 h0
    obtain ⟨⟨x_layer, i_layer⟩, h_layer, h0⟩ := Res.bind_eq_ok.1 h0
    obtain ⟨⟨x_effects, i_effects⟩, h_effects, h0⟩ := Res.bind_eq_ok.1 h0
    obtain ⟨⟨x_tstamp, i_tstamp⟩, h_tstamp, h0⟩ := Res.bind_eq_ok.1 h0
    obtain ⟨rfl, rfl⟩ := (close_iff ..).1 h0
    rw [iter_iff] at hi
    obtain ⟨_, rfl, g_value⟩ := (eat_iff ..).1 h_value
    rw [string_iff] at g_value; subst g_value
    obtain ⟨p_at_, rfl, g_at_⟩ := (eat_iff ..).1 h_at_
    obtain ⟨p_layer, rfl, g_layer⟩ := (eat_iff ..).1 h_layer
    obtain ⟨p_effects, rfl, g_effects⟩ := (eat_iff ..).1 h_effects
    obtain ⟨p_tstamp, rfl, g_tstamp⟩ := maybe_split (inList_iff Fp.word_iff (str! "tstamp")) h_tstamp
    rw [List.append_nil] at hi
    exact ⟨p_at_, p_layer, p_effects, p_tstamp, hi, (Fp.at_iff _ _).1 g_at_, (Fp.layer_iff _ _).1 g_layer, (Fp.effects_iff _ _).1 g_effects, g_tstamp⟩
  · rintro ⟨p_at_, p_layer, p_effects, p_tstamp, rfl, g_at_, g_layer, g_effects, g_tstamp⟩
    have e_tstamp := maybe_take (inList_iff Fp.word_iff (str! "tstamp")) (inList_calm string_calm _) g_tstamp (free_nil _)
    rw [List.append_nil] at e_tstamp
    simp only [(iter_iff ..).2 rfl, Res.bind_ok, eat, string_str, close_nil, (Fp.at_iff _ _).2 g_at_, (Fp.layer_iff _ _).2 g_layer, (Fp.effects_iff _ _).2 g_effects, e_tstamp]

theorem grText_head (x : Sexp) (a : GrText F) (h : GrTextTree x a) : headOf x ∈ [some (str! "gr_text")] := by
  obtain ⟨_, _, _, _, rfl, _⟩ := h; simp [headOf]

theorem grLine_iff (e : Sexp) (v : GrLine F) : GrLine.de e = .ok v ↔ GrLineTree e v := by
  unfold GrLine.de GrLineTree
  constructor
  · intro h0
    obtain ⟨i0, hi, h0⟩ := Res.bind_eq_ok.1 h0
    obtain ⟨⟨x_start, i_start⟩, h_start, h0⟩ := Res.bind_eq_ok.1 h0
    obtain ⟨⟨x_end_, i_end_⟩, h_end_, h0⟩ := Res.bind_eq_ok.1 h0
    obtain ⟨⟨x_angle, i_angle⟩, h_angle, h0⟩ := Res.bind_eq_ok.1 h0
    obtain ⟨⟨x_layer, i_layer⟩, h_layer, h0⟩ := Res.bind_eq_ok.1 h0
    obtain ⟨⟨x_width, i_width⟩, h_width, h0⟩ := Res.bind_eq_ok.1 h0
    obtain ⟨⟨x_tstamp, i_tstamp⟩, h_tstamp, h0⟩ := Res.bind_eq_ok.1 h0
    obtain ⟨rfl, rfl⟩ := (close_iff ..).1 h0
    rw [iter_iff] at hi
    obtain ⟨p_start, rfl, g_start⟩ := (eat_iff ..).1 h_start
    obtain ⟨p_end_, rfl, g_end_⟩ := (eat_iff ..).1 h_end_
    obtain ⟨p_angle, rfl, g_angle⟩ := maybe_split (inList_iff num_iff (str! "angle")) h_angle
    obtain ⟨p_layer, rfl, g_layer⟩ := (eat_iff ..).1 h_layer
    obtain ⟨p_width, rfl, g_width⟩ := maybe_split (inList_iff num_iff (str! "width")) h_width
    obtain ⟨p_tstamp, rfl, g_tstamp⟩ := maybe_split (inList_iff Fp.word_iff (str! "tstamp")) h_tstamp
    rw [List.append_nil] at hi
    exact ⟨p_start, p_end_, p_angle, p_layer, p_width, p_tstamp, x_angle, x_width, hi, (Fp.xy_iff _ _).1 g_start, (Fp.xy_iff _ _).1 g_end_, g_angle, (Fp.layer_iff _ _).1 g_layer, g_width, g_tstamp, rfl, rfl⟩
  · rintro ⟨p_start, p_end_, p_angle, p_layer, p_width, p_tstamp, o_angle, o_width, rfl, g_start, g_end_, g_angle, g_layer, g_width, g_tstamp, d_angle, d_width⟩
    have e_tstamp := maybe_take (inList_iff Fp.word_iff (str! "tstamp")) (inList_calm string_calm _) g_tstamp (free_nil _)
    rw [List.append_nil] at e_tstamp
    have q_tstamp := heads_last (named_head WordTree (str! "tstamp")) g_tstamp
    have e_width := maybe_take (inList_iff num_iff (str! "width")) (inList_calm flt_calm _) g_width (free_of_heads (named_head NumTree (str! "width")) (q_tstamp) (by decide))
    have q_layer := heads_cons Fp.layer_head g_layer
    have e_angle := maybe_take (inList_iff num_iff (str! "angle")) (inList_calm flt_calm _) g_angle (free_of_heads (named_head NumTree (str! "angle")) (q_layer ((p_width ++ p_tstamp))) (by decide))
    simp only [(iter_iff ..).2 rfl, Res.bind_ok, eat, string_str, close_nil, (Fp.xy_iff _ _).2 g_start, (Fp.xy_iff _ _).2 g_end_, e_angle, (Fp.layer_iff _ _).2 g_layer, e_width, e_tstamp]
    obtain ⟨z_start, z_end_, z_angle, z_layer, z_width, z_tstamp⟩ := v
    simp only at d_angle d_width
    subst d_angle d_width
    rfl

theorem grLine_head (x : Sexp) (a : GrLine F) (h : GrLineTree x a) : headOf x ∈ [some (str! "gr_line")] := by
  obtain ⟨_, _, _, _, _, _, _, _, rfl, _⟩ := h; simp [headOf]

theorem grArc_iff (e : Sexp) (v : GrArc F) : GrArc.de e = .ok v ↔ GrArcTree e v := by
  unfold GrArc.de GrArcTree
  constructor
  · intro h0
    obtain ⟨i0, hi, h0⟩ := Res.bind_eq_ok.1 h0
    obtain ⟨⟨x_start, i_start⟩, h_start, h0⟩ := Res.bind_eq_ok.1 h0
    obtain ⟨⟨x_end_, i_end_⟩, h_end_, h0⟩ := Res.bind_eq_ok.1 h0
    obtain ⟨⟨x_angle, i_angle⟩, h_angle, h0⟩ := Res.bind_eq_ok.1 h0
    obtain ⟨⟨x_layer, i_layer⟩, h_layer, h0⟩ := Res.bind_eq_ok.1 h0
    obtain ⟨⟨x_width, i_width⟩, h_width, h0⟩ := Res.bind_eq_ok.1 h0
    obtain ⟨⟨x_tstamp, i_tstamp⟩, h_tstamp, h0⟩ := Res.bind_eq_ok.1 h0
    obtain ⟨rfl, rfl⟩ := (close_iff ..).1 h0
    rw [iter_iff] at hi
    obtain ⟨p_start, rfl, g_start⟩ := (eat_iff ..).1 h_start
    obtain ⟨p_end_, rfl, g_end_⟩ := (eat_iff ..).1 h_end_
    obtain ⟨p_angle, rfl, g_angle⟩ := (eat_iff ..).1 h_angle
    obtain ⟨p_layer, rfl, g_layer⟩ := (eat_iff ..).1 h_layer
    obtain ⟨p_width, rfl, g_width⟩ := maybe_split (inList_iff num_iff (str! "width")) h_width
    obtain ⟨p_tstamp, rfl, g_tstamp⟩ := maybe_split (inList_iff Fp.word_iff (str! "tstamp")) h_tstamp
    rw [List.append_nil] at hi
    exact ⟨p_start, p_end_, p_angle, p_layer, p_width, p_tstamp, x_width, hi, (Fp.xy_iff _ _).1 g_start, (Fp.xy_iff _ _).1 g_end_, ((inList_iff num_iff (str! "angle")) _ _).1 g_angle, (Fp.layer_iff _ _).1 g_layer, g_width, g_tstamp, rfl⟩
  · rintro ⟨p_start, p_end_, p_angle, p_layer, p_width, p_tstamp, o_width, rfl, g_start, g_end_, g_angle, g_layer, g_width, g_tstamp, d_width⟩
    have e_tstamp := maybe_take (inList_iff Fp.word_iff (str! "tstamp")) (inList_calm string_calm _) g_tstamp (free_nil _)
    rw [List.append_nil] at e_tstamp
    have q_tstamp := heads_last (named_head WordTree (str! "tstamp")) g_tstamp
    have e_width := maybe_take (inList_iff num_iff (str! "width")) (inList_calm flt_calm _) g_width (free_of_heads (named_head NumTree (str! "width")) (q_tstamp) (by decide))
    simp only [(iter_iff ..).2 rfl, Res.bind_ok, eat, string_str, close_nil, (Fp.xy_iff _ _).2 g_start, (Fp.xy_iff _ _).2 g_end_, ((inList_iff num_iff (str! "angle")) _ _).2 g_angle, (Fp.layer_iff _ _).2 g_layer, e_width, e_tstamp]
    obtain ⟨z_start, z_end_, z_angle, z_layer, z_width, z_tstamp⟩ := v
    simp only at d_width
    subst d_width
    rfl

theorem grArc_head (x : Sexp) (a : GrArc F) (h : GrArcTree x a) : headOf x ∈ [some (str! "gr_arc")] := by
  obtain ⟨_, _, _, _, _, _, _, rfl, _⟩ := h; simp [headOf]

theorem grCircle_iff (e : Sexp) (v : GrCircle F) : GrCircle.de e = .ok v ↔ GrCircleTree e v := by
  unfold GrCircle.de GrCircleTree
  constructor
  · intro h0
    obtain ⟨i0, hi, h0⟩ := Res.bind_eq_ok.1 h0
    obtain ⟨⟨x_center, i_center⟩, h_center, h0⟩ := Res.bind_eq_ok.1 h0
    obtain ⟨⟨x_end_, i_end_⟩, h_end_, h0⟩ := Res.bind_eq_ok.1 h0
    obtain ⟨⟨x_layer, i_layer⟩, h_layer, h0⟩ := Res.bind_eq_ok.1 h0
    obtain ⟨⟨x_width, i_width⟩, h_width, h0⟩ := Res.bind_eq_ok.1 h0
    obtain ⟨⟨x_tstamp, i_tstamp⟩, h_tstamp, h0⟩ := Res.bind_eq_ok.1 h0
    obtain ⟨rfl, rfl⟩ := (close_iff ..).1 h0
    rw [iter_iff] at hi
    obtain ⟨p_center, rfl, g_center⟩ := (eat_iff ..).1 h_center
    obtain ⟨p_end_, rfl, g_end_⟩ := (eat_iff ..).1 h_end_
    obtain ⟨p_layer, rfl, g_layer⟩ := (eat_iff ..).1 h_layer
    obtain ⟨p_width, rfl, g_width⟩ := maybe_split (inList_iff num_iff (str! "width")) h_width
    obtain ⟨p_tstamp, rfl, g_tstamp⟩ := maybe_split (inList_iff Fp.word_iff (str! "tstamp")) h_tstamp
    rw [List.append_nil] at hi
    exact ⟨p_center, p_end_, p_layer, p_width, p_tstamp, x_width, hi, (Fp.xy_iff _ _).1 g_center, (Fp.xy_iff _ _).1 g_end_, (Fp.layer_iff _ _).1 g_layer, g_width, g_tstamp, rfl⟩
  · rintro ⟨p_center, p_end_, p_layer, p_width, p_tstamp, o_width, rfl, g_center, g_end_, g_layer, g_width, g_tstamp, d_width⟩
    have e_tstamp := maybe_take (inList_iff Fp.word_iff (str! "tstamp")) (inList_calm string_calm _) g_tstamp (free_nil _)
    rw [List.append_nil] at e_tstamp
    have q_tstamp := heads_last (named_head WordTree (str! "tstamp")) g_tstamp
    have e_width := maybe_take (inList_iff num_iff (str! "width")) (inList_calm flt_calm _) g_width (free_of_heads (named_head NumTree (str! "width")) (q_tstamp) (by decide))
    simp only [(iter_iff ..).2 rfl, Res.bind_ok, eat, string_str, close_nil, (Fp.xy_iff _ _).2 g_center, (Fp.xy_iff _ _).2 g_end_, (Fp.layer_iff _ _).2 g_layer, e_width, e_tstamp]
    obtain ⟨z_center, z_end_, z_layer, z_width, z_tstamp⟩ := v
    simp only at d_width
    subst d_width
    rfl

theorem grCircle_head (x : Sexp) (a : GrCircle F) (h : GrCircleTree x a) : headOf x ∈ [some (str! "gr_circle")] := by
  obtain ⟨_, _, _, _, _, _, rfl, _⟩ := h; simp [headOf]

theorem dimension_iff (e : Sexp) (v : Dimension F) : Dimension.de e = .ok v ↔ DimensionTree e v := by
  unfold Dimension.de DimensionTree
  constructor
  · intro h0
    obtain ⟨i0, hi, h0⟩ := Res.bind_eq_ok.1 h0
    obtain ⟨⟨x_name, i_name⟩, h_name, h0⟩ := Res.bind_eq_ok.1 h0
    obtain ⟨⟨x_width, i_width⟩, h_width, h0⟩ := Res.bind_eq_ok.1 h0
    obtain ⟨⟨x_layer, i_layer⟩, h_layer, h0⟩ := Res.bind_eq_ok.1 h0
    obtain ⟨⟨x_tstamp, i_tstamp⟩, h_tstamp, h0⟩ := Res.bind_eq_ok.1 h0
    obtain ⟨⟨x_text, i_text⟩, h_text, h0⟩ := Res.bind_eq_ok.1 h0
    obtain ⟨⟨x_feature1, i_feature1⟩, h_feature1, h0⟩ := Res.bind_eq_ok.1 h0
    obtain ⟨⟨x_feature2, i_feature2⟩, h_feature2, h0⟩ := Res.bind_eq_ok.1 h0
    obtain ⟨⟨x_crossbar, i_crossbar⟩, h_crossbar, h0⟩ := Res.bind_eq_ok.1 h0
    obtain ⟨⟨x_arrow1a, i_arrow1a⟩, h_arrow1a, h0⟩ := Res.bind_eq_ok.1 h0
    obtain ⟨⟨x_arrow1b, i_arrow1b⟩, h_arrow1b, h0⟩ := Res.bind_eq_ok.1 h0
    obtain ⟨⟨x_arrow2a, i_arrow2a⟩, h_arrow2a, h0⟩ := Res.bind_eq_ok.1 h0
    obtain ⟨⟨x_arrow2b, i_arrow2b⟩, h_arrow2b, h0⟩ := Res.bind_eq_ok.1 h0
    obtain ⟨rfl, rfl⟩ := (close_iff ..).1 h0
    rw [iter_iff] at hi
    obtain ⟨_, rfl, g_name⟩ := (eat_iff ..).1 h_name
    rw [string_iff] at g_name; subst g_name
    obtain ⟨p_width, rfl, g_width⟩ := (eat_iff ..).1 h_width
    obtain ⟨p_layer, rfl, g_layer⟩ := (eat_iff ..).1 h_layer
    obtain ⟨p_tstamp, rfl, g_tstamp⟩ := maybe_split (inList_iff Fp.word_iff (str! "tstamp")) h_tstamp
    obtain ⟨p_text, rfl, g_text⟩ := (eat_iff ..).1 h_text
    obtain ⟨p_feature1, rfl, g_feature1⟩ := (eat_iff ..).1 h_feature1
    obtain ⟨p_feature2, rfl, g_feature2⟩ := (eat_iff ..).1 h_feature2
    obtain ⟨p_crossbar, rfl, g_crossbar⟩ := (eat_iff ..).1 h_crossbar
    obtain ⟨p_arrow1a, rfl, g_arrow1a⟩ := (eat_iff ..).1 h_arrow1a
    obtain ⟨p_arrow1b, rfl, g_arrow1b⟩ := (eat_iff ..).1 h_arrow1b
    obtain ⟨p_arrow2a, rfl, g_arrow2a⟩ := (eat_iff ..).1 h_arrow2a
    obtain ⟨p_arrow2b, rfl, g_arrow2b⟩ := (eat_iff ..).1 h_arrow2b
    exact ⟨p_width, p_layer, p_tstamp, p_text, p_feature1, p_feature2, p_crossbar, p_arrow1a, p_arrow1b, p_arrow2a, p_arrow2b, hi, ((inList_iff num_iff (str! "width")) _ _).1 g_width, (Fp.layer_iff _ _).1 g_layer, g_tstamp, (grText_iff _ _).1 g_text, ((inList_iff Fp.pts_iff (str! "feature1")) _ _).1 g_feature1, ((inList_iff Fp.pts_iff (str! "feature2")) _ _).1 g_feature2, ((inList_iff Fp.pts_iff (str! "crossbar")) _ _).1 g_crossbar, ((inList_iff Fp.pts_iff (str! "arrow1a")) _ _).1 g_arrow1a, ((inList_iff Fp.pts_iff (str! "arrow1b")) _ _).1 g_arrow1b, ((inList_iff Fp.pts_iff (str! "arrow2a")) _ _).1 g_arrow2a, ((inList_iff Fp.pts_iff (str! "arrow2b")) _ _).1 g_arrow2b⟩
  · rintro ⟨p_width, p_layer, p_tstamp, p_text, p_feature1, p_feature2, p_crossbar, p_arrow1a, p_arrow1b, p_arrow2a, p_arrow2b, rfl, g_width, g_layer, g_tstamp, g_text, g_feature1, g_feature2, g_crossbar, g_arrow1a, g_arrow1b, g_arrow2a, g_arrow2b⟩
    have q_text := heads_cons grText_head g_text
    have e_tstamp := maybe_take (inList_iff Fp.word_iff (str! "tstamp")) (inList_calm string_calm _) g_tstamp (free_of_heads (named_head WordTree (str! "tstamp")) (q_text (p_feature1 :: p_feature2 :: p_crossbar :: p_arrow1a :: p_arrow1b :: p_arrow2a :: p_arrow2b :: [])) (by decide))
    simp only [(iter_iff ..).2 rfl, Res.bind_ok, eat, string_str, close_nil, ((inList_iff num_iff (str! "width")) _ _).2 g_width, (Fp.layer_iff _ _).2 g_layer, e_tstamp, (grText_iff _ _).2 g_text, ((inList_iff Fp.pts_iff (str! "feature1")) _ _).2 g_feature1, ((inList_iff Fp.pts_iff (str! "feature2")) _ _).2 g_feature2, ((inList_iff Fp.pts_iff (str! "crossbar")) _ _).2 g_crossbar, ((inList_iff Fp.pts_iff (str! "arrow1a")) _ _).2 g_arrow1a, ((inList_iff Fp.pts_iff (str! "arrow1b")) _ _).2 g_arrow1b, ((inList_iff Fp.pts_iff (str! "arrow2a")) _ _).2 g_arrow2a, ((inList_iff Fp.pts_iff (str! "arrow2b")) _ _).2 g_arrow2b]

theorem dimension_head (x : Sexp) (a : Dimension F) (h : DimensionTree x a) : headOf x ∈ [some (str! "dimension")] := by
  obtain ⟨_, _, _, _, _, _, _, _, _, _, _, rfl, _⟩ := h; simp [headOf]

theorem hatch_iff (e : Sexp) (v : Hatch F) : Hatch.de e = .ok v ↔ HatchTree e v := by
  unfold Hatch.de HatchTree
  constructor
  · intro h0
    obtain ⟨i0, hi, h0⟩ := Res.bind_eq_ok.1 h0
    obtain ⟨⟨x_style, i_style⟩, h_style, h0⟩ := Res.bind_eq_ok.1 h0
    obtain ⟨⟨x_pitch, i_pitch⟩, h_pitch, h0⟩ := Res.bind_eq_ok.1 h0
    obtain ⟨rfl, rfl⟩ := (close_iff ..).1 h0
    rw [iter_iff] at hi
    obtain ⟨_, rfl, g_style⟩ := (eat_iff ..).1 h_style
    rw [string_iff] at g_style; subst g_style
    obtain ⟨p_pitch, rfl, g_pitch⟩ := (eat_iff ..).1 h_pitch
    exact ⟨p_pitch, hi, (num_iff _ _).1 g_pitch⟩
  · rintro ⟨p_pitch, rfl, g_pitch⟩
    simp only [(iter_iff ..).2 rfl, Res.bind_ok, eat, string_str, close_nil, (num_iff _ _).2 g_pitch]

theorem hatch_head (x : Sexp) (a : Hatch F) (h : HatchTree x a) : headOf x ∈ [some (str! "hatch")] := by
  obtain ⟨_, rfl, _⟩ := h; simp [headOf]

theorem connectPads_iff (e : Sexp) (v : ConnectPads F) : ConnectPads.de e = .ok v ↔ ConnectPadsTree e v := by
  unfold ConnectPads.de ConnectPadsTree
  constructor
  · intro h0
    obtain ⟨i0, hi, h0⟩ := Res.bind_eq_ok.1 h0
    obtain ⟨⟨x_connection, i_connection⟩, h_connection, h0⟩ := Res.bind_eq_ok.1 h0
    obtain ⟨⟨x_clearance, i_clearance⟩, h_clearance, h0⟩ := Res.bind_eq_ok.1 h0
    obtain ⟨rfl, rfl⟩ := (close_iff ..).1 h0
    rw [iter_iff] at hi
    obtain ⟨p_connection, rfl, g_connection⟩ := maybe_split Fp.word_iff h_connection
    obtain ⟨p_clearance, rfl, g_clearance⟩ := (eat_iff ..).1 h_clearance
    exact ⟨p_connection, p_clearance, hi, g_connection, ((inList_iff num_iff (str! "clearance")) _ _).1 g_clearance⟩
  · rintro ⟨p_connection, p_clearance, rfl, g_connection, g_clearance⟩
    have q_clearance := heads_cons (named_head NumTree (str! "clearance")) g_clearance
    have e_connection := maybe_take Fp.word_iff string_calm g_connection (free_of_heads wordTree_head (q_clearance ([])) (by decide))
    simp only [(iter_iff ..).2 rfl, Res.bind_ok, eat, string_str, close_nil, e_connection, ((inList_iff num_iff (str! "clearance")) _ _).2 g_clearance]

theorem connectPads_head (x : Sexp) (a : ConnectPads F) (h : ConnectPadsTree x a) : headOf x ∈ [some (str! "connect_pads")] := by
  obtain ⟨_, _, rfl, _⟩ := h; simp [headOf]

theorem fill_iff (e : Sexp) (v : Fill F) : Fill.de e = .ok v ↔ FillTree e v := by
  unfold Fill.de FillTree
  constructor
  · intro h0
    obtain ⟨i0, hi, h0⟩ := Res.bind_eq_ok.1 h0
    obtain ⟨⟨x_filled, i_filled⟩, h_filled, h0⟩ := Res.bind_eq_ok.1 h0
    obtain ⟨⟨x_segment, i_segment⟩, h_segment, h0⟩ := Res.bind_eq_ok.1 h0
    obtain ⟨⟨x_arcSegments, i_arcSegments⟩, h_arcSegments, h0⟩ := Res.bind_eq_ok.1 h0
    obtain ⟨⟨x_thermalGap, i_thermalGap⟩, h_thermalGap, h0⟩ := Res.bind_eq_ok.1 h0
    obtain ⟨⟨x_thermalBridgeWidth, i_thermalBridgeWidth⟩, h_thermalBridgeWidth, h0⟩ := Res.bind_eq_ok.1 h0
    obtain ⟨⟨x_smoothing, i_smoothing⟩, h_smoothing, h0⟩ := Res.bind_eq_ok.1 h0
    obtain ⟨⟨x_cornerRadius, i_cornerRadius⟩, h_cornerRadius, h0⟩ := Res.bind_eq_ok.1 h0
    obtain ⟨rfl, rfl⟩ := (close_iff ..).1 h0
    rw [iter_iff] at hi
    obtain ⟨p_filled, rfl, g_filled⟩ := maybe_split (literal_iff (str! "yes")) h_filled
    obtain ⟨p_segment, rfl, g_segment⟩ := maybe_split (inList_iff Fp.word_iff (str! "mode")) h_segment
    obtain ⟨p_arcSegments, rfl, g_arcSegments⟩ := (eat_iff ..).1 h_arcSegments
    obtain ⟨p_thermalGap, rfl, g_thermalGap⟩ := (eat_iff ..).1 h_thermalGap
    obtain ⟨p_thermalBridgeWidth, rfl, g_thermalBridgeWidth⟩ := (eat_iff ..).1 h_thermalBridgeWidth
    obtain ⟨p_smoothing, rfl, g_smoothing⟩ := maybe_split (inList_iff Fp.word_iff (str! "smoothing")) h_smoothing
    obtain ⟨p_cornerRadius, rfl, g_cornerRadius⟩ := maybe_split (inList_iff num_iff (str! "radius")) h_cornerRadius
    rw [List.append_nil] at hi
    exact ⟨p_filled, p_segment, p_arcSegments, p_thermalGap, p_thermalBridgeWidth, p_smoothing, p_cornerRadius, x_segment, x_cornerRadius, hi, (opt_word ..).2 ⟨_, g_filled, rfl⟩, g_segment, ((inList_iff int_iff (str! "arc_segments")) _ _).1 g_arcSegments, ((inList_iff num_iff (str! "thermal_gap")) _ _).1 g_thermalGap, ((inList_iff num_iff (str! "thermal_bridge_width")) _ _).1 g_thermalBridgeWidth, g_smoothing, g_cornerRadius, rfl, rfl⟩
  · rintro ⟨p_filled, p_segment, p_arcSegments, p_thermalGap, p_thermalBridgeWidth, p_smoothing, p_cornerRadius, o_segment, o_cornerRadius, rfl, g_filled, g_segment, g_arcSegments, g_thermalGap, g_thermalBridgeWidth, g_smoothing, g_cornerRadius, d_segment, d_cornerRadius⟩
    have e_cornerRadius := maybe_take (inList_iff num_iff (str! "radius")) (inList_calm flt_calm _) g_cornerRadius (free_nil _)
    rw [List.append_nil] at e_cornerRadius
    have q_cornerRadius := heads_last (named_head NumTree (str! "radius")) g_cornerRadius
    have e_smoothing := maybe_take (inList_iff Fp.word_iff (str! "smoothing")) (inList_calm string_calm _) g_smoothing (free_of_heads (named_head WordTree (str! "smoothing")) (q_cornerRadius) (by decide))
    have q_arcSegments := heads_cons (named_head IntTree (str! "arc_segments")) g_arcSegments
    have e_segment := maybe_take (inList_iff Fp.word_iff (str! "mode")) (inList_calm string_calm _) g_segment (free_of_heads (named_head WordTree (str! "mode")) (q_arcSegments (p_thermalGap :: p_thermalBridgeWidth :: (p_smoothing ++ p_cornerRadius))) (by decide))
    have q_segment := heads_opt (named_head WordTree (str! "mode")) g_segment (q_arcSegments (p_thermalGap :: p_thermalBridgeWidth :: (p_smoothing ++ p_cornerRadius)))
    obtain ⟨o_filled, g_filled, d_filled⟩ := (opt_word ..).1 g_filled
    have e_filled := maybe_take (literal_iff (str! "yes")) (literal_calm _) g_filled (free_of_heads (word_head (str! "yes")) (q_segment) (by decide))
    simp only [(iter_iff ..).2 rfl, Res.bind_ok, eat, string_str, close_nil, e_filled, e_segment, ((inList_iff int_iff (str! "arc_segments")) _ _).2 g_arcSegments, ((inList_iff num_iff (str! "thermal_gap")) _ _).2 g_thermalGap, ((inList_iff num_iff (str! "thermal_bridge_width")) _ _).2 g_thermalBridgeWidth, e_smoothing, e_cornerRadius]
    obtain ⟨z_filled, z_segment, z_arcSegments, z_thermalGap, z_thermalBridgeWidth, z_smoothing, z_cornerRadius⟩ := v
    simp only at d_filled d_segment d_cornerRadius
    subst d_filled d_segment d_cornerRadius
    rfl

theorem fill_head (x : Sexp) (a : Fill F) (h : FillTree x a) : headOf x ∈ [some (str! "fill")] := by
  obtain ⟨_, _, _, _, _, _, _, _, _, rfl, _⟩ := h; simp [headOf]

theorem segment_iff (e : Sexp) (v : Segment F) : Segment.de e = .ok v ↔ SegmentTree e v := by
  unfold Segment.de SegmentTree
  constructor
  · intro h0
    obtain ⟨i0, hi, h0⟩ := Res.bind_eq_ok.1 h0
    obtain ⟨⟨x_start, i_start⟩, h_start, h0⟩ := Res.bind_eq_ok.1 h0
    obtain ⟨⟨x_end_, i_end_⟩, h_end_, h0⟩ := Res.bind_eq_ok.1 h0
    obtain ⟨⟨x_width, i_width⟩, h_width, h0⟩ := Res.bind_eq_ok.1 h0
    obtain ⟨⟨x_layer, i_layer⟩, h_layer, h0⟩ := Res.bind_eq_ok.1 h0
    obtain ⟨⟨x_net, i_net⟩, h_net, h0⟩ := Res.bind_eq_ok.1 h0
    obtain ⟨⟨x_tstamp, i_tstamp⟩, h_tstamp, h0⟩ := Res.bind_eq_ok.1 h0
    obtain ⟨⟨x_status, i_status⟩, h_status, h0⟩ := Res.bind_eq_ok.1 h0
    obtain ⟨rfl, rfl⟩ := (close_iff ..).1 h0
    rw [iter_iff] at hi
    obtain ⟨p_start, rfl, g_start⟩ := (eat_iff ..).1 h_start
    obtain ⟨p_end_, rfl, g_end_⟩ := (eat_iff ..).1 h_end_
    obtain ⟨p_width, rfl, g_width⟩ := (eat_iff ..).1 h_width
    obtain ⟨p_layer, rfl, g_layer⟩ := (eat_iff ..).1 h_layer
    obtain ⟨p_net, rfl, g_net⟩ := (eat_iff ..).1 h_net
    obtain ⟨p_tstamp, rfl, g_tstamp⟩ := maybe_split (inList_iff Fp.word_iff (str! "tstamp")) h_tstamp
    obtain ⟨p_status, rfl, g_status⟩ := maybe_split (inList_iff Fp.word_iff (str! "status")) h_status
    rw [List.append_nil] at hi
    exact ⟨p_start, p_end_, p_width, p_layer, p_net, p_tstamp, p_status, hi, (Fp.xy_iff _ _).1 g_start, (Fp.xy_iff _ _).1 g_end_, ((inList_iff num_iff (str! "width")) _ _).1 g_width, (Fp.layer_iff _ _).1 g_layer, ((inList_iff int_iff (str! "net")) _ _).1 g_net, g_tstamp, g_status⟩
  · rintro ⟨p_start, p_end_, p_width, p_layer, p_net, p_tstamp, p_status, rfl, g_start, g_end_, g_width, g_layer, g_net, g_tstamp, g_status⟩
    have e_status := maybe_take (inList_iff Fp.word_iff (str! "status")) (inList_calm string_calm _) g_status (free_nil _)
    rw [List.append_nil] at e_status
    have q_status := heads_last (named_head WordTree (str! "status")) g_status
    have e_tstamp := maybe_take (inList_iff Fp.word_iff (str! "tstamp")) (inList_calm string_calm _) g_tstamp (free_of_heads (named_head WordTree (str! "tstamp")) (q_status) (by decide))
    simp only [(iter_iff ..).2 rfl, Res.bind_ok, eat, string_str, close_nil, (Fp.xy_iff _ _).2 g_start, (Fp.xy_iff _ _).2 g_end_, ((inList_iff num_iff (str! "width")) _ _).2 g_width, (Fp.layer_iff _ _).2 g_layer, ((inList_iff int_iff (str! "net")) _ _).2 g_net, e_tstamp, e_status]

theorem segment_head (x : Sexp) (a : Segment F) (h : SegmentTree x a) : headOf x ∈ [some (str! "segment")] := by
  obtain ⟨_, _, _, _, _, _, _, rfl, _⟩ := h; simp [headOf]

end Lay
end Verif
