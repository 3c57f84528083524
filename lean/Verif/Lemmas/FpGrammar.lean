import Verif.Lemmas.TreeParts
/-!
# Lemmas: each reader of a footprint accepts exactly its trees
-/

set_option linter.unusedSimpArgs false

namespace Verif
open Spec Sx Tree Flt

variable {F : Type} [Flt F]

namespace Fp

/-! ## Layers -/

theorem layerSide_iff (w : Str) (o : LayerSide) : LayerSide.fromString w = .ok o ↔ (w, o) ∈ layerSides := by
  unfold LayerSide.fromString layerSides
  constructor
  · intro h
    repeat (split at h; (rename_i e; subst e; cases h; simp))
    cases h
  · intro h
    simp only [List.mem_cons, Prod.mk.injEq, List.not_mem_nil, or_false] at h
    rcases h with ⟨rfl, rfl⟩ | ⟨rfl, rfl⟩ | ⟨rfl, rfl⟩ | ⟨rfl, rfl⟩ | ⟨rfl, rfl⟩ | ⟨rfl, rfl⟩ | ⟨rfl, rfl⟩ | ⟨rfl, rfl⟩ |
      ⟨rfl, rfl⟩ | ⟨rfl, rfl⟩ <;> rfl

theorem layerType_iff (w : Str) (o : LayerType) : LayerType.fromString w = o ↔ LayerTypeWord w o := by
  unfold LayerType.fromString LayerTypeWord layerTypes
  constructor
  · intro h
    repeat (split at h; (rename_i e; subst e; subst h; exact .inl (by simp)))
    subst h
    refine .inr ⟨rfl, ?_⟩
    simp only [List.map_cons, List.map_nil, List.mem_cons, List.not_mem_nil, or_false, not_or]
    refine ⟨?_, ?_, ?_, ?_, ?_, ?_, ?_, ?_, ?_, ?_⟩ <;> assumption
  · rintro (h | ⟨rfl, h⟩)
    · simp only [List.mem_cons, Prod.mk.injEq, List.not_mem_nil, or_false] at h
      rcases h with ⟨rfl, rfl⟩ | ⟨rfl, rfl⟩ | ⟨rfl, rfl⟩ | ⟨rfl, rfl⟩ | ⟨rfl, rfl⟩ | ⟨rfl, rfl⟩ | ⟨rfl, rfl⟩ | ⟨rfl, rfl⟩ |
        ⟨rfl, rfl⟩ | ⟨rfl, rfl⟩ <;> rfl
    · simp only [List.map_cons, List.map_nil, List.mem_cons, List.not_mem_nil, or_false, not_or] at h
      obtain ⟨h1, h2, h3, h4, h5, h6, h7, h8, h9, h10⟩ := h
      rw [if_neg h1, if_neg h2, if_neg h3, if_neg h4, if_neg h5, if_neg h6, if_neg h7, if_neg h8, if_neg h9, if_neg h10]

theorem dotFree {a : Str} : (∀ c ∈ a, (c == '.') = false) ↔ '.' ∉ a := by
  constructor
  · intro h hm; have := h _ hm; simp at this
  · intro h c hc
    rw [beq_eq_false_iff_ne]
    rintro rfl
    exact h hc

theorem splitPred_two (s : Str) : ∃ a, '.' ∉ a ∧ ((s = a ∧ splitPred (· == '.') s = [a]) ∨
    ∃ r, s = a ++ '.' :: r ∧ splitPred (· == '.') s = a :: splitPred (· == '.') r) := by
  by_cases h : '.' ∈ s
  · have : ∃ a r, s = a ++ '.' :: r ∧ '.' ∉ a := by
      induction s with
      | nil => cases h
      | cons c s ih =>
        by_cases hc : c = '.'
        · subst hc; exact ⟨[], s, rfl, by simp⟩
        · have hm : '.' ∈ s := by
            rcases List.mem_cons.1 h with h | h
            · exact absurd h.symm hc
            · exact h
          obtain ⟨a', r', rfl, h'⟩ := ih hm
          exact ⟨c :: a', r', rfl, by simp [h', Ne.symm hc]⟩
    obtain ⟨a, r, rfl, ha⟩ := this
    exact ⟨a, ha, .inr ⟨r, rfl, splitPred_cons _ _ _ _ (dotFree.2 ha) (by simp)⟩⟩
  · exact ⟨s, h, .inl ⟨rfl, splitPred_none _ _ (dotFree.2 h)⟩⟩

theorem layerWord_iff (s : Str) (l : Layer) : Layer.fromString s = .ok l ↔ LayerWord s l := by
  unfold Layer.fromString LayerWord
  obtain ⟨a, ha, ⟨rfl, hs⟩ | ⟨r, rfl, hs⟩⟩ := splitPred_two s
  · rw [hs]
    constructor
    · intro h
      cases h
      exact .inr ⟨rfl, s, ha, (layerType_iff ..).1 rfl, .inl rfl⟩
    · rintro (⟨x, y, rfl, hx, hy, _⟩ | ⟨h1, x, hx, ht, h | ⟨r, rfl, hr⟩⟩)
      · simp at ha
      · subst h
        obtain ⟨_, _⟩ := l
        subst h1
        dsimp only
        rw [(layerType_iff ..).2 ht]
      · simp at ha
  · rw [hs]
    obtain ⟨b, hb, ⟨rfl, hr⟩ | ⟨r', rfl, hr⟩⟩ := splitPred_two r
    · rw [hr]
      dsimp only
      constructor
      · intro h
        obtain ⟨side, h1, h⟩ := Res.bind_eq_ok.1 h
        cases h
        exact .inl ⟨a, r, rfl, ha, hb, (layerSide_iff ..).1 h1, (layerType_iff ..).1 rfl⟩
      · rintro (⟨x, y, e, hx, hy, h1, h2⟩ | ⟨h1, x, hx, ht, h | ⟨r2, e, hr2⟩⟩)
        · obtain ⟨rfl, rfl⟩ : a = x ∧ r = y := by
            have h3 := splitPred_cons (· == '.') a r '.' (dotFree.2 ha) (by simp)
            have h4 := splitPred_cons (· == '.') x y '.' (dotFree.2 hx) (by simp)
            rw [e, h4, splitPred_none _ _ (dotFree.2 hy), splitPred_none _ _ (dotFree.2 hb)] at h3
            cases h3
            exact ⟨rfl, rfl⟩
          rw [(layerSide_iff ..).2 h1, (layerType_iff ..).2 h2]
          rfl
        · subst h; simp at hx
        · exfalso
          have h3 := splitPred_cons (· == '.') a r '.' (dotFree.2 ha) (by simp)
          have h4 := splitPred_cons (· == '.') x r2 '.' (dotFree.2 hx) (by simp)
          rw [e, h4, splitPred_none _ _ (dotFree.2 hb)] at h3
          obtain ⟨c, hc, ⟨rfl, h⟩ | ⟨r3, rfl, h⟩⟩ := splitPred_two r2
          · exact hc hr2
          · rw [h] at h3
            have h5 := List.cons.inj h3
            exact splitPred_ne_nil _ r3 (List.cons.inj h5.2).2
    · rw [hr]
      have hne : ∃ c cs, splitPred (· == '.') r' = c :: cs := by
        cases h : splitPred (· == '.') r' with
        | nil => exact absurd h (splitPred_ne_nil _ _)
        | cons c cs => exact ⟨c, cs, rfl⟩
      obtain ⟨c, cs, hcs⟩ := hne
      rw [hcs]
      constructor
      · intro h
        cases h
        exact .inr ⟨rfl, a, ha, (layerType_iff ..).1 rfl, .inr ⟨_, rfl, by simp⟩⟩
      · rintro (⟨x, y, e, hx, hy, h1, h2⟩ | ⟨h1, x, hx, ht, h | ⟨r2, e, hr2⟩⟩)
        · exfalso
          have h3 := splitPred_cons (· == '.') a (b ++ '.' :: r') '.' (dotFree.2 ha) (by simp)
          have h4 := splitPred_cons (· == '.') x y '.' (dotFree.2 hx) (by simp)
          rw [e, h4, splitPred_none _ _ (dotFree.2 hy), hr] at h3
          have h5 := (List.cons.inj h3).2
          exact splitPred_ne_nil _ r' (List.cons.inj h5).2.symm
        · subst h; simp at hx
        · have h3 := splitPred_cons (· == '.') a (b ++ '.' :: r') '.' (dotFree.2 ha) (by simp)
          have h4 := splitPred_cons (· == '.') x r2 '.' (dotFree.2 hx) (by simp)
          rw [e, h4] at h3
          have := (List.cons.inj h3).1
          subst this
          obtain ⟨_, _⟩ := l
          subst h1
          dsimp only
          rw [(layerType_iff ..).2 ht]

theorem layer_iff (e : Sexp) (l : Layer) : Layer.de e = .ok l ↔ LayerTree e l := by
  unfold Layer.de LayerTree
  constructor
  · intro h
    obtain ⟨i, hi, h⟩ := Res.bind_eq_ok.1 h
    obtain ⟨⟨name, r⟩, h1, h⟩ := Res.bind_eq_ok.1 h
    obtain ⟨l', h2, h⟩ := Res.bind_eq_ok.1 h
    obtain ⟨rfl, rfl⟩ := (close_iff ..).1 h
    obtain ⟨x, rfl, hx⟩ := (eat_iff ..).1 h1
    rw [string_iff] at hx
    subst hx
    exact ⟨name, (iter_iff ..).1 hi, (layerWord_iff ..).1 h2⟩
  · rintro ⟨s, rfl, hs⟩
    rw [(iter_iff ..).2 rfl, Res.bind_ok, eat, string_str, Res.bind_ok, Res.bind_ok]
    dsimp only
    rw [(layerWord_iff ..).2 hs]
    rfl

theorem layer_head (x : Sexp) (a : Layer) (h : LayerTree x a) : headOf x ∈ [some (str! "layer")] := by
  obtain ⟨w, rfl, _⟩ := h; simp [headOf]

/-! ## Small parts -/

theorem at_iff (e : Sexp) (a : At F) : At.de e = .ok a ↔ AtTree e a := by
  unfold At.de AtTree
  constructor
  · intro h
    obtain ⟨i, hi, h⟩ := Res.bind_eq_ok.1 h
    obtain ⟨⟨x, i1⟩, h1, h⟩ := Res.bind_eq_ok.1 h
    obtain ⟨⟨y, i2⟩, h2, h⟩ := Res.bind_eq_ok.1 h
    obtain ⟨⟨o, i3⟩, h3, h⟩ := Res.bind_eq_ok.1 h
    obtain ⟨rfl, rfl⟩ := (close_iff ..).1 h
    rw [iter_iff] at hi
    obtain ⟨ex, rfl, hx⟩ := (eat_iff ..).1 h1
    obtain ⟨ey, rfl, hy⟩ := (eat_iff ..).1 h2
    obtain ⟨er, rfl, hr⟩ := maybe_split num_iff h3
    exact ⟨ex, ey, er, o, by simpa using hi, (num_iff ..).1 hx, (num_iff ..).1 hy, hr, rfl⟩
  · rintro ⟨x, y, rot, o, rfl, hx, hy, hr, h0⟩
    have h3 := maybe_take num_iff flt_calm hr (free_nil _)
    rw [List.append_nil] at h3
    simp only [(iter_iff ..).2 rfl, Res.bind_ok, eat, (num_iff ..).2 hx, (num_iff ..).2 hy, h3, close_nil]
    rw [← h0]

theorem at_head (x : Sexp) (a : At F) (h : AtTree x a) : headOf x ∈ [some (str! "at")] := by
  obtain ⟨_, _, _, _, rfl, _⟩ := h; simp [headOf]

/-- Heads of points. -/
def xyHeads : List (Option Str) :=
  [some (str! "xy"), some (str! "start"), some (str! "end"), some (str! "size"), some (str! "center"),
   some (str! "rect_delta")]

theorem xy_iff (e : Sexp) (p : Xy F) : Xy.de e = .ok p ↔ XyTree e p := by
  unfold Xy.de XyTree
  have ht : ∀ (n : Str) (t : XyType), (if n = str! "xy" then Res.ok XyType.xy
    else if n = str! "start" then .ok .start
    else if n = str! "end" then .ok .end_
    else if n = str! "size" then .ok .size
    else if n = str! "center" then .ok .center
    else if n = str! "rect_delta" then .ok .rectDelta
    else .err .sexp) = .ok t ↔ (n, t) ∈ xyNames := by
    intro n t
    unfold xyNames
    constructor
    · intro h
      repeat (split at h; (rename_i e; subst e; cases h; simp))
      cases h
    · intro h
      simp only [List.mem_cons, Prod.mk.injEq, List.not_mem_nil, or_false] at h
      rcases h with ⟨rfl, rfl⟩ | ⟨rfl, rfl⟩ | ⟨rfl, rfl⟩ | ⟨rfl, rfl⟩ | ⟨rfl, rfl⟩ | ⟨rfl, rfl⟩ <;> rfl
  constructor
  · intro h
    obtain ⟨n, hn, h⟩ := Res.bind_eq_ok.1 h
    obtain ⟨t, h0, h⟩ := Res.bind_eq_ok.1 h
    obtain ⟨i, hi, h⟩ := Res.bind_eq_ok.1 h
    obtain ⟨⟨x, i1⟩, h1, h⟩ := Res.bind_eq_ok.1 h
    obtain ⟨⟨y, i2⟩, h2, h⟩ := Res.bind_eq_ok.1 h
    obtain ⟨rfl, rfl⟩ := (close_iff ..).1 h
    rw [iter_iff] at hi
    obtain ⟨ex, rfl, hx⟩ := (eat_iff ..).1 h1
    obtain ⟨ey, rfl, hy⟩ := (eat_iff ..).1 h2
    exact ⟨n, ex, ey, hi, (ht n t).1 h0, (num_iff ..).1 hx, (num_iff ..).1 hy⟩
  · rintro ⟨n, x, y, rfl, hn, hx, hy⟩
    have h0 := (ht n p.t).2 hn
    simp only [(listName_iff ..).2 ⟨_, rfl⟩, Res.bind_ok, h0, (iter_iff ..).2 rfl, eat, (num_iff ..).2 hx,
      (num_iff ..).2 hy, close_nil]

theorem xy_head (x : Sexp) (a : Xy F) (h : XyTree x a) : headOf x ∈ xyHeads := by
  obtain ⟨n, _, _, rfl, hn, _⟩ := h
  simp only [headOf]
  have : ∀ p ∈ xyNames, some p.1 ∈ xyHeads := by decide
  exact this _ hn

theorem literal_iff' (n : Str) (e : Sexp) (s : Str) : literal n e = .ok s ↔ e = .str n ∧ s = n := literal_iff n e s

theorem font_iff (e : Sexp) (f : Font F) : Font.de e = .ok f ↔ FontTree e f := by
  unfold Font.de FontTree
  constructor
  · intro h
    obtain ⟨i, hi, h⟩ := Res.bind_eq_ok.1 h
    obtain ⟨⟨o, i1⟩, h1, h⟩ := Res.bind_eq_ok.1 h
    dsimp only at h
    obtain ⟨⟨w, i2⟩, h2, h⟩ := Res.bind_eq_ok.1 h
    dsimp only at h
    obtain ⟨⟨it, i3⟩, h3, h⟩ := Res.bind_eq_ok.1 h
    obtain ⟨rfl, rfl⟩ := (close_iff ..).1 h
    rw [iter_iff] at hi
    obtain ⟨a1, rfl, ha1⟩ := maybe_split xy_iff h1
    obtain ⟨a2, rfl, ha2⟩ := maybe_split (inList_iff num_iff _) h2
    obtain ⟨a3, rfl, ha3⟩ := maybe_split (literal_iff _) h3
    refine ⟨a1, a2, a3, o, w, by simpa using hi, ha1, ha2, (opt_word ..).2 ⟨it, ha3, ?_⟩, ?_, ?_⟩
    · cases o <;> cases w <;> cases it <;> rfl
    · cases o <;> cases w <;> cases it <;> rfl
    · cases o <;> cases w <;> cases it <;> rfl
  · rintro ⟨a1, a2, a3, o, w, rfl, h1, h2, h3, h4, h5⟩
    obtain ⟨it, h3, h6⟩ := (opt_word ..).1 h3
    have e3 := maybe_take (literal_iff (str! "italic")) (literal_calm _) h3 (free_nil _)
    rw [List.append_nil] at e3
    have hd3 := heads_last (word_head (str! "italic")) h3
    have e2 := maybe_take (inList_iff num_iff (str! "thickness")) (inList_calm flt_calm _) h2
      (free_of_heads (named_head _ _) hd3 (by decide))
    have hd2 := heads_opt (named_head _ _) h2 hd3
    have e1 := maybe_take xy_iff Xy.de_calm h1 (free_of_heads xy_head hd2 (by decide))
    simp only [(iter_iff ..).2 rfl, Res.bind_ok, e1, e2, e3, close_nil]
    obtain ⟨sz, th, i⟩ := f
    simp only at h4 h5 h6
    subst h4 h5 h6
    cases o <;> cases w <;> cases it <;> rfl

theorem font_head (x : Sexp) (a : Font F) (h : FontTree x a) : headOf x ∈ [some (str! "font")] := by
  obtain ⟨_, _, _, _, _, rfl, _⟩ := h; simp [headOf]

theorem justify_iff (e : Sexp) (j : Justify) : Justify.de e = .ok j ↔ JustifyTree e j := by
  unfold Justify.de JustifyTree justifyWords
  constructor
  · intro h
    obtain ⟨i, hi, h⟩ := Res.bind_eq_ok.1 h
    obtain ⟨⟨w, i1⟩, h1, h⟩ := Res.bind_eq_ok.1 h
    rw [iter_iff] at hi
    obtain ⟨x, rfl, hx⟩ := (eat_iff ..).1 h1
    rw [string_iff] at hx
    subst hx
    refine ⟨w, i1, hi, ?_⟩
    change (if w = str! "mirror" then Res.ok Justify.mirror else if w = str! "left" then .ok .left
      else if w = str! "right" then .ok .right else .err .sexp) = .ok j at h
    repeat (split at h; (rename_i e; subst e; cases h; simp))
    cases h
  · rintro ⟨w, rest, rfl, h⟩
    simp only [(iter_iff ..).2 rfl, Res.bind_ok, eat, string_str]
    simp only [List.mem_cons, Prod.mk.injEq, List.not_mem_nil, or_false] at h
    rcases h with ⟨rfl, rfl⟩ | ⟨rfl, rfl⟩ | ⟨rfl, rfl⟩ <;> rfl

theorem effects_iff (e : Sexp) (f : Effects F) : Effects.de e = .ok f ↔ EffectsTree e f := by
  unfold Effects.de EffectsTree
  constructor
  · intro h
    obtain ⟨i, hi, h⟩ := Res.bind_eq_ok.1 h
    obtain ⟨⟨x, i1⟩, h1, h⟩ := Res.bind_eq_ok.1 h
    obtain ⟨⟨o, i2⟩, h2, h⟩ := Res.bind_eq_ok.1 h
    obtain ⟨rfl, rfl⟩ := (close_iff ..).1 h
    rw [iter_iff] at hi
    obtain ⟨ex, rfl, hx⟩ := (eat_iff ..).1 h1
    obtain ⟨a1, rfl, ha1⟩ := maybe_split justify_iff h2
    exact ⟨ex, a1, by simpa using hi, (font_iff ..).1 hx, ha1⟩
  · rintro ⟨x, a1, rfl, hx, h1⟩
    have h3 := maybe_take justify_iff Justify.de_calm h1 (free_nil _)
    rw [List.append_nil] at h3
    simp only [(iter_iff ..).2 rfl, Res.bind_ok, eat, (font_iff ..).2 hx, h3, close_nil]

theorem effects_head (x : Sexp) (a : Effects F) (h : EffectsTree x a) : headOf x ∈ [some (str! "effects")] := by
  obtain ⟨_, _, rfl, _⟩ := h; simp [headOf]

theorem layers_iff (e : Sexp) (l : List Layer) : Layers.de e = .ok l ↔ LayersTree e l := by
  unfold Layers.de LayersTree
  have hd : ∀ (x : Sexp) (a : Layer), (string x >>= fun s => Layer.fromString s) = .ok a ↔ ∃ s, x = .str s ∧ LayerWord s a := by
    intro x a
    simp only [Res.bind_eq_ok, string_iff, layerWord_iff]
  simp only [Res.bind_eq_ok, iter_iff]
  constructor
  · rintro ⟨i, rfl, h⟩
    exact ⟨i, rfl, (vec_iff hd ..).1 h⟩
  · rintro ⟨i, rfl, h⟩
    exact ⟨i, rfl, (vec_iff hd ..).2 h⟩

theorem layers_head (x : Sexp) (a : List Layer) (h : LayersTree x a) : headOf x ∈ [some (str! "layers")] := by
  obtain ⟨_, rfl, _⟩ := h; simp [headOf]

theorem pts_iff (e : Sexp) (l : List (Xy F)) : Pts.de e = .ok l ↔ PtsTree e l := by
  unfold Pts.de PtsTree
  simp only [Res.bind_eq_ok, iter_iff, vec_iff xy_iff]

theorem pts_head (x : Sexp) (a : List (Xy F)) (h : PtsTree x a) : headOf x ∈ [some (str! "pts")] := by
  obtain ⟨_, rfl, _⟩ := h; simp [headOf]

theorem xyz_iff (e : Sexp) (a : Xyz F) : Xyz.de e = .ok a ↔ XyzTree e a := by
  unfold Xyz.de XyzTree
  constructor
  · intro h
    obtain ⟨i, hi, h⟩ := Res.bind_eq_ok.1 h
    obtain ⟨⟨x, i1⟩, h1, h⟩ := Res.bind_eq_ok.1 h
    obtain ⟨⟨y, i2⟩, h2, h⟩ := Res.bind_eq_ok.1 h
    obtain ⟨⟨z, i3⟩, h3, h⟩ := Res.bind_eq_ok.1 h
    obtain ⟨rfl, rfl⟩ := (close_iff ..).1 h
    rw [iter_iff] at hi
    obtain ⟨ex, rfl, hx⟩ := (eat_iff ..).1 h1
    obtain ⟨ey, rfl, hy⟩ := (eat_iff ..).1 h2
    obtain ⟨ez, rfl, hz⟩ := (eat_iff ..).1 h3
    exact ⟨ex, ey, ez, hi, (num_iff ..).1 hx, (num_iff ..).1 hy, (num_iff ..).1 hz⟩
  · rintro ⟨x, y, z, rfl, hx, hy, hz⟩
    simp only [(iter_iff ..).2 rfl, Res.bind_ok, eat, (num_iff ..).2 hx, (num_iff ..).2 hy, (num_iff ..).2 hz, close_nil]

theorem net_iff (e : Sexp) (n : Net) : Net.de e = .ok n ↔ NetTree e n := by
  unfold Net.de NetTree
  constructor
  · intro h
    obtain ⟨i, hi, h⟩ := Res.bind_eq_ok.1 h
    obtain ⟨⟨x, i1⟩, h1, h⟩ := Res.bind_eq_ok.1 h
    obtain ⟨⟨y, i2⟩, h2, h⟩ := Res.bind_eq_ok.1 h
    obtain ⟨rfl, rfl⟩ := (close_iff ..).1 h
    rw [iter_iff] at hi
    obtain ⟨ex, rfl, hx⟩ := (eat_iff ..).1 h1
    obtain ⟨ey, rfl, hy⟩ := (eat_iff ..).1 h2
    rw [string_iff] at hy
    subst hy
    exact ⟨ex, hi, (int_iff ..).1 hx⟩
  · rintro ⟨x, rfl, hx⟩
    simp only [(iter_iff ..).2 rfl, Res.bind_ok, eat, (int_iff ..).2 hx, string_str, close_nil]

theorem offset_iff (e : Sexp) (p : F × F) : Offset.de e = .ok p ↔ OffsetTree e p := by
  unfold Offset.de OffsetTree
  constructor
  · intro h
    obtain ⟨i, hi, h⟩ := Res.bind_eq_ok.1 h
    obtain ⟨⟨x, i1⟩, h1, h⟩ := Res.bind_eq_ok.1 h
    obtain ⟨⟨y, i2⟩, h2, h⟩ := Res.bind_eq_ok.1 h
    obtain ⟨rfl, rfl⟩ := (close_iff ..).1 h
    rw [iter_iff] at hi
    obtain ⟨ex, rfl, hx⟩ := (eat_iff ..).1 h1
    obtain ⟨ey, rfl, hy⟩ := (eat_iff ..).1 h2
    exact ⟨ex, ey, hi, (num_iff ..).1 hx, (num_iff ..).1 hy⟩
  · rintro ⟨x, y, rfl, hx, hy⟩
    simp only [(iter_iff ..).2 rfl, Res.bind_ok, eat, (num_iff ..).2 hx, (num_iff ..).2 hy, close_nil]

theorem offset_head (x : Sexp) (a : F × F) (h : OffsetTree x a) : headOf x ∈ [some (str! "offset")] := by
  obtain ⟨_, _, rfl, _⟩ := h; simp [headOf]

theorem drill_iff (e : Sexp) (d : Drill F) : Drill.de e = .ok d ↔ DrillTree e d := by
  unfold Drill.de DrillTree
  constructor
  · intro h
    obtain ⟨i, hi, h⟩ := Res.bind_eq_ok.1 h
    obtain ⟨⟨sh, i1⟩, h1, h⟩ := Res.bind_eq_ok.1 h
    obtain ⟨⟨w, i2⟩, h2, h⟩ := Res.bind_eq_ok.1 h
    obtain ⟨⟨ho, i3⟩, h3, h⟩ := Res.bind_eq_ok.1 h
    obtain ⟨⟨oo, i4⟩, h4, h⟩ := Res.bind_eq_ok.1 h
    obtain ⟨rfl, rfl⟩ := (close_iff ..).1 h
    rw [iter_iff] at hi
    obtain ⟨ew, rfl, hw⟩ := (eat_iff ..).1 h2
    obtain ⟨a1, rfl, ha1⟩ := maybe_split (literal_iff (str! "oval")) h1
    obtain ⟨a3, rfl, ha3⟩ := maybe_split num_iff h3
    obtain ⟨a4, rfl, ha4⟩ := maybe_split offset_iff h4
    refine ⟨a1, ew, a3, a4, ho, oo, by simpa using hi, ?_, (num_iff ..).1 hw, ha3, ha4, rfl, rfl⟩
    rcases ha1 with ⟨rfl, rfl⟩ | ⟨x, s, rfl, ⟨rfl, rfl⟩, rfl⟩
    · refine .inl ⟨rfl, rfl, ?_⟩
      rintro rfl
      rw [List.nil_append, maybe, literal_self] at h1
      cases h1
    · exact .inr ⟨rfl, rfl⟩
  · rintro ⟨a1, ew, a3, a4, ho, oo, rfl, h1, hw, h3, h4, h5, h6⟩
    have e4 := maybe_take offset_iff Offset.de_calm h4 (free_nil _)
    rw [List.append_nil] at e4
    have e3 := maybe_take num_iff flt_calm h3 (free_of_heads num_head (heads_last offset_head h4) (by decide))
    have e1 : maybe (literal (str! "oval")) (a1 ++ ew :: (a3 ++ a4)) = .ok (d.shape, ew :: (a3 ++ a4)) := by
      refine maybe_take' (literal_iff (str! "oval")) (literal_calm _) ?_ ?_
      · rcases h1 with ⟨h, h', _⟩ | ⟨h, h'⟩
        · exact .inl ⟨h, h'⟩
        · exact .inr ⟨_, _, h, ⟨rfl, rfl⟩, h'⟩
      · intro h0
        rcases h1 with ⟨_, _, h⟩ | ⟨h, _⟩
        · intro x r e b hb
          cases e
          exact h hb.1
        · rw [h0] at h; cases h
    simp only [(iter_iff ..).2 rfl, Res.bind_ok, eat, e1, (num_iff ..).2 hw, e3, e4, close_nil]
    obtain ⟨sh, w, h, ox, oy⟩ := d
    simp only [Prod.mk.injEq] at h5 h6 ⊢
    rw [h5, ← h6]

theorem drill_head (x : Sexp) (a : Drill F) (h : DrillTree x a) : headOf x ∈ [some (str! "drill")] := by
  obtain ⟨_, _, _, _, _, _, rfl, _⟩ := h; simp [headOf]

/-! ## Texts and lines -/

theorem fpText_iff (e : Sexp) (t : FpText F) : FpText.de e = .ok t ↔ FpTextTree e t := by
  unfold FpText.de FpTextTree
  constructor
  · intro h
    obtain ⟨i, hi, h⟩ := Res.bind_eq_ok.1 h
    obtain ⟨⟨n, i0⟩, hn, h⟩ := Res.bind_eq_ok.1 h
    obtain ⟨⟨v, i1⟩, hv, h⟩ := Res.bind_eq_ok.1 h
    dsimp only at h
    obtain ⟨⟨o1, i2⟩, h1, h⟩ := Res.bind_eq_ok.1 h
    dsimp only at h
    obtain ⟨⟨o2, i3⟩, h2, h⟩ := Res.bind_eq_ok.1 h
    dsimp only at h
    obtain ⟨⟨o3, i4⟩, h3, h⟩ := Res.bind_eq_ok.1 h
    dsimp only at h
    obtain ⟨⟨o4, i5⟩, h4, h⟩ := Res.bind_eq_ok.1 h
    obtain ⟨rfl, rfl⟩ := (close_iff ..).1 h
    rw [iter_iff] at hi
    obtain ⟨_, rfl, en⟩ := (eat_iff ..).1 hn
    obtain ⟨_, rfl, ev⟩ := (eat_iff ..).1 hv
    rw [string_iff] at en ev
    subst en ev
    obtain ⟨a1, rfl, ha1⟩ := maybe_split at_iff h1
    obtain ⟨a2, rfl, ha2⟩ := maybe_split layer_iff h2
    obtain ⟨a3, rfl, ha3⟩ := maybe_split (literal_iff _) h3
    obtain ⟨a4, rfl, ha4⟩ := maybe_split effects_iff h4
    rw [List.append_nil] at hi
    have hn : ∀ (t : FpText F), True := fun _ => trivial
    refine ⟨a1, a2, a3, a4, o1, o2, o4, ?_, ha1, ha2, (opt_word ..).2 ⟨o3, ha3, ?_⟩, ha4, ?_, ?_, ?_⟩
    · rw [hi]; cases o1 <;> cases o2 <;> cases o3 <;> cases o4 <;> rfl
    all_goals (cases o1 <;> cases o2 <;> cases o3 <;> cases o4 <;> rfl)
  · rintro ⟨a1, a2, a3, a4, o1, o2, o4, rfl, h1, h2, h3, h4, g1, g2, g4⟩
    obtain ⟨o3, h3, g3⟩ := (opt_word ..).1 h3
    have e4 := maybe_take effects_iff Effects.de_calm h4 (free_nil _)
    rw [List.append_nil] at e4
    have d4 := heads_last effects_head h4
    have e3 := maybe_take (literal_iff (str! "hide")) (literal_calm _) h3 (free_of_heads (word_head _) d4 (by decide))
    have d3 := heads_opt (word_head (str! "hide")) h3 d4
    have e2 := maybe_take layer_iff Layer.de_calm h2 (free_of_heads layer_head d3 (by decide))
    have d2 := heads_opt layer_head h2 d3
    have e1 := maybe_take at_iff At.de_calm h1 (free_of_heads at_head d2 (by decide))
    simp only [(iter_iff ..).2 rfl, Res.bind_ok, eat, string_str, e1, e2, e3, e4, close_nil]
    obtain ⟨nm, vl, at_, ly, ef, hd⟩ := t
    simp only at g1 g2 g3 g4
    subst g1 g2 g3 g4
    cases o1 <;> cases o2 <;> cases o3 <;> cases o4 <;> rfl

theorem fpPoly_iff (e : Sexp) (t : FpPoly F) : FpPoly.de e = .ok t ↔ FpPolyTree e t := by
  unfold FpPoly.de FpPolyTree
  constructor
  · intro h
    obtain ⟨i, hi, h⟩ := Res.bind_eq_ok.1 h
    dsimp only at h
    obtain ⟨⟨o1, i2⟩, h1, h⟩ := Res.bind_eq_ok.1 h
    dsimp only at h
    obtain ⟨⟨o2, i3⟩, h2, h⟩ := Res.bind_eq_ok.1 h
    dsimp only at h
    obtain ⟨⟨o3, i4⟩, h3, h⟩ := Res.bind_eq_ok.1 h
    obtain ⟨rfl, rfl⟩ := (close_iff ..).1 h
    rw [iter_iff] at hi
    obtain ⟨a1, rfl, ha1⟩ := maybe_split pts_iff h1
    obtain ⟨a2, rfl, ha2⟩ := maybe_split layer_iff h2
    obtain ⟨a3, rfl, ha3⟩ := maybe_split (inList_iff num_iff _) h3
    rw [List.append_nil] at hi
    refine ⟨a1, a2, a3, o1, o2, o3, hi, ha1, ha2, ha3, ?_, ?_, ?_⟩
    all_goals (cases o1 <;> cases o2 <;> cases o3 <;> rfl)
  · rintro ⟨a1, a2, a3, o1, o2, o3, rfl, h1, h2, h3, g1, g2, g3⟩
    have e3 := maybe_take (inList_iff num_iff (str! "width")) (inList_calm flt_calm _) h3 (free_nil _)
    rw [List.append_nil] at e3
    have d3 := heads_last (named_head _ (str! "width")) h3
    have e2 := maybe_take layer_iff Layer.de_calm h2 (free_of_heads layer_head d3 (by decide))
    have d2 := heads_opt layer_head h2 d3
    have e1 := maybe_take pts_iff Pts.de_calm h1 (free_of_heads pts_head d2 (by decide))
    simp only [(iter_iff ..).2 rfl, Res.bind_ok, eat, string_str, e1, e2, e3, close_nil]
    obtain ⟨p, w, ly⟩ := t
    simp only at g1 g2 g3
    subst g1 g2 g3
    cases o1 <;> cases o2 <;> cases o3 <;> rfl

/-- The point at the place `o`. -/
def pointAt (o : Option (Xy F)) (t : XyType) : Xy F :=
  match o with
  | some q => if q.t = t then q else ⟨zero, zero, t⟩
  | none => ⟨zero, zero, t⟩

/-- The trapezoid offset at the place `o`. -/
def deltaAt (o : Option (Xy F)) : Option (Xy F) :=
  match o with
  | some q => if q.t = .rectDelta then some q else none
  | none => none

theorem pointAt_iff (o : Option (Xy F)) (t : XyType) (p : Xy F) : PointAt o t p ↔ p = pointAt o t := by
  unfold PointAt
  cases o with
  | none => simp [pointAt]
  | some q =>
    by_cases h : q.t = t
    · rw [show pointAt (some q) t = q from if_pos h]
      constructor
      · rintro (⟨_, e, _, rfl⟩ | ⟨h', _⟩)
        · cases e; rfl
        · exact absurd h (h' q rfl)
      · rintro rfl
        exact .inl ⟨_, rfl, h, rfl⟩
    · rw [show pointAt (some q) t = ⟨zero, zero, t⟩ from if_neg h]
      constructor
      · rintro (⟨_, e, h', _⟩ | ⟨_, rfl⟩)
        · cases e; exact absurd h' h
        · rfl
      · rintro rfl
        exact .inr ⟨by rintro _ e; cases e; exact h, rfl⟩

theorem xy_pair_first {o : Option (Xy F)} {l r r' : List Sexp} {o' : Option (Xy F)} (h : maybe Xy.de l = .ok (o, r))
    (h' : maybe Xy.de r = .ok (o', r')) : ∃ a b, l = a ++ (b ++ r') ∧ Opt XyTree a o ∧ Opt XyTree b o' ∧ (a = [] → b = []) := by
  obtain ⟨a, rfl, ha⟩ := maybe_split xy_iff h
  obtain ⟨b, rfl, hb⟩ := maybe_split xy_iff h'
  refine ⟨a, b, rfl, ha, hb, ?_⟩
  rintro rfl
  rcases ha with ⟨_, rfl⟩ | ⟨x, c, hx, _⟩
  · rcases hb with ⟨rfl, _⟩ | ⟨y, c, rfl, hy, rfl⟩
    · rfl
    · exact absurd ((xy_iff ..).2 hy) ((maybe_nil Xy.de_calm h).2 y _ rfl c)
  · cases hx

theorem xy_pair_take {o o' : Option (Xy F)} {a b r : List Sexp} {hs : List (Option Str)} (ha : Opt XyTree a o)
    (hb : Opt XyTree b o') (hab : a = [] → b = []) (hr : Heads hs r) (hd : ∀ p ∈ xyHeads, p ∉ hs) :
    maybe Xy.de (a ++ (b ++ r)) = .ok (o, b ++ r) ∧ maybe Xy.de (b ++ r) = .ok (o', r) := by
  have hf : Free (XyTree (F := F)) r := free_of_heads xy_head hr hd
  refine ⟨maybe_take' xy_iff Xy.de_calm ha ?_, maybe_take xy_iff Xy.de_calm hb hf⟩
  intro h
  rw [hab h]
  exact hf

theorem fpLine_iff (e : Sexp) (t : FpLine F) : FpLine.de e = .ok t ↔ FpLineTree e t := by
  unfold FpLine.de FpLineTree LineParts
  simp only [pointAt_iff]
  constructor
  · intro h
    obtain ⟨i, hi, h⟩ := Res.bind_eq_ok.1 h
    obtain ⟨⟨o1, i2⟩, h1, h⟩ := Res.bind_eq_ok.1 h
    dsimp only at h
    obtain ⟨⟨o2, i3⟩, h2, h⟩ := Res.bind_eq_ok.1 h
    dsimp only at h
    obtain ⟨⟨o3, i4⟩, h3, h⟩ := Res.bind_eq_ok.1 h
    dsimp only at h
    obtain ⟨⟨o4, i5⟩, h4, h⟩ := Res.bind_eq_ok.1 h
    obtain ⟨rfl, rfl⟩ := (close_iff ..).1 h
    rw [iter_iff] at hi
    obtain ⟨a1, a2, rfl, ha1, ha2, h12⟩ := xy_pair_first h1 h2
    obtain ⟨a3, rfl, ha3⟩ := maybe_split layer_iff h3
    obtain ⟨a4, rfl, ha4⟩ := maybe_split (inList_iff num_iff _) h4
    rw [List.append_nil] at hi
    refine ⟨_, o1, o2, hi, ⟨a1, a2, a3, a4, o3, o4, rfl, ha1, ha2, h12, ha3, ha4, ?_, ?_⟩, ?_, ?_⟩
    all_goals (cases o1 <;> cases o2 <;> cases o3 <;> cases o4 <;> dsimp only [FpLine.dflt, pointAt] <;> (repeat' split) <;> rfl)
  · rintro ⟨_, o1, o2, rfl, ⟨a1, a2, a3, a4, o3, o4, rfl, h1, h2, h12, h3, h4, g3, g4⟩, g1, g2⟩
    have e4 := maybe_take (inList_iff num_iff (str! "width")) (inList_calm flt_calm _) h4 (free_nil _)
    rw [List.append_nil] at e4
    have d4 := heads_last (named_head _ (str! "width")) h4
    have e3 := maybe_take layer_iff Layer.de_calm h3 (free_of_heads layer_head d4 (by decide))
    have d3 := heads_opt layer_head h3 d4
    obtain ⟨e1, e2⟩ := xy_pair_take h1 h2 h12 d3 (by decide)
    simp only [(iter_iff ..).2 rfl, Res.bind_ok, e1, e2, e3, e4, close_nil]
    obtain ⟨s, en, ly, w⟩ := t
    simp only at g1 g2 g3 g4
    subst g1 g2 g3 g4
    cases o1 <;> cases o2 <;> cases o3 <;> cases o4 <;> dsimp only [FpLine.dflt, pointAt] <;> (repeat' split) <;> rfl

theorem fpCircle_iff (e : Sexp) (t : FpCircle F) : FpCircle.de e = .ok t ↔ FpCircleTree e t := by
  unfold FpCircle.de FpCircleTree LineParts
  simp only [pointAt_iff]
  constructor
  · intro h
    obtain ⟨i, hi, h⟩ := Res.bind_eq_ok.1 h
    obtain ⟨⟨o1, i2⟩, h1, h⟩ := Res.bind_eq_ok.1 h
    dsimp only at h
    obtain ⟨⟨o2, i3⟩, h2, h⟩ := Res.bind_eq_ok.1 h
    dsimp only at h
    obtain ⟨⟨o3, i4⟩, h3, h⟩ := Res.bind_eq_ok.1 h
    dsimp only at h
    obtain ⟨⟨o4, i5⟩, h4, h⟩ := Res.bind_eq_ok.1 h
    obtain ⟨rfl, rfl⟩ := (close_iff ..).1 h
    rw [iter_iff] at hi
    obtain ⟨a1, a2, rfl, ha1, ha2, h12⟩ := xy_pair_first h1 h2
    obtain ⟨a3, rfl, ha3⟩ := maybe_split layer_iff h3
    obtain ⟨a4, rfl, ha4⟩ := maybe_split (inList_iff num_iff _) h4
    rw [List.append_nil] at hi
    refine ⟨_, o1, o2, hi, ⟨a1, a2, a3, a4, o3, o4, rfl, ha1, ha2, h12, ha3, ha4, ?_, ?_⟩, ?_, ?_⟩
    all_goals (cases o1 <;> cases o2 <;> cases o3 <;> cases o4 <;> dsimp only [FpCircle.dflt, pointAt] <;> (repeat' split) <;> rfl)
  · rintro ⟨_, o1, o2, rfl, ⟨a1, a2, a3, a4, o3, o4, rfl, h1, h2, h12, h3, h4, g3, g4⟩, g1, g2⟩
    have e4 := maybe_take (inList_iff num_iff (str! "width")) (inList_calm flt_calm _) h4 (free_nil _)
    rw [List.append_nil] at e4
    have d4 := heads_last (named_head _ (str! "width")) h4
    have e3 := maybe_take layer_iff Layer.de_calm h3 (free_of_heads layer_head d4 (by decide))
    have d3 := heads_opt layer_head h3 d4
    obtain ⟨e1, e2⟩ := xy_pair_take h1 h2 h12 d3 (by decide)
    simp only [(iter_iff ..).2 rfl, Res.bind_ok, e1, e2, e3, e4, close_nil]
    obtain ⟨s, en, ly, w⟩ := t
    simp only at g1 g2 g3 g4
    subst g1 g2 g3 g4
    cases o1 <;> cases o2 <;> cases o3 <;> cases o4 <;> dsimp only [FpCircle.dflt, pointAt] <;> (repeat' split) <;> rfl

theorem fpArc_iff (e : Sexp) (t : FpArc F) : FpArc.de e = .ok t ↔ FpArcTree e t := by
  unfold FpArc.de FpArcTree
  simp only [pointAt_iff]
  constructor
  · intro h
    obtain ⟨i, hi, h⟩ := Res.bind_eq_ok.1 h
    obtain ⟨⟨o1, i2⟩, h1, h⟩ := Res.bind_eq_ok.1 h
    dsimp only at h
    obtain ⟨⟨o2, i3⟩, h2, h⟩ := Res.bind_eq_ok.1 h
    dsimp only at h
    obtain ⟨⟨o5, i6⟩, h5, h⟩ := Res.bind_eq_ok.1 h
    dsimp only at h
    obtain ⟨⟨o3, i4⟩, h3, h⟩ := Res.bind_eq_ok.1 h
    dsimp only at h
    obtain ⟨⟨o4, i5⟩, h4, h⟩ := Res.bind_eq_ok.1 h
    obtain ⟨rfl, rfl⟩ := (close_iff ..).1 h
    rw [iter_iff] at hi
    obtain ⟨a1, a2, rfl, ha1, ha2, h12⟩ := xy_pair_first h1 h2
    obtain ⟨a5, rfl, ha5⟩ := maybe_split (inList_iff num_iff _) h5
    obtain ⟨a3, rfl, ha3⟩ := maybe_split layer_iff h3
    obtain ⟨a4, rfl, ha4⟩ := maybe_split (inList_iff num_iff _) h4
    rw [List.append_nil] at hi
    refine ⟨a1, a2, a5, a3, a4, o1, o2, o5, o3, o4, hi, ha1, ha2, h12, ha5, ha3, ha4, ?_, ?_, ?_, ?_, ?_⟩
    all_goals (cases o1 <;> cases o2 <;> cases o3 <;> cases o4 <;> cases o5 <;> dsimp only [FpArc.dflt, pointAt] <;> (repeat' split) <;> rfl)
  · rintro ⟨a1, a2, a5, a3, a4, o1, o2, o5, o3, o4, rfl, h1, h2, h12, h5, h3, h4, g1, g2, g5, g3, g4⟩
    have e4 := maybe_take (inList_iff num_iff (str! "width")) (inList_calm flt_calm _) h4 (free_nil _)
    rw [List.append_nil] at e4
    have d4 := heads_last (named_head _ (str! "width")) h4
    have e3 := maybe_take layer_iff Layer.de_calm h3 (free_of_heads layer_head d4 (by decide))
    have d3 := heads_opt layer_head h3 d4
    have e5 := maybe_take (inList_iff num_iff (str! "angle")) (inList_calm flt_calm _) h5
      (free_of_heads (named_head _ _) d3 (by decide))
    have d5 := heads_opt (named_head _ (str! "angle")) h5 d3
    obtain ⟨e1, e2⟩ := xy_pair_take h1 h2 h12 d5 (by decide)
    simp only [(iter_iff ..).2 rfl, Res.bind_ok, e1, e2, e3, e4, e5, close_nil]
    obtain ⟨s, en, an, ly, w⟩ := t
    simp only at g1 g2 g3 g4 g5
    subst g1 g2 g3 g4 g5
    cases o1 <;> cases o2 <;> cases o3 <;> cases o4 <;> cases o5 <;> dsimp only [FpArc.dflt, pointAt] <;> (repeat' split) <;> rfl

theorem model_iff (e : Sexp) (m : Model F) : Model.de e = .ok m ↔ ModelTree e m := by
  unfold Model.de ModelTree
  constructor
  · intro h
    obtain ⟨i, hi, h⟩ := Res.bind_eq_ok.1 h
    obtain ⟨⟨n, i0⟩, hn, h⟩ := Res.bind_eq_ok.1 h
    obtain ⟨⟨x, i1⟩, h1, h⟩ := Res.bind_eq_ok.1 h
    obtain ⟨⟨y, i2⟩, h2, h⟩ := Res.bind_eq_ok.1 h
    obtain ⟨⟨z, i3⟩, h3, h⟩ := Res.bind_eq_ok.1 h
    obtain ⟨rfl, rfl⟩ := (close_iff ..).1 h
    rw [iter_iff] at hi
    obtain ⟨_, rfl, en⟩ := (eat_iff ..).1 hn
    rw [string_iff] at en
    subst en
    obtain ⟨ex, rfl, hx⟩ := (eat_iff ..).1 h1
    obtain ⟨ey, rfl, hy⟩ := (eat_iff ..).1 h2
    obtain ⟨ez, rfl, hz⟩ := (eat_iff ..).1 h3
    exact ⟨ex, ey, ez, hi, (inList_iff xyz_iff ..).1 hx, (inList_iff xyz_iff ..).1 hy, (inList_iff xyz_iff ..).1 hz⟩
  · rintro ⟨x, y, z, rfl, hx, hy, hz⟩
    simp only [(iter_iff ..).2 rfl, Res.bind_ok, eat, string_str, (inList_iff xyz_iff ..).2 hx,
      (inList_iff xyz_iff ..).2 hy, (inList_iff xyz_iff ..).2 hz, close_nil]

/-! ## Pads -/

theorem padType_iff (w : Str) (o : PadType) : PadType.fromString w = .ok o ↔ (w, o) ∈ padTypes := by
  unfold PadType.fromString padTypes
  constructor
  · intro h
    repeat (split at h; (rename_i e; subst e; cases h; simp))
    cases h
  · intro h
    simp only [List.mem_cons, Prod.mk.injEq, List.not_mem_nil, or_false] at h
    rcases h with ⟨rfl, rfl⟩ | ⟨rfl, rfl⟩ | ⟨rfl, rfl⟩ <;> rfl

theorem padShape_iff (w : Str) (o : PadShape) : PadShape.fromString w = .ok o ↔ (w, o) ∈ padShapes := by
  unfold PadShape.fromString padShapes
  constructor
  · intro h
    repeat (split at h; (rename_i e; subst e; cases h; simp))
    cases h
  · intro h
    simp only [List.mem_cons, Prod.mk.injEq, List.not_mem_nil, or_false] at h
    rcases h with ⟨rfl, rfl⟩ | ⟨rfl, rfl⟩ | ⟨rfl, rfl⟩ | ⟨rfl, rfl⟩ <;> rfl

/-- An entry as the reader keeps it. -/
def entryPart : PadEntry F → Part F
  | .net n => .net n
  | .solderPasteMargin x => .solderPasteMargin x
  | .solderMaskMargin x => .solderMaskMargin x
  | .clearance x => .clearance x
  | .thermalGap x => .thermalGap x
  | .zoneConnect i => .zoneConnect i

theorem second_iff (n : Str) (r : List Sexp) (v : Sexp) : second (.list (.str n :: r)) = .ok v ↔ ∃ rest, r = v :: rest := by
  unfold second
  cases r with
  | nil => simp [list, Res.bind_ok]
  | cons x r => simp [list, Res.bind_ok]

theorem part_value {α : Type} {dec : Sexp → Res α} {P : Sexp → α → Prop} (hd : ∀ x a, dec x = .ok a ↔ P x a)
    (n : Str) (r : List Sexp) (f : α → Part F) (p : Part F) :
    ((second (.list (.str n :: r)) >>= fun x => dec x >>= fun a => .ok (f a)) = .ok p) ↔
      ∃ a, p = f a ∧ FirstValue n P (.list (.str n :: r)) a := by
  unfold FirstValue
  simp only [Res.bind_eq_ok, second_iff, hd]
  constructor
  · rintro ⟨v, ⟨rest, rfl⟩, a, ha, h⟩
    cases h
    exact ⟨a, rfl, v, rest, rfl, ha⟩
  · rintro ⟨a, rfl, v, rest, e, ha⟩
    cases e
    exact ⟨v, ⟨rest, rfl⟩, a, ha, rfl⟩

theorem part_iff (e : Sexp) (p : Part F) :
    Part.de e = .ok p ↔ (∃ a, p = .thickness a ∧ FirstValue (str! "thickness") NumTree e a) ∨
      ∃ en, p = entryPart en ∧ PadEntryTree e en := by
  constructor
  · intro h
    unfold Part.de at h
    obtain ⟨n, hn, h⟩ := Res.bind_eq_ok.1 h
    obtain ⟨r, rfl⟩ := (listName_iff ..).1 hn
    split at h
    · rename_i e; subst e
      exact .inl ((part_value num_iff ..).1 h)
    refine .inr ?_
    split at h
    · rename_i e; subst e
      obtain ⟨m, hm, h⟩ := Res.bind_eq_ok.1 h
      cases h
      exact ⟨.net m, rfl, .net ((net_iff ..).1 hm)⟩
    split at h
    · rename_i e; subst e
      obtain ⟨a, rfl, ha⟩ := (part_value num_iff ..).1 h
      exact ⟨_, rfl, .solderPasteMargin ha⟩
    split at h
    · rename_i e; subst e
      obtain ⟨a, rfl, ha⟩ := (part_value num_iff ..).1 h
      exact ⟨_, rfl, .solderMaskMargin ha⟩
    split at h
    · rename_i e; subst e
      obtain ⟨a, rfl, ha⟩ := (part_value num_iff ..).1 h
      exact ⟨_, rfl, .clearance ha⟩
    split at h
    · rename_i e; subst e
      obtain ⟨a, rfl, ha⟩ := (part_value num_iff ..).1 h
      exact ⟨_, rfl, .thermalGap ha⟩
    split at h
    · rename_i e; subst e
      obtain ⟨a, rfl, ha⟩ := (part_value int_iff ..).1 h
      exact ⟨_, rfl, .zoneConnect ha⟩
    cases h
  · rintro (⟨a, rfl, v, r, rfl, ha⟩ | ⟨en, rfl, h⟩)
    · exact (part_value num_iff (str! "thickness") (v :: r) .thickness _).2 ⟨a, rfl, v, r, rfl, ha⟩
    · cases h with
      | @net n h =>
        have h' := (net_iff ..).2 h
        obtain ⟨i, rfl, _⟩ := h
        show (Net.de _ >>= fun m => Res.ok (Part.net m)) = _
        rw [h']; rfl
      | solderPasteMargin h =>
        obtain ⟨v, r, rfl, ha⟩ := h
        exact (part_value num_iff (str! "solder_paste_margin") (v :: r) .solderPasteMargin _).2 ⟨_, rfl, v, r, rfl, ha⟩
      | solderMaskMargin h =>
        obtain ⟨v, r, rfl, ha⟩ := h
        exact (part_value num_iff (str! "solder_mask_margin") (v :: r) .solderMaskMargin _).2 ⟨_, rfl, v, r, rfl, ha⟩
      | clearance h =>
        obtain ⟨v, r, rfl, ha⟩ := h
        exact (part_value num_iff (str! "clearance") (v :: r) .clearance _).2 ⟨_, rfl, v, r, rfl, ha⟩
      | thermalGap h =>
        obtain ⟨v, r, rfl, ha⟩ := h
        exact (part_value num_iff (str! "thermal_gap") (v :: r) .thermalGap _).2 ⟨_, rfl, v, r, rfl, ha⟩
      | zoneConnect h =>
        obtain ⟨v, r, rfl, ha⟩ := h
        exact (part_value int_iff (str! "zone_connect") (v :: r) .zoneConnect _).2 ⟨_, rfl, v, r, rfl, ha⟩

theorem getLast?_cons_or {α : Type} (x : α) (l : List α) (o : Option α) :
    (x :: l).getLast?.or o = l.getLast?.or (some x) := by
  cases l with
  | nil => rfl
  | cons y l => simp [List.getLast?_cons]

/-- The pad after its last parts. -/
def withEntries (p : Pad F) (es : List (PadEntry F)) : Pad F :=
  { p with
    net := (es.filterMap PadEntry.net?).getLast?.or p.net
    solderPasteMargin := (es.filterMap PadEntry.solderPasteMargin?).getLast?.or p.solderPasteMargin
    solderMaskMargin := (es.filterMap PadEntry.solderMaskMargin?).getLast?.or p.solderMaskMargin
    clearance := (es.filterMap PadEntry.clearance?).getLast?.or p.clearance
    thermalGap := (es.filterMap PadEntry.thermalGap?).getLast?.or p.thermalGap
    zoneConnect := (es.filterMap PadEntry.zoneConnect?).getLast?.or p.zoneConnect }

theorem addParts_entries (es : List (PadEntry F)) (p : Pad F) :
    Pad.addParts p (es.map entryPart) = .ok (withEntries p es) := by
  induction es generalizing p with
  | nil => simp [Pad.addParts, withEntries]
  | cons e es ih =>
    cases e <;>
      (simp only [List.map_cons, entryPart, Pad.addParts]
       rw [ih]
       simp only [withEntries, List.filterMap_cons, PadEntry.net?, PadEntry.solderPasteMargin?,
         PadEntry.solderMaskMargin?, PadEntry.clearance?, PadEntry.thermalGap?, PadEntry.zoneConnect?,
         getLast?_cons_or])

theorem addParts_split (ps : List (Part F)) (p p' : Pad F) (h : Pad.addParts p ps = .ok p') :
    ∃ es : List (PadEntry F), ps = es.map entryPart := by
  induction ps generalizing p with
  | nil => exact ⟨[], rfl⟩
  | cons x ps ih =>
    cases x with
    | thickness a => cases h
    | net a => obtain ⟨es, rfl⟩ := ih _ h; exact ⟨.net a :: es, rfl⟩
    | solderPasteMargin a => obtain ⟨es, rfl⟩ := ih _ h; exact ⟨.solderPasteMargin a :: es, rfl⟩
    | solderMaskMargin a => obtain ⟨es, rfl⟩ := ih _ h; exact ⟨.solderMaskMargin a :: es, rfl⟩
    | clearance a => obtain ⟨es, rfl⟩ := ih _ h; exact ⟨.clearance a :: es, rfl⟩
    | thermalGap a => obtain ⟨es, rfl⟩ := ih _ h; exact ⟨.thermalGap a :: es, rfl⟩
    | zoneConnect a => obtain ⟨es, rfl⟩ := ih _ h; exact ⟨.zoneConnect a :: es, rfl⟩

theorem parts_entries (l : List Sexp) (es : List (PadEntry F)) :
    vec (Part.de (F := F)) l = .ok (es.map entryPart) ↔ Many PadEntryTree l es := by
  rw [vec_iff part_iff]
  constructor
  · intro h
    induction l generalizing es with
    | nil =>
      cases es with
      | nil => exact .nil
      | cons e es => cases h
    | cons x l ih =>
      cases es with
      | nil => cases h
      | cons e es =>
        cases h with
        | cons h1 h2 =>
          refine .cons ?_ (ih _ h2)
          rcases h1 with ⟨a, h, _⟩ | ⟨en, h, h'⟩
          · cases e <;> cases h
          · have : e = en := by cases e <;> cases en <;> simp_all [entryPart]
            rw [this]; exact h'
  · intro h
    induction h with
    | nil => exact .nil
    | cons h1 h2 ih => exact .cons (.inr ⟨_, rfl, h1⟩) ih

/-- Heads of the last parts of a pad. -/
def entryHeads : List (Option Str) :=
  [some (str! "net"), some (str! "solder_paste_margin"), some (str! "solder_mask_margin"), some (str! "clearance"),
   some (str! "thermal_gap"), some (str! "zone_connect")]

theorem entry_head (x : Sexp) (a : PadEntry F) (h : PadEntryTree x a) : headOf x ∈ entryHeads := by
  cases h with
  | net h => obtain ⟨_, rfl, _⟩ := h; simp [headOf, entryHeads]
  | solderPasteMargin h => obtain ⟨_, _, rfl, _⟩ := h; simp [headOf, entryHeads]
  | solderMaskMargin h => obtain ⟨_, _, rfl, _⟩ := h; simp [headOf, entryHeads]
  | clearance h => obtain ⟨_, _, rfl, _⟩ := h; simp [headOf, entryHeads]
  | thermalGap h => obtain ⟨_, _, rfl, _⟩ := h; simp [headOf, entryHeads]
  | zoneConnect h => obtain ⟨_, _, rfl, _⟩ := h; simp [headOf, entryHeads]

theorem pad_iff (e : Sexp) (t : Pad F) : Pad.de e = .ok t ↔ PadTree e t := by
  unfold Pad.de PadTree
  simp only [pointAt_iff]
  constructor
  · intro h
    obtain ⟨i, hi, h⟩ := Res.bind_eq_ok.1 h
    obtain ⟨⟨n, j1⟩, hn, h⟩ := Res.bind_eq_ok.1 h
    obtain ⟨⟨ty, j2⟩, hty, h⟩ := Res.bind_eq_ok.1 h
    obtain ⟨pt, hpt, h⟩ := Res.bind_eq_ok.1 h
    obtain ⟨⟨sh, j3⟩, hsh, h⟩ := Res.bind_eq_ok.1 h
    obtain ⟨ps, hps, h⟩ := Res.bind_eq_ok.1 h
    dsimp only at h
    obtain ⟨⟨o1, i2⟩, h1, h⟩ := Res.bind_eq_ok.1 h
    dsimp only at h
    obtain ⟨⟨o2, i3⟩, h2, h⟩ := Res.bind_eq_ok.1 h
    dsimp only at h
    obtain ⟨⟨o3, i4⟩, h3, h⟩ := Res.bind_eq_ok.1 h
    dsimp only at h
    obtain ⟨⟨o4, i5⟩, h4, h⟩ := Res.bind_eq_ok.1 h
    obtain ⟨parts, h5, h⟩ := Res.bind_eq_ok.1 h
    obtain ⟨es, rfl⟩ := addParts_split _ _ _ h
    rw [addParts_entries] at h
    have hfin := Res.ok.inj h
    clear h
    rw [iter_iff] at hi
    obtain ⟨_, rfl, en⟩ := (eat_iff ..).1 hn
    obtain ⟨_, rfl, et⟩ := (eat_iff ..).1 hty
    obtain ⟨_, rfl, es'⟩ := (eat_iff ..).1 hsh
    rw [string_iff] at en et es'
    subst en et es'
    obtain ⟨a1, rfl, ha1⟩ := maybe_split at_iff h1
    obtain ⟨a2, rfl, ha2⟩ := maybe_split xy_iff h2
    obtain ⟨a3, rfl, ha3⟩ := maybe_split drill_iff h3
    obtain ⟨a4, rfl, ha4⟩ := maybe_split layers_iff h4
    have h5 := (parts_entries ..).1 h5
    have hpt := (padType_iff ..).1 hpt
    have hps := (padShape_iff ..).1 hps
    clear h1 h2 h3 h4 hn hty hsh
    have g : t.name = n ∧ t.t = pt ∧ t.shape = ps ∧ t.drill = o3 ∧ t.at_ = o1.getD ⟨zero, zero, zero⟩ ∧
      t.size = pointAt o2 .size ∧ t.rectDelta = deltaAt o2 ∧
      t.layers = o4.getD [] ∧ t.net = (es.filterMap PadEntry.net?).getLast? ∧
      t.solderPasteMargin = (es.filterMap PadEntry.solderPasteMargin?).getLast? ∧
      t.solderMaskMargin = (es.filterMap PadEntry.solderMaskMargin?).getLast? ∧
      t.clearance = (es.filterMap PadEntry.clearance?).getLast? ∧
      t.thermalGap = (es.filterMap PadEntry.thermalGap?).getLast? ∧
      t.zoneConnect = (es.filterMap PadEntry.zoneConnect?).getLast? := by
      subst hfin
      cases o1 <;> cases o4 <;> cases o2 with
      | none => simp [withEntries, Pad.new, At.dflt, Xy.newEmpty, pointAt, deltaAt]
      | some q =>
        obtain ⟨x, y, t⟩ := q
        cases t <;> simp [withEntries, Pad.new, At.dflt, Xy.newEmpty, pointAt, deltaAt]
    obtain ⟨rfl, rfl, rfl, rfl, g1, g2, g3, g4, g5⟩ := g
    refine ⟨ty, sh, a1, a2, a3, a4, i5, o1, o2, o4, es, hi, hpt, hps, ha1, ha2, ha3, ha4, h5, g1, g2, ?_, g4, g5⟩
    rw [g3]
    cases o2 with
    | none => exact .inl ⟨by simp, rfl⟩
    | some q =>
      by_cases hq : q.t = .rectDelta
      · exact .inr ⟨q, rfl, hq, if_pos hq⟩
      · exact .inl ⟨by rintro _ e; cases e; exact hq, if_neg hq⟩
  · rintro ⟨ty, sh, a1, a2, a3, a4, a5, o1, o2, o4, es, rfl, hpt, hps, h1, h2, h3, h4, h5, g1, g2, g3, g4, g5, g6, g7, g8, g9, g10⟩
    have e5 := (parts_entries ..).2 h5
    have d5 := heads_many entry_head h5
    have e4 := maybe_take layers_iff Layers.de_calm h4 (free_of_heads layers_head d5 (by decide))
    have d4 := heads_opt layers_head h4 d5
    have e3 := maybe_take drill_iff Drill.de_calm h3 (free_of_heads drill_head d4 (by decide))
    have d3 := heads_opt drill_head h3 d4
    have e2 := maybe_take xy_iff Xy.de_calm h2 (free_of_heads xy_head d3 (by decide))
    have d2 := heads_opt xy_head h2 d3
    have e1 := maybe_take at_iff At.de_calm h1 (free_of_heads at_head d2 (by decide))
    simp only [(iter_iff ..).2 rfl, Res.bind_ok, eat, string_str, (padType_iff ..).2 hpt, (padShape_iff ..).2 hps,
      e1, e2, e3, e4, e5, addParts_entries]
    congr 1
    have gd : t.rectDelta = deltaAt o2 := by
      rcases g3 with ⟨h, h'⟩ | ⟨q, rfl, h, h'⟩
      · rw [h']
        cases o2 with
        | none => rfl
        | some q => exact (if_neg (h q rfl)).symm
      · rw [h']; exact (if_pos h).symm
    clear g3
    obtain ⟨n, pt, ps, sz, rd, at_, ly, nt, zc, dr, m1, m2, c, tg⟩ := t
    simp only at g1 g2 gd g4 g5 g6 g7 g8 g9 g10
    subst g1 g2 gd g4 g5 g6 g7 g8 g9 g10
    cases o1 <;> cases o4 <;> cases o2 with
    | none => simp [withEntries, Pad.new, At.dflt, Xy.newEmpty, pointAt, deltaAt]
    | some q =>
      obtain ⟨x, y, t⟩ := q
      cases t <;> simp [withEntries, Pad.new, At.dflt, Xy.newEmpty, pointAt, deltaAt]

/-! ## Footprints -/

theorem stamp_iff (n : Str) (r : List Sexp) (i : Int) : stamp (.list (.str n :: r)) = .ok i ↔
    FirstValue n (fun v i => ∃ w, v = .str w ∧ HexWord w i) (.list (.str n :: r)) i := by
  unfold stamp
  simp only [Res.bind_eq_ok]
  constructor
  · rintro ⟨w, hw, h⟩
    obtain ⟨v, rest, e, hv⟩ := (firstValue_iff string_iff n r w).1 hw
    refine ⟨v, rest, e, w, hv, ?_⟩
    rw [← hexWord_iff]
    cases h' : readI64 16 w with
    | none => rw [h'] at h; cases h
    | some j => rw [h'] at h; cases h; rfl
  · rintro ⟨v, rest, e, w, hv, hw⟩
    refine ⟨w, (firstValue_iff string_iff n r w).2 ⟨v, rest, e, hv⟩, ?_⟩
    rw [(hexWord_iff w i).2 hw]

theorem map_eq_ok {α β : Type} (f : α → β) (x : Res α) (b : β) : f <$> x = .ok b ↔ ∃ a, x = .ok a ∧ f a = b := by
  cases x with
  | ok a => exact ⟨fun h => ⟨a, rfl, Res.ok.inj h⟩, by rintro ⟨_, h, rfl⟩; cases h; rfl⟩
  | err e => exact ⟨fun h => (by cases h), by rintro ⟨_, h, rfl⟩; cases h⟩
  | panic => exact ⟨fun h => (by cases h), by rintro ⟨_, h, rfl⟩; cases h⟩
  | diverge => exact ⟨fun h => (by cases h), by rintro ⟨_, h, rfl⟩; cases h⟩

theorem word_iff (x : Sexp) (a : Str) : string x = .ok a ↔ WordTree x a := string_iff x a

theorem elem_iff (e : Sexp) (t : Elem F) : Elem.de e = .ok t ↔ ElemTree e t := by
  constructor
  · intro h
    unfold Elem.de at h
    split at h
    · split at h
      · rename_i h'; subst h'; cases h; exact .locked
      · cases h
    · cases h
    · obtain ⟨n, hn, h⟩ := Res.bind_eq_ok.1 h
      obtain ⟨r, hr⟩ := (listName_iff ..).1 hn
      rw [hr] at h ⊢
      clear hn hr
      by_cases c : n = str! "solder_mask_margin"
      · rw [if_pos c] at h
        subst c
        obtain ⟨a, ha, rfl⟩ := (map_eq_ok ..).1 h
        exact .solderMaskMargin ((firstValue_iff num_iff ..).1 ha)
      rw [if_neg c] at h
      clear c
      by_cases c : n = str! "layer"
      · rw [if_pos c] at h
        subst c
        obtain ⟨a, ha, rfl⟩ := (map_eq_ok ..).1 h
        exact .layer ((layer_iff ..).1 ha)
      rw [if_neg c] at h
      clear c
      by_cases c : n = str! "descr"
      · rw [if_pos c] at h
        subst c
        obtain ⟨a, ha, rfl⟩ := (map_eq_ok ..).1 h
        exact .descr ((firstValue_iff word_iff ..).1 ha)
      rw [if_neg c] at h
      clear c
      by_cases c : n = str! "tags"
      · rw [if_pos c] at h
        subst c
        obtain ⟨a, ha, rfl⟩ := (map_eq_ok ..).1 h
        exact .tags ((firstValue_iff word_iff ..).1 ha)
      rw [if_neg c] at h
      clear c
      by_cases c : n = str! "attr"
      · rw [if_pos c] at h
        subst c
        obtain ⟨a, ha, rfl⟩ := (map_eq_ok ..).1 h
        exact .attr ((firstValue_iff word_iff ..).1 ha)
      rw [if_neg c] at h
      clear c
      by_cases c : n = str! "fp_text"
      · rw [if_pos c] at h
        subst c
        obtain ⟨a, ha, rfl⟩ := (map_eq_ok ..).1 h
        exact .text ((fpText_iff ..).1 ha)
      rw [if_neg c] at h
      clear c
      by_cases c : n = str! "pad"
      · rw [if_pos c] at h
        subst c
        obtain ⟨a, ha, rfl⟩ := (map_eq_ok ..).1 h
        exact .pad ((pad_iff ..).1 ha)
      rw [if_neg c] at h
      clear c
      by_cases c : n = str! "fp_poly"
      · rw [if_pos c] at h
        subst c
        obtain ⟨a, ha, rfl⟩ := (map_eq_ok ..).1 h
        exact .poly ((fpPoly_iff ..).1 ha)
      rw [if_neg c] at h
      clear c
      by_cases c : n = str! "fp_line"
      · rw [if_pos c] at h
        subst c
        obtain ⟨a, ha, rfl⟩ := (map_eq_ok ..).1 h
        exact .line ((fpLine_iff ..).1 ha)
      rw [if_neg c] at h
      clear c
      by_cases c : n = str! "fp_circle"
      · rw [if_pos c] at h
        subst c
        obtain ⟨a, ha, rfl⟩ := (map_eq_ok ..).1 h
        exact .circle ((fpCircle_iff ..).1 ha)
      rw [if_neg c] at h
      clear c
      by_cases c : n = str! "fp_arc"
      · rw [if_pos c] at h
        subst c
        obtain ⟨a, ha, rfl⟩ := (map_eq_ok ..).1 h
        exact .arc ((fpArc_iff ..).1 ha)
      rw [if_neg c] at h
      clear c
      by_cases c : n = str! "tedit"
      · rw [if_pos c] at h
        subst c
        obtain ⟨a, ha, rfl⟩ := (map_eq_ok ..).1 h
        exact .tedit ((stamp_iff ..).1 ha)
      rw [if_neg c] at h
      clear c
      by_cases c : n = str! "tstamp"
      · rw [if_pos c] at h
        subst c
        obtain ⟨a, ha, rfl⟩ := (map_eq_ok ..).1 h
        exact .tstamp ((stamp_iff ..).1 ha)
      rw [if_neg c] at h
      clear c
      by_cases c : n = str! "path"
      · rw [if_pos c] at h
        subst c
        obtain ⟨a, ha, rfl⟩ := (map_eq_ok ..).1 h
        exact .path ((firstValue_iff word_iff ..).1 ha)
      rw [if_neg c] at h
      clear c
      by_cases c : n = str! "at"
      · rw [if_pos c] at h
        subst c
        obtain ⟨a, ha, rfl⟩ := (map_eq_ok ..).1 h
        exact .at_ ((at_iff ..).1 ha)
      rw [if_neg c] at h
      clear c
      by_cases c : n = str! "model"
      · rw [if_pos c] at h
        subst c
        obtain ⟨a, ha, rfl⟩ := (map_eq_ok ..).1 h
        exact .model ((model_iff ..).1 ha)
      rw [if_neg c] at h
      clear c
      by_cases c : n = str! "clearance"
      · rw [if_pos c] at h
        subst c
        obtain ⟨a, ha, rfl⟩ := (map_eq_ok ..).1 h
        exact .clearance ((firstValue_iff num_iff ..).1 ha)
      rw [if_neg c] at h
      clear c
      cases h
  · intro h
    cases h with
    | locked => rfl
    | solderMaskMargin h =>
      obtain ⟨v, r, rfl, hv⟩ := h
      exact (map_eq_ok Elem.solderMaskMargin _ _).2 ⟨_, (firstValue_iff num_iff ..).2 ⟨v, r, rfl, hv⟩, rfl⟩
    | clearance h =>
      obtain ⟨v, r, rfl, hv⟩ := h
      exact (map_eq_ok Elem.clearance _ _).2 ⟨_, (firstValue_iff num_iff ..).2 ⟨v, r, rfl, hv⟩, rfl⟩
    | descr h =>
      obtain ⟨v, r, rfl, hv⟩ := h
      exact (map_eq_ok Elem.descr _ _).2 ⟨_, (firstValue_iff word_iff ..).2 ⟨v, r, rfl, hv⟩, rfl⟩
    | tags h =>
      obtain ⟨v, r, rfl, hv⟩ := h
      exact (map_eq_ok Elem.tags _ _).2 ⟨_, (firstValue_iff word_iff ..).2 ⟨v, r, rfl, hv⟩, rfl⟩
    | attr h =>
      obtain ⟨v, r, rfl, hv⟩ := h
      exact (map_eq_ok Elem.attr _ _).2 ⟨_, (firstValue_iff word_iff ..).2 ⟨v, r, rfl, hv⟩, rfl⟩
    | path h =>
      obtain ⟨v, r, rfl, hv⟩ := h
      exact (map_eq_ok Elem.path _ _).2 ⟨_, (firstValue_iff word_iff ..).2 ⟨v, r, rfl, hv⟩, rfl⟩
    | tedit h =>
      obtain ⟨v, r, rfl, hv⟩ := h
      exact (map_eq_ok Elem.tedit _ _).2 ⟨_, (stamp_iff ..).2 ⟨v, r, rfl, hv⟩, rfl⟩
    | tstamp h =>
      obtain ⟨v, r, rfl, hv⟩ := h
      exact (map_eq_ok Elem.tstamp _ _).2 ⟨_, (stamp_iff ..).2 ⟨v, r, rfl, hv⟩, rfl⟩
    | layer h =>
      have h' := (layer_iff ..).2 h
      obtain ⟨_, rfl, _⟩ := h
      exact (map_eq_ok Elem.layer _ _).2 ⟨_, h', rfl⟩
    | text h =>
      have h' := (fpText_iff ..).2 h
      obtain ⟨_, _, _, _, _, _, _, rfl, _⟩ := h
      exact (map_eq_ok Elem.text _ _).2 ⟨_, h', rfl⟩
    | pad h =>
      have h' := (pad_iff ..).2 h
      obtain ⟨_, _, _, _, _, _, _, _, _, _, _, rfl, _⟩ := h
      exact (map_eq_ok Elem.pad _ _).2 ⟨_, h', rfl⟩
    | poly h =>
      have h' := (fpPoly_iff ..).2 h
      obtain ⟨_, _, _, _, _, _, rfl, _⟩ := h
      exact (map_eq_ok Elem.poly _ _).2 ⟨_, h', rfl⟩
    | line h =>
      have h' := (fpLine_iff ..).2 h
      obtain ⟨_, _, _, rfl, _⟩ := h
      exact (map_eq_ok Elem.line _ _).2 ⟨_, h', rfl⟩
    | circle h =>
      have h' := (fpCircle_iff ..).2 h
      obtain ⟨_, _, _, rfl, _⟩ := h
      exact (map_eq_ok Elem.circle _ _).2 ⟨_, h', rfl⟩
    | arc h =>
      have h' := (fpArc_iff ..).2 h
      obtain ⟨_, _, _, _, _, _, _, _, _, _, rfl, _⟩ := h
      exact (map_eq_ok Elem.arc _ _).2 ⟨_, h', rfl⟩
    | at_ h =>
      have h' := (at_iff ..).2 h
      obtain ⟨_, _, _, _, rfl, _⟩ := h
      exact (map_eq_ok Elem.at_ _ _).2 ⟨_, h', rfl⟩
    | model h =>
      have h' := (model_iff ..).2 h
      obtain ⟨_, _, _, rfl, _⟩ := h
      exact (map_eq_ok Elem.model _ _).2 ⟨_, h', rfl⟩

theorem module_iff (e : Sexp) (m : Module F) : Module.de e = .ok m ↔ ModuleTree e m := by
  unfold Module.de ModuleTree
  constructor
  · intro h
    obtain ⟨i, hi, h⟩ := Res.bind_eq_ok.1 h
    obtain ⟨⟨n, i0⟩, hn, h⟩ := Res.bind_eq_ok.1 h
    obtain ⟨es, h1, h⟩ := Res.bind_eq_ok.1 h
    cases h
    rw [iter_iff] at hi
    obtain ⟨_, rfl, en⟩ := (eat_iff ..).1 hn
    rw [string_iff] at en
    subst en
    exact ⟨i0, hi, (vec_iff elem_iff ..).1 h1⟩
  · rintro ⟨parts, rfl, h⟩
    simp only [(iter_iff ..).2 rfl, Res.bind_ok, eat, string_str, (vec_iff elem_iff ..).2 h]

end Fp
end Verif
