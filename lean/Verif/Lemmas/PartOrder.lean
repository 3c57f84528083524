import Mathlib.Data.List.Nodup
import Mathlib.Data.List.Pairwise
import Mathlib.Data.List.Perm.Basic
import Verif.Spec.PartOrder
/-!
# Lemmas about the order of the parts of a list
-/

namespace Verif
open Spec

namespace Shuf
variable {F : Type} [Flt F]

/-- The names of points. -/
def points : List Str := [str! "xy", str! "start", str! "end", str! "size", str! "center", str! "rect_delta"]

/-- The name of a part; all points count as one name. -/
def key : Sexp → Str
  | .str s => s
  | .list (.str n :: _) => if n ∈ points then str! "size" else n
  | _ => []

theorem key_list {n : Str} {r : List Sexp} (h : n ∉ points) : key (.list (.str n :: r)) = n := if_neg h

/-- The place of a name in a list of names. -/
theorem pairwise_idx (K : List Str) (hK : K.Nodup) : K.Pairwise fun a b => K.idxOf a < K.idxOf b := by
  induction K with
  | nil => exact .nil
  | cons k K ih =>
    obtain ⟨h1, h2⟩ := List.nodup_cons.1 hK
    refine .cons (fun b hb => ?_) ((ih h2).imp_of_mem fun {a b} ha hb h => ?_)
    · have : k ≠ b := by rintro rfl; exact h1 hb
      rw [List.idxOf_cons_self, List.idxOf_cons_ne _ this]
      omega
    · have ha' : k ≠ a := by rintro rfl; exact h1 ha
      have hb' : k ≠ b := by rintro rfl; exact h1 hb
      rw [List.idxOf_cons_ne _ ha', List.idxOf_cons_ne _ hb']
      omega

theorem ordered (K : List Str) (hK : K.Nodup) (l : List Sexp) (h : (l.map key).Sublist K) :
    l.Pairwise fun a b => K.idxOf (key a) < K.idxOf (key b) := by
  have := (pairwise_idx K hK).sublist h
  rwa [List.pairwise_map] at this

theorem fixed_eq {K : List Str} (hK : K.Nodup) {l l' : List Sexp} (h : (l.map key).Sublist K)
    (h' : (l'.map key).Sublist K) (hp : l.Perm l') : l = l' :=
  hp.eq_of_pairwise (fun a b _ _ h1 h2 => absurd h1 (by omega)) (ordered K hK l h) (ordered K hK l' h')

theorem strip {w w' : Str} {xs ys : List Sexp} (hp : (Sexp.str w :: xs).Perm (.str w' :: ys))
    (hw : wordsOf (.str w :: xs) = wordsOf (.str w' :: ys)) : w = w' ∧ xs.Perm ys ∧ wordsOf xs = wordsOf ys := by
  simp only [wordsOf, List.cons.injEq] at hw
  obtain ⟨rfl, hw⟩ := hw
  exact ⟨rfl, hp.cons_inv, hw⟩

theorem strips : ∀ (ws ws' : List Str) {xs ys : List Sexp}, ws.length = ws'.length →
    (ws.map Sexp.str ++ xs).Perm (ws'.map Sexp.str ++ ys) →
    wordsOf (ws.map Sexp.str ++ xs) = wordsOf (ws'.map Sexp.str ++ ys) → ws = ws' ∧ xs.Perm ys ∧ wordsOf xs = wordsOf ys
  | [], [], _, _, _, hp, hw => ⟨rfl, hp, hw⟩
  | [], _ :: _, _, _, h, _, _ => by simp at h
  | _ :: _, [], _, _, h, _, _ => by simp at h
  | w :: ws, w' :: ws', _, _, h, hp, hw => by
    obtain ⟨rfl, hp, hw⟩ := strip hp hw
    obtain ⟨rfl, h1, h2⟩ := strips ws ws' (by simpa using h) hp hw
    exact ⟨rfl, h1, h2⟩

/-- A list that has a name, `n` words, at most two points and then parts with the names in `K`, in this order. -/
def Fixed (h : Str) (n : Nat) (K : List Str) (e : Sexp) : Prop :=
  ∃ (ws : List Str) (P R : List Sexp), e = .list (.str h :: (ws.map Sexp.str ++ (P ++ R))) ∧ ws.length = n ∧ P.length ≤ 2 ∧
    (∀ p ∈ P, key p = str! "size") ∧ (R.map key).Sublist K

theorem filter_split {P R : List Sexp} {K : List Str} (hK : str! "size" ∉ K) (hP : ∀ p ∈ P, key p = str! "size")
    (hR : (R.map key).Sublist K) :
    (P ++ R).filter (fun x => key x = str! "size") = P ∧ (P ++ R).filter (fun x => key x ≠ str! "size") = R := by
  have hR' : ∀ r ∈ R, key r ≠ str! "size" := by
    intro r hr he
    exact hK (he ▸ hR.subset (List.mem_map_of_mem hr))
  constructor
  · rw [List.filter_append, List.filter_eq_self.2 (by simpa using hP), List.filter_eq_nil_iff.2 (by simpa using hR'),
      List.append_nil]
  · rw [List.filter_append, List.filter_eq_nil_iff.2 (by simpa using hP), List.filter_eq_self.2 (by simpa using hR'),
      List.nil_append]

theorem two_perm {P P' : List Sexp} (h : P.Perm P') (hl : P.length ≤ 2) : P = P' ∨ ∃ a b, P = [a, b] ∧ P' = [b, a] := by
  match P, hl with
  | [], _ => exact .inl (List.nil_perm.1 h).symm
  | [a], _ => exact .inl (List.singleton_perm.1 h)
  | [a, b], _ =>
    have hl := h.length_eq
    match P', hl with
    | [c, d], _ =>
      have hc : c ∈ [a, b] := h.symm.subset (by simp)
      simp only [List.mem_cons, List.not_mem_nil, or_false] at hc
      rcases hc with rfl | rfl
      · have := h.cons_inv
        rw [List.singleton_perm] at this
        exact .inl (by rw [this])
      · have := (List.Perm.swap a c []).trans h
        have := this.cons_inv
        rw [List.singleton_perm] at this
        cases this
        exact .inr ⟨_, _, rfl, rfl⟩

/-- Two readings of lists of this kind that differ in the order of their parts. -/
theorem fixed {h : Str} {n : Nat} {K : List Str} (hK : K.Nodup) (hs : str! "size" ∉ K) {e e' : Sexp} (h1 : Fixed h n K e)
    (h2 : Fixed h n K e') (hsh : Shuffled e e') :
    e = e' ∨ ∃ (ws : List Str) (a b : Sexp) (R : List Sexp), e = .list (.str h :: (ws.map Sexp.str ++ (a :: b :: R))) ∧
      e' = .list (.str h :: (ws.map Sexp.str ++ (b :: a :: R))) ∧ ws.length = n := by
  obtain ⟨g, xs, ys, he, he', hp, hw⟩ := hsh
  obtain ⟨ws, P, R, h1, hn, hl, hP, hR⟩ := h1
  obtain ⟨ws', P', R', h2, hn', hl', hP', hR'⟩ := h2
  rw [h1] at he
  rw [h2] at he'
  simp only [Sexp.list.injEq, List.cons.injEq, Sexp.str.injEq] at he he'
  obtain ⟨rfl, rfl⟩ := he
  obtain ⟨-, rfl⟩ := he'
  obtain ⟨rfl, hp, -⟩ := strips ws ws' (hn.trans hn'.symm) hp hw
  obtain ⟨f1, f2⟩ := filter_split hs hP hR
  obtain ⟨g1, g2⟩ := filter_split hs hP' hR'
  have hPP := hp.filter (fun x => key x = str! "size")
  have hRR := hp.filter (fun x => key x ≠ str! "size")
  rw [f1, g1] at hPP
  rw [f2, g2] at hRR
  have := fixed_eq hK hR hR' hRR
  subst this
  rcases two_perm hPP hl with rfl | ⟨a, b, rfl, rfl⟩
  · exact .inl (h1.trans h2.symm)
  · exact .inr ⟨ws, a, b, R, h1, h2, hn⟩

/-- The same without points. -/
def FixedN (h : Str) (n : Nat) (K : List Str) (e : Sexp) : Prop :=
  ∃ (ws : List Str) (R : List Sexp), e = .list (.str h :: (ws.map Sexp.str ++ R)) ∧ ws.length = n ∧ (R.map key).Sublist K

theorem fixedN {h : Str} {n : Nat} {K : List Str} (hK : K.Nodup) {e e' : Sexp} (h1 : FixedN h n K e)
    (h2 : FixedN h n K e') (hsh : Shuffled e e') : e = e' := by
  obtain ⟨g, xs, ys, he, he', hp, hw⟩ := hsh
  obtain ⟨ws, R, h1, hn, hR⟩ := h1
  obtain ⟨ws', R', h2, hn', hR'⟩ := h2
  rw [h1] at he
  rw [h2] at he'
  simp only [Sexp.list.injEq, List.cons.injEq, Sexp.str.injEq] at he he'
  obtain ⟨rfl, rfl⟩ := he
  obtain ⟨-, rfl⟩ := he'
  obtain ⟨rfl, hp, -⟩ := strips ws ws' (hn.trans hn'.symm) hp hw
  have := fixed_eq hK hR hR' hp
  subst this
  exact h1.trans h2.symm

theorem opt_key {α : Type} {P : Sexp → α → Prop} {n : Str} (hP : ∀ x a, P x a → key x = n) {l : List Sexp} {o : Option α}
    (h : Opt P l o) : (l.map key).Sublist [n] := by
  rcases h with ⟨rfl, -⟩ | ⟨x, a, rfl, h, -⟩
  · exact List.nil_sublist _
  · rw [List.map_singleton, hP x a h]

theorem one_key {α : Type} {P : Sexp → α → Prop} {n : Str} (hP : ∀ x a, P x a → key x = n) {x : Sexp} {a : α}
    (h : P x a) : ([x].map key).Sublist [n] := by
  rw [List.map_singleton, hP x a h]

theorem app {l m : List Sexp} {K L : List Str} (h : (l.map key).Sublist K) (h' : (m.map key).Sublist L) :
    ((l ++ m).map key).Sublist (K ++ L) := by
  rw [List.map_append]; exact h.append h'

theorem cns {x : Sexp} {m : List Sexp} {k : Str} {L : List Str} (h : key x = k) (h' : (m.map key).Sublist L) :
    ((x :: m).map key).Sublist (k :: L) := by
  rw [List.map_cons, h]; exact h'.cons_cons _

theorem word_key {b : Bool} {w : Str} : ((if b = true then [Sexp.str w] else []).map key).Sublist [w] := by
  cases b
  · exact List.nil_sublist _
  · exact List.Sublist.refl _

theorem nil_key : (([] : List Sexp).map key).Sublist [] := List.Sublist.refl _

theorem named_key {α : Type} {P : Sexp → α → Prop} {n : Str} (hn : n ∉ points) (x : Sexp) (a : α) (h : Named n P x a) :
    key x = n := by
  obtain ⟨v, rfl, -⟩ := h; exact key_list hn

theorem at_key (x : Sexp) (a : Fp.At F) (h : AtTree x a) : key x = str! "at" := by
  obtain ⟨_, _, _, _, rfl, -⟩ := h; exact key_list (by decide)
theorem layer_key (x : Sexp) (a : Fp.Layer) (h : LayerTree x a) : key x = str! "layer" := by
  obtain ⟨_, rfl, -⟩ := h; exact key_list (by decide)
theorem font_key (x : Sexp) (a : Fp.Font F) (h : FontTree x a) : key x = str! "font" := by
  obtain ⟨_, _, _, _, _, rfl, -⟩ := h; exact key_list (by decide)
theorem justify_key (x : Sexp) (a : Fp.Justify) (h : JustifyTree x a) : key x = str! "justify" := by
  obtain ⟨_, _, rfl, -⟩ := h; exact key_list (by decide)
theorem effects_key (x : Sexp) (a : Fp.Effects F) (h : EffectsTree x a) : key x = str! "effects" := by
  obtain ⟨_, _, rfl, -⟩ := h; exact key_list (by decide)
theorem layers_key (x : Sexp) (a : List Fp.Layer) (h : LayersTree x a) : key x = str! "layers" := by
  obtain ⟨_, rfl, -⟩ := h; exact key_list (by decide)
theorem pts_key (x : Sexp) (a : List (Fp.Xy F)) (h : PtsTree x a) : key x = str! "pts" := by
  obtain ⟨_, rfl, -⟩ := h; exact key_list (by decide)
theorem drill_key (x : Sexp) (a : Fp.Drill F) (h : DrillTree x a) : key x = str! "drill" := by
  obtain ⟨_, _, _, _, _, _, rfl, -⟩ := h; exact key_list (by decide)
theorem area_key (x : Sexp) (a : Lay.Area F) (h : AreaTree x a) : key x = str! "area" := by
  obtain ⟨_, _, _, _, rfl, -⟩ := h; exact key_list (by decide)
theorem grText_key (x : Sexp) (a : Lay.GrText F) (h : GrTextTree x a) : key x = str! "gr_text" := by
  obtain ⟨_, _, _, _, rfl, -⟩ := h; exact key_list (by decide)

theorem xy_key (x : Sexp) (a : Fp.Xy F) (h : XyTree x a) : key x = str! "size" := by
  obtain ⟨n, _, _, rfl, hn, -⟩ := h
  have : n ∈ points := by
    have h : ∀ p ∈ xyNames, p.1 ∈ points := by decide
    exact h _ hn
  exact if_pos this

theorem xy_opt {l : List Sexp} {o : Option (Fp.Xy F)} (h : Opt XyTree l o) : l.length ≤ 1 ∧ ∀ p ∈ l, key p = str! "size" := by
  rcases h with ⟨rfl, -⟩ | ⟨x, a, rfl, h, -⟩
  · simp
  · simpa using xy_key x a h

/-! ## Parts that may trade places -/

/-- What is read from rearranged parts, if parts that may trade places have nothing in common under `f`. -/
theorem many_swap {α : Type} {P : Sexp → α → Prop} {allowed : Sexp → Sexp → Prop} {l l' : List Sexp}
    (h : Rearranged allowed l l') : ∀ as, Many P l as → ∃ as', Many P l' as' ∧ as.Perm as' ∧
      ∀ (β : Type) (f : α → Option β), (∀ x y a b, allowed x y → P x a → P y b → f a = none ∨ f b = none) →
        as.filterMap f = as'.filterMap f := by
  induction h with
  | refl l => exact fun as h => ⟨as, h, .refl _, fun _ _ _ => rfl⟩
  | swap a b x y hxy =>
    intro as h
    induction a generalizing as with
    | nil =>
      cases h with
      | cons hx h =>
        cases h with
        | cons hy h =>
          rename_i u v w
          refine ⟨v :: u :: w, .cons hy (.cons hx h), .swap _ _ _, fun β f hf => ?_⟩
          rcases hf x y u v hxy hx hy with h0 | h0
          · simp only [List.filterMap_cons, h0]
          · simp only [List.filterMap_cons, h0]
    | cons c a ih =>
      cases h with
      | cons hc h =>
        obtain ⟨as', h1, h2, h3⟩ := ih _ h
        refine ⟨_ :: as', .cons hc h1, .cons _ h2, fun β f hf => ?_⟩
        rw [List.filterMap_cons, List.filterMap_cons, h3 β f hf]
  | trans _ _ ih ih' =>
    intro as h
    obtain ⟨as', h1, h2, h3⟩ := ih as h
    obtain ⟨as'', h4, h5, h6⟩ := ih' as' h1
    exact ⟨as'', h4, h2.trans h5, fun β f hf => (h3 β f hf).trans (h6 β f hf)⟩

theorem many_perm {α : Type} {P : Sexp → α → Prop} {l l' : List Sexp} (h : l.Perm l') :
    ∀ as, Many P l as → ∃ as', Many P l' as' ∧ as.Perm as' := by
  induction h with
  | nil => intro as h; exact ⟨as, h, .refl _⟩
  | cons x _ ih =>
    intro as h
    cases h with
    | cons hx h =>
      obtain ⟨as', h1, h2⟩ := ih _ h
      exact ⟨_, .cons hx h1, .cons _ h2⟩
  | swap x y l =>
    intro as h
    cases h with
    | cons hx h =>
      cases h with
      | cons hy h => exact ⟨_, .cons hy (.cons hx h), .swap _ _ _⟩
  | trans _ _ ih ih' =>
    intro as h
    obtain ⟨as', h1, h2⟩ := ih as h
    obtain ⟨as'', h3, h4⟩ := ih' as' h1
    exact ⟨as'', h3, h2.trans h4⟩

/-! ## The kinds of lists -/

theorem font_fixed {e : Sexp} {v : Fp.Font F} (h : FontTree e v) :
    FixedN (str! "font") 0 [str! "size", str! "thickness", str! "italic"] e := by
  obtain ⟨a, b, c, o, w, rfl, h1, h2, rfl, -⟩ := h
  exact ⟨[], _, rfl, rfl, app (opt_key xy_key h1) (app (opt_key (named_key (by decide)) h2) word_key)⟩

theorem effects_fixed {e : Sexp} {v : Fp.Effects F} (h : EffectsTree e v) :
    FixedN (str! "effects") 0 [str! "font", str! "justify"] e := by
  obtain ⟨a, b, rfl, h1, h2⟩ := h
  exact ⟨[], _, rfl, rfl, cns (font_key _ _ h1) (opt_key justify_key h2)⟩

theorem text_fixed {e : Sexp} {v : Fp.FpText F} (h : FpTextTree e v) :
    FixedN (str! "fp_text") 2 [str! "at", str! "layer", str! "hide", str! "effects"] e := by
  obtain ⟨a, b, c, d, o, p, q, rfl, h1, h2, rfl, h3, -⟩ := h
  exact ⟨[v.name, v.value], _, rfl, rfl,
    app (opt_key at_key h1) (app (opt_key layer_key h2) (app word_key (opt_key effects_key h3)))⟩

theorem poly_fixed {e : Sexp} {v : Fp.FpPoly F} (h : FpPolyTree e v) :
    FixedN (str! "fp_poly") 0 [str! "pts", str! "layer", str! "width"] e := by
  obtain ⟨a, b, c, o, p, q, rfl, h1, h2, h3, -⟩ := h
  exact ⟨[], _, rfl, rfl, app (opt_key pts_key h1) (app (opt_key layer_key h2) (opt_key (named_key (by decide)) h3))⟩

theorem model_fixed {e : Sexp} {v : Fp.Model F} (h : ModelTree e v) :
    FixedN (str! "model") 1 [str! "at", str! "scale", str! "rotate"] e := by
  obtain ⟨a, b, c, rfl, h1, h2, h3⟩ := h
  exact ⟨[v.name], _, rfl, rfl, cns (named_key (by decide) _ _ h1) (cns (named_key (by decide) _ _ h2)
    (cns (named_key (by decide) _ _ h3) nil_key))⟩

theorem parts_fixed {n : Str} {parts : List Sexp} {a b : Option (Fp.Xy F)} {l : Fp.Layer} {w : F}
    (h : LineParts parts a b l w) : Fixed n 0 [str! "layer", str! "width"] (.list (.str n :: parts)) := by
  obtain ⟨a, b, l, w, lo, wo, rfl, h1, h2, -, h3, h4, -⟩ := h
  obtain ⟨h5, h6⟩ := xy_opt h1
  obtain ⟨h7, h8⟩ := xy_opt h2
  refine ⟨[], a ++ b, l ++ w, by simp, rfl, by rw [List.length_append]; omega, ?_,
    app (opt_key layer_key h3) (opt_key (named_key (by decide)) h4)⟩
  intro p hp
  rcases List.mem_append.1 hp with hp | hp
  · exact h6 p hp
  · exact h8 p hp

theorem line_fixed {e : Sexp} {v : Fp.FpLine F} (h : FpLineTree e v) :
    Fixed (str! "fp_line") 0 [str! "layer", str! "width"] e := by
  obtain ⟨_, _, _, rfl, h, -⟩ := h; exact parts_fixed h

theorem circle_fixed {e : Sexp} {v : Fp.FpCircle F} (h : FpCircleTree e v) :
    Fixed (str! "fp_circle") 0 [str! "layer", str! "width"] e := by
  obtain ⟨_, _, _, rfl, h, -⟩ := h; exact parts_fixed h

theorem arc_fixed {e : Sexp} {v : Fp.FpArc F} (h : FpArcTree e v) :
    Fixed (str! "fp_arc") 0 [str! "angle", str! "layer", str! "width"] e := by
  obtain ⟨a, b, g, l, w, ao, bo, go, lo, wo, rfl, h1, h2, -, h3, h4, h9, -⟩ := h
  obtain ⟨h5, h6⟩ := xy_opt h1
  obtain ⟨h7, h8⟩ := xy_opt h2
  refine ⟨[], a ++ b, g ++ (l ++ w), by simp, rfl, by rw [List.length_append]; omega, ?_,
    app (opt_key (named_key (by decide)) h3) (app (opt_key layer_key h4) (opt_key (named_key (by decide)) h9))⟩
  intro p hp
  rcases List.mem_append.1 hp with hp | hp
  · exact h6 p hp
  · exact h8 p hp

theorem general_fixed {e : Sexp} {v : Lay.General F} (h : GeneralTree e v) :
    FixedN (str! "general") 0 [str! "links", str! "no_connects", str! "area", str! "thickness", str! "drawings",
      str! "tracks", str! "zones", str! "modules", str! "nets"] e := by
  obtain ⟨_, _, _, _, _, _, _, _, _, rfl, h1, h2, h3, h4, h5, h6, h7, h8, h9⟩ := h
  exact ⟨[], _, rfl, rfl, cns (named_key (by decide) _ _ h1) (cns (named_key (by decide) _ _ h2)
    (cns (area_key _ _ h3) (cns (named_key (by decide) _ _ h4) (cns (named_key (by decide) _ _ h5)
    (cns (named_key (by decide) _ _ h6) (cns (named_key (by decide) _ _ h7) (cns (named_key (by decide) _ _ h8)
    (cns (named_key (by decide) _ _ h9) nil_key))))))))⟩

theorem grText_fixed {e : Sexp} {v : Lay.GrText F} (h : GrTextTree e v) :
    FixedN (str! "gr_text") 1 [str! "at", str! "layer", str! "effects", str! "tstamp"] e := by
  obtain ⟨_, _, _, _, rfl, h1, h2, h3, h4⟩ := h
  exact ⟨[v.value], _, rfl, rfl, cns (at_key _ _ h1) (cns (layer_key _ _ h2) (cns (effects_key _ _ h3)
    (opt_key (named_key (by decide)) h4)))⟩

theorem two_points {a b : Sexp} {p q : Fp.Xy F} (h1 : XyTree a p) (h2 : XyTree b q) :
    ∀ x ∈ [a, b], key x = str! "size" := by
  intro x hx
  simp only [List.mem_cons, List.not_mem_nil, or_false] at hx
  rcases hx with rfl | rfl
  · exact xy_key _ _ h1
  · exact xy_key _ _ h2

theorem grLine_fixed {e : Sexp} {v : Lay.GrLine F} (h : GrLineTree e v) :
    Fixed (str! "gr_line") 0 [str! "angle", str! "layer", str! "width", str! "tstamp"] e := by
  obtain ⟨a, b, _, _, _, _, _, _, rfl, h1, h2, h3, h4, h5, h6, -⟩ := h
  exact ⟨[], [a, b], _, rfl, rfl, Nat.le_refl _, two_points h1 h2, app (opt_key (named_key (by decide)) h3)
    (cns (layer_key _ _ h4) (app (opt_key (named_key (by decide)) h5) (opt_key (named_key (by decide)) h6)))⟩

theorem grArc_fixed {e : Sexp} {v : Lay.GrArc F} (h : GrArcTree e v) :
    Fixed (str! "gr_arc") 0 [str! "angle", str! "layer", str! "width", str! "tstamp"] e := by
  obtain ⟨a, b, _, _, _, _, _, rfl, h1, h2, h3, h4, h5, h6, -⟩ := h
  exact ⟨[], [a, b], _, rfl, rfl, Nat.le_refl _, two_points h1 h2, cns (named_key (by decide) _ _ h3)
    (cns (layer_key _ _ h4) (app (opt_key (named_key (by decide)) h5) (opt_key (named_key (by decide)) h6)))⟩

theorem grCircle_fixed {e : Sexp} {v : Lay.GrCircle F} (h : GrCircleTree e v) :
    Fixed (str! "gr_circle") 0 [str! "layer", str! "width", str! "tstamp"] e := by
  obtain ⟨a, b, _, _, _, _, rfl, h1, h2, h4, h5, h6, -⟩ := h
  exact ⟨[], [a, b], _, rfl, rfl, Nat.le_refl _, two_points h1 h2,
    cns (layer_key _ _ h4) (app (opt_key (named_key (by decide)) h5) (opt_key (named_key (by decide)) h6))⟩

theorem segment_fixed {e : Sexp} {v : Lay.Segment F} (h : SegmentTree e v) :
    Fixed (str! "segment") 0 [str! "width", str! "layer", str! "net", str! "tstamp", str! "status"] e := by
  obtain ⟨a, b, _, _, _, _, _, rfl, h1, h2, h3, h4, h5, h6, h7⟩ := h
  exact ⟨[], [a, b], _, rfl, rfl, Nat.le_refl _, two_points h1 h2, cns (named_key (by decide) _ _ h3)
    (cns (layer_key _ _ h4) (cns (named_key (by decide) _ _ h5) (app (opt_key (named_key (by decide)) h6)
    (opt_key (named_key (by decide)) h7))))⟩

theorem via_fixed {e : Sexp} {v : Lay.Via F} (h : ViaTree e v) :
    FixedN (str! "via") 0 [str! "blind", str! "micro", str! "at", str! "size", str! "drill", str! "layers", str! "net"] e := by
  obtain ⟨_, _, _, _, _, _, _, _, _, rfl, rfl, rfl, h1, h2, h3, h4, h5, -⟩ := h
  obtain ⟨_, rfl, -⟩ := h2
  exact ⟨[], _, rfl, rfl, app word_key (app word_key (cns (at_key _ _ h1) (cns (by simp [key, points])
    (app (opt_key (named_key (by decide)) h3) (cns (layers_key _ _ h4) (opt_key (named_key (by decide)) h5))))))⟩

theorem dimension_fixed {e : Sexp} {v : Lay.Dimension F} (h : DimensionTree e v) :
    FixedN (str! "dimension") 1 [str! "width", str! "layer", str! "tstamp", str! "gr_text", str! "feature1",
      str! "feature2", str! "crossbar", str! "arrow1a", str! "arrow1b", str! "arrow2a", str! "arrow2b"] e := by
  obtain ⟨_, _, _, _, _, _, _, _, _, _, _, rfl, h1, h2, h3, h4, h5, h6, h7, h8, h9, h10, h11⟩ := h
  exact ⟨[v.name], _, rfl, rfl, cns (named_key (by decide) _ _ h1) (cns (layer_key _ _ h2)
    (app (opt_key (named_key (by decide)) h3) (cns (grText_key _ _ h4) (cns (named_key (by decide) _ _ h5)
    (cns (named_key (by decide) _ _ h6) (cns (named_key (by decide) _ _ h7) (cns (named_key (by decide) _ _ h8)
    (cns (named_key (by decide) _ _ h9) (cns (named_key (by decide) _ _ h10) (cns (named_key (by decide) _ _ h11)
    nil_key))))))))))⟩

theorem keepout_fixed {e : Sexp} {v : Lay.Keepout} (h : KeepoutTree e v) :
    FixedN (str! "keepout") 0 [str! "tracks", str! "vias", str! "copperpour"] e := by
  obtain ⟨_, _, _, rfl, h1, h2, h3⟩ := h
  exact ⟨[], _, rfl, rfl, cns (named_key (by decide) _ _ h1) (cns (named_key (by decide) _ _ h2)
    (cns (named_key (by decide) _ _ h3) nil_key))⟩

theorem fill_fixed {e : Sexp} {v : Lay.Fill F} (h : FillTree e v) :
    FixedN (str! "fill") 0 [str! "yes", str! "mode", str! "arc_segments", str! "thermal_gap",
      str! "thermal_bridge_width", str! "smoothing", str! "radius"] e := by
  obtain ⟨_, _, _, _, _, _, _, _, _, rfl, rfl, h1, h2, h3, h4, h5, h6, -⟩ := h
  exact ⟨[], _, rfl, rfl, app word_key (app (opt_key (named_key (by decide)) h1) (cns (named_key (by decide) _ _ h2)
    (cns (named_key (by decide) _ _ h3) (cns (named_key (by decide) _ _ h4) (app (opt_key (named_key (by decide)) h5)
    (opt_key (named_key (by decide)) h6))))))⟩

/-! ## Words and lists -/

theorem wordsOf_map (ws : List Str) (l : List Sexp) : wordsOf (ws.map Sexp.str ++ l) = ws ++ wordsOf l := by
  induction ws with
  | nil => rfl
  | cons w ws ih => simp [wordsOf, ih]

/-- A list of words with at most one list behind them. -/
def WordsThen (h : Str) (e : Sexp) : Prop :=
  ∃ (ws : List Str) (t : List Sexp), e = .list (.str h :: (ws.map Sexp.str ++ t)) ∧ (t = [] ∨ ∃ l, t = [.list l])

theorem wordsThen {h : Str} {e e' : Sexp} (h1 : WordsThen h e) (h2 : WordsThen h e') (hsh : Shuffled e e') : e = e' := by
  obtain ⟨g, xs, ys, he, he', hp, hw⟩ := hsh
  obtain ⟨ws, t, rfl, ht⟩ := h1
  obtain ⟨ws', t', rfl, ht'⟩ := h2
  simp only [Sexp.list.injEq, List.cons.injEq, Sexp.str.injEq] at he he'
  obtain ⟨rfl, rfl⟩ := he
  obtain ⟨-, rfl⟩ := he'
  rw [wordsOf_map, wordsOf_map] at hw
  have e1 : wordsOf t = [] := by rcases ht with rfl | ⟨l, rfl⟩ <;> rfl
  have e2 : wordsOf t' = [] := by rcases ht' with rfl | ⟨l, rfl⟩ <;> rfl
  rw [e1, e2, List.append_nil, List.append_nil] at hw
  subst hw
  have hp := (List.perm_append_left_iff _).1 hp
  rcases ht with rfl | ⟨l, rfl⟩
  · rw [List.nil_perm.1 hp]
  · rw [List.singleton_perm.1 hp]

theorem num_word {x : Sexp} {a : F} (h : NumTree x a) : ∃ w, x = .str w := by
  obtain ⟨w, rfl, -⟩ := h; exact ⟨w, rfl⟩

theorem opt_words {α : Type} {P : Sexp → α → Prop} (hP : ∀ x a, P x a → ∃ w, x = .str w) {l : List Sexp} {o : Option α}
    (h : Opt P l o) : ∃ ws : List Str, l = ws.map Sexp.str := by
  rcases h with ⟨rfl, -⟩ | ⟨x, a, rfl, h, -⟩
  · exact ⟨[], rfl⟩
  · obtain ⟨w, rfl⟩ := hP x a h
    exact ⟨[w], rfl⟩

theorem drill_words {e : Sexp} {v : Fp.Drill F} (h : DrillTree e v) : WordsThen (str! "drill") e := by
  obtain ⟨oval, w, ht, off, ho, oo, rfl, h1, h2, h3, h4, -⟩ := h
  obtain ⟨w, rfl⟩ := num_word h2
  obtain ⟨hs, rfl⟩ := opt_words (fun _ _ h => num_word h) h3
  have h5 : off = [] ∨ ∃ l, off = [.list l] := by
    rcases h4 with ⟨rfl, -⟩ | ⟨x, a, rfl, ⟨_, _, rfl, -⟩, -⟩
    · exact .inl rfl
    · exact .inr ⟨_, rfl⟩
  rcases h1 with ⟨rfl, -⟩ | ⟨rfl, -⟩
  · exact ⟨w :: hs, off, by simp, h5⟩
  · exact ⟨str! "oval" :: w :: hs, off, by simp, h5⟩

theorem connectPads_words {e : Sexp} {v : Lay.ConnectPads F} (h : ConnectPadsTree e v) :
    WordsThen (str! "connect_pads") e := by
  obtain ⟨c, x, rfl, h1, ⟨_, rfl, -⟩⟩ := h
  obtain ⟨ws, rfl⟩ := opt_words (fun x a (h : WordTree x a) => ⟨a, h⟩) h1
  exact ⟨ws, _, rfl, .inr ⟨_, rfl⟩⟩

/-- The first word of a list. -/
theorem firstValue {α : Type} {n : Str} {P : Sexp → α → Prop} (hP : ∀ x a, P x a → ∃ w, x = .str w) {e e' : Sexp}
    {a b : α} (hf : ∀ x a b, P x a → P x b → a = b) (h1 : FirstValue n P e a) (h2 : FirstValue n P e' b)
    (hsh : Shuffled e e') : a = b := by
  obtain ⟨g, xs, ys, he, he', hp, hw⟩ := hsh
  obtain ⟨v, r, rfl, h1⟩ := h1
  obtain ⟨v', r', rfl, h2⟩ := h2
  obtain ⟨w, rfl⟩ := hP _ _ h1
  obtain ⟨w', rfl⟩ := hP _ _ h2
  simp only [Sexp.list.injEq, List.cons.injEq, Sexp.str.injEq] at he he'
  obtain ⟨rfl, rfl⟩ := he
  obtain ⟨-, rfl⟩ := he'
  simp only [wordsOf, List.cons.injEq] at hw
  obtain ⟨rfl, -⟩ := hw
  exact hf _ _ _ h1 h2

/-! ## Pads -/

theorem namesOf_append (l m : List Sexp) : namesOf (l ++ m) = namesOf l ++ namesOf m := by
  induction l with
  | nil => rfl
  | cons x l ih =>
    match x with
    | .str s => simpa [namesOf] using ih
    | .empty => simpa [namesOf] using ih
    | .list [] => simpa [namesOf] using ih
    | .list (.empty :: _) => simpa [namesOf] using ih
    | .list (.list _ :: _) => simpa [namesOf] using ih
    | .list (.str n :: _) => simp [namesOf, ih]

theorem namesOf_perm {l m : List Sexp} (h : l.Perm m) : (namesOf l).Perm (namesOf m) := by
  have e : ∀ l, namesOf l = l.flatMap (fun x => namesOf [x]) := by
    intro l
    induction l with
    | nil => rfl
    | cons x l ih => rw [List.flatMap_cons, ← ih, ← namesOf_append]; rfl
  rw [e l, e m]
  exact h.flatMap_right _

/-- The name of an entry of a pad. -/
def entryName : PadEntry F → Str
  | .net _ => str! "net"
  | .solderPasteMargin _ => str! "solder_paste_margin"
  | .solderMaskMargin _ => str! "solder_mask_margin"
  | .clearance _ => str! "clearance"
  | .thermalGap _ => str! "thermal_gap"
  | .zoneConnect _ => str! "zone_connect"

theorem entry_name {x : Sexp} {a : PadEntry F} (h : PadEntryTree x a) : ∃ r, x = .list (.str (entryName a) :: r) := by
  cases h with
  | net h => obtain ⟨_, rfl, -⟩ := h; exact ⟨_, rfl⟩
  | solderPasteMargin h => obtain ⟨_, _, rfl, -⟩ := h; exact ⟨_, rfl⟩
  | solderMaskMargin h => obtain ⟨_, _, rfl, -⟩ := h; exact ⟨_, rfl⟩
  | clearance h => obtain ⟨_, _, rfl, -⟩ := h; exact ⟨_, rfl⟩
  | thermalGap h => obtain ⟨_, _, rfl, -⟩ := h; exact ⟨_, rfl⟩
  | zoneConnect h => obtain ⟨_, _, rfl, -⟩ := h; exact ⟨_, rfl⟩

theorem entries_names {l : List Sexp} {es : List (PadEntry F)} (h : Many PadEntryTree l es) :
    namesOf l = es.map entryName := by
  induction h with
  | nil => rfl
  | cons hx _ ih =>
    obtain ⟨r, rfl⟩ := entry_name hx
    rw [namesOf, ih, List.map_cons]

theorem entry_key {x : Sexp} {a : PadEntry F} (h : PadEntryTree x a) : key x = entryName a := by
  obtain ⟨r, rfl⟩ := entry_name h
  cases a <;> exact key_list (by simp only [entryName]; decide)

theorem short_perm {α : Type} {l m : List α} (h : l.Perm m) (hl : l.length ≤ 1) : l = m := by
  match l, hl with
  | [], _ => exact (List.nil_perm.1 h).symm
  | [a], _ => exact List.singleton_perm.1 h

omit [Flt F] in
/-- Entries with different names say the same in any order. -/
theorem entries_perm {es es' : List (PadEntry F)} (h : es.Perm es') (hn : (es.map entryName).Nodup) {β : Type}
    (f : PadEntry F → Option β) (n : Str) (hf : ∀ a, f a ≠ none → entryName a = n) : es.filterMap f = es'.filterMap f := by
  refine short_perm (h.filterMap f) ?_
  clear h
  induction es with
  | nil => exact Nat.zero_le _
  | cons a es ih =>
    rw [List.map_cons, List.nodup_cons] at hn
    rw [List.filterMap_cons]
    cases ha : f a with
    | none => exact ih hn.2
    | some b =>
      have : es.filterMap f = [] := by
        rw [List.filterMap_eq_nil_iff]
        intro c hc
        by_contra h0
        exact hn.1 (by rw [hf a (by rw [ha]; simp), ← hf c h0]; exact List.mem_map_of_mem hc)
      simp [this]

/-- The names of the first parts of a pad. -/
def padHead : List Str := [str! "at", str! "size", str! "drill", str! "layers"]

theorem split_entries {P P' E E' : List Sexp} {es es' : List (PadEntry F)} (hP : (P.map key).Sublist padHead)
    (hP' : (P'.map key).Sublist padHead) (hE : Many PadEntryTree E es) (hE' : Many PadEntryTree E' es')
    (hp : (P ++ E).Perm (P' ++ E')) : P = P' ∧ E.Perm E' := by
  have hd : ∀ a : PadEntry F, entryName a ∉ padHead := by intro a; cases a <;> (simp only [entryName]; decide)
  have hE0 : ∀ (E : List Sexp) (es : List (PadEntry F)), Many PadEntryTree E es → ∀ x ∈ E, key x ∉ padHead := by
    intro E es h
    induction h with
    | nil => simp
    | cons hx _ ih =>
      intro x hx'
      rcases List.mem_cons.1 hx' with rfl | hx'
      · rw [entry_key hx]; exact hd _
      · exact ih x hx'
  have hP0 : ∀ P : List Sexp, (P.map key).Sublist padHead → ∀ x ∈ P, key x ∈ padHead :=
    fun P h x hx => h.subset (List.mem_map_of_mem hx)
  have f1 : ∀ P E : List Sexp, (∀ x ∈ P, key x ∈ padHead) → (∀ x ∈ E, key x ∉ padHead) →
      (P ++ E).filter (fun x => key x ∈ padHead) = P ∧ (P ++ E).filter (fun x => key x ∉ padHead) = E := by
    intro P E h1 h2
    constructor
    · rw [List.filter_append, List.filter_eq_self.2 (by simpa using h1), List.filter_eq_nil_iff.2 (by simpa using h2),
        List.append_nil]
    · rw [List.filter_append, List.filter_eq_nil_iff.2 (by simpa using h1), List.filter_eq_self.2 (by simpa using h2),
        List.nil_append]
  obtain ⟨a1, a2⟩ := f1 P E (hP0 P hP) (hE0 E es hE)
  obtain ⟨b1, b2⟩ := f1 P' E' (hP0 P' hP') (hE0 E' es' hE')
  have h1 := hp.filter (fun x => key x ∈ padHead)
  have h2 := hp.filter (fun x => key x ∉ padHead)
  rw [a1, b1] at h1
  rw [a2, b2] at h2
  exact ⟨fixed_eq (by decide) hP hP' h1, h2⟩

theorem pad_shuffled {e e' : Sexp} {v v' : Fp.Pad F} (h : PadTree e v) (h' : PadTree e' v') (hs : Shuffled e e')
    (hn : ∀ n xs, e = .list (n :: xs) → (namesOf xs).Nodup) : PadTree e' v := by
  obtain ⟨t, shape, a, x, d, l, E, ao, xo, lo, es, rfl, h1, h2, h3, h4, h5, h6, h7, h8, h9, h10, h11, g1, g2, g3, g4, g5, g6⟩ := h
  obtain ⟨t', shape', a', x', d', l', E', ao', xo', lo', es', rfl, h1', h2', h3', h4', h5', h6', h7', -⟩ := h'
  obtain ⟨g, xs, ys, he, he', hp, hw⟩ := hs
  simp only [Sexp.list.injEq, List.cons.injEq, Sexp.str.injEq] at he he'
  obtain ⟨rfl, rfl⟩ := he
  obtain ⟨-, rfl⟩ := he'
  obtain ⟨hname, hp, hw⟩ := strip hp hw
  obtain ⟨rfl, hp, hw⟩ := strip hp hw
  obtain ⟨rfl, hp, hw⟩ := strip hp hw
  have hP := app (opt_key at_key h3) (app (opt_key xy_key h4) (app (opt_key drill_key h5) (opt_key layers_key h6)))
  have hP' := app (opt_key at_key h3') (app (opt_key xy_key h4') (app (opt_key drill_key h5') (opt_key layers_key h6')))
  have hp2 : ((a ++ (x ++ (d ++ l))) ++ E).Perm ((a' ++ (x' ++ (d' ++ l'))) ++ E') := by simpa using hp
  obtain ⟨k1, k2⟩ := split_entries hP hP' h7 h7' hp2
  obtain ⟨es'', m1, m2⟩ := many_perm k2 es h7
  have hnd : (es.map entryName).Nodup := by
    rw [← entries_names h7]
    have := hn _ _ rfl
    simp only [namesOf, namesOf_append] at this
    exact (List.nodup_append.1 (List.nodup_append.1 (List.nodup_append.1 (List.nodup_append.1 this).2.1).2.1).2.1).2.1
  have q := fun (β : Type) (f : PadEntry F → Option β) n hf => entries_perm m2 hnd f n hf
  refine ⟨t, shape, a, x, d, l, E', ao, xo, lo, es'', ?_, h1, h2, h3, h4, h5, h6, m1, h8, h9, h10, h11, ?_, ?_, ?_, ?_, ?_, ?_⟩
  · rw [hname]
    have : a' ++ (x' ++ (d' ++ (l' ++ E'))) = a ++ (x ++ (d ++ (l ++ E'))) := by
      have := congrArg (· ++ E') k1.symm
      simpa using this
    rw [this]
  · rw [g1, q _ PadEntry.net? (str! "net") (by rintro (_ | _) h <;> first | rfl | exact absurd rfl h)]
  · rw [g2, q _ PadEntry.solderPasteMargin? (str! "solder_paste_margin") (by rintro (_ | _) h <;> first | rfl | exact absurd rfl h)]
  · rw [g3, q _ PadEntry.solderMaskMargin? (str! "solder_mask_margin") (by rintro (_ | _) h <;> first | rfl | exact absurd rfl h)]
  · rw [g4, q _ PadEntry.clearance? (str! "clearance") (by rintro (_ | _) h <;> first | rfl | exact absurd rfl h)]
  · rw [g5, q _ PadEntry.thermalGap? (str! "thermal_gap") (by rintro (_ | _) h <;> first | rfl | exact absurd rfl h)]
  · rw [g6, q _ PadEntry.zoneConnect? (str! "zone_connect") (by rintro (_ | _) h <;> first | rfl | exact absurd rfl h)]

/-! ## Points of footprints that trade places -/

theorem key_point {n : Str} {r : List Sexp} (h : n ∈ points) : key (.list (.str n :: r)) = str! "size" := if_pos h

theorem no_point {l w : List Sexp} {K : List Str} (hK : str! "size" ∉ K) (h : ((l ++ w).map key).Sublist K) {x : Sexp} {r : List Sexp}
    (hx : key x = str! "size") : l ++ w ≠ x :: r := by
  intro e
  rw [e, List.map_cons, hx] at h
  exact hK (h.subset (List.mem_cons_self ..))

theorem opt_two {K : List Str} (hK : str! "size" ∉ K) {a b r rest : List Sexp} {x y : Sexp} {p q : Option (Fp.Xy F)}
    (ha : Opt XyTree a p) (hb : Opt XyTree b q) (hab : a = [] → b = []) (hr : (r.map key).Sublist K)
    (hx : key x = str! "size") (hy : key y = str! "size") (h : x :: y :: rest = a ++ (b ++ r)) :
    a = [x] ∧ b = [y] ∧ r = rest := by
  rcases ha with ⟨rfl, -⟩ | ⟨x', _, rfl, h1, -⟩
  · obtain rfl := hab rfl
    exact absurd h.symm (no_point (l := []) hK hr hx)
  · simp only [List.cons_append, List.nil_append, List.cons.injEq] at h
    obtain ⟨rfl, h⟩ := h
    rcases hb with ⟨rfl, -⟩ | ⟨y', _, rfl, h2, -⟩
    · exact absurd h.symm (no_point (l := []) hK hr hy)
    · simp only [List.cons_append, List.nil_append, List.cons.injEq] at h
      obtain ⟨rfl, rfl⟩ := h
      exact ⟨rfl, rfl, rfl⟩

theorem opt_one {α : Type} {P : Sexp → α → Prop} {x : Sexp} {o : Option α} (h : Opt P [x] o) : ∃ a, o = some a ∧ P x a := by
  rcases h with ⟨h, -⟩ | ⟨_, a, h, h1, h2⟩
  · cases h
  · cases h; exact ⟨a, h2, h1⟩

theorem parts_swap {x y : Sexp} {rest : List Sexp} {a b : Option (Fp.Xy F)} {l : Fp.Layer} {w : F}
    (hx : key x = str! "size") (hy : key y = str! "size") (h : LineParts (x :: y :: rest) a b l w) :
    ∃ p q, a = some p ∧ b = some q ∧ XyTree x p ∧ XyTree y q ∧ LineParts (y :: x :: rest) (some q) (some p) l w := by
  obtain ⟨a, b, l, w, lo, wo, e, h1, h2, h3, h4, h5, h6⟩ := h
  obtain ⟨rfl, rfl, rfl⟩ := opt_two (K := [str! "layer", str! "width"]) (by decide) h1 h2 h3
    (app (opt_key layer_key h4) (opt_key (named_key (by decide)) h5)) hx hy e
  obtain ⟨p, rfl, hp⟩ := opt_one h1
  obtain ⟨q, rfl, hq⟩ := opt_one h2
  exact ⟨p, q, rfl, rfl, hp, hq, [y], [x], l, w, lo, wo, rfl, h2, h1, by simp, h4, h5, h6⟩

theorem xy_type {n : Str} {r : List Sexp} {p : Fp.Xy F} {t : Fp.XyType} (h : XyTree (.list (.str n :: r)) p)
    (ht : ∀ u, (n, u) ∈ xyNames → u = t) : p.t = t := by
  obtain ⟨m, x, y, e, hm, -⟩ := h
  simp only [Sexp.list.injEq, List.cons.injEq, Sexp.str.injEq] at e
  obtain ⟨rfl, -⟩ := e
  exact ht _ hm

theorem not_there {t u : Fp.XyType} {p : Fp.Xy F} (h : p.t = u) (hn : u ≠ t) : PointAt (some p) t (⟨Flt.zero, Flt.zero, t⟩ : Fp.Xy F) :=
  .inr ⟨fun q hq => by cases hq; rw [h]; exact hn, rfl⟩

/-! ## Parts with different names -/

theorem other_entry {x y : Sexp} {a b : PadEntry F} (h : OtherName x y) (ha : PadEntryTree x a) (hb : PadEntryTree y b) :
    entryName a ≠ entryName b := by
  obtain ⟨n, m, r, s, rfl, rfl, hnm⟩ := h
  obtain ⟨_, e⟩ := entry_name ha
  obtain ⟨_, e'⟩ := entry_name hb
  simp only [Sexp.list.injEq, List.cons.injEq, Sexp.str.injEq] at e e'
  rwa [← e.1, ← e'.1]

/-- The name of a part of a net class. -/
def classItemName : NetClassItem F → Str
  | .clearance _ => str! "clearance"
  | .traceWidth _ => str! "trace_width"
  | .viaDia _ => str! "via_dia"
  | .viaDrill _ => str! "via_drill"
  | .uviaDia _ => str! "uvia_dia"
  | .uviaDrill _ => str! "uvia_drill"
  | .diffPairGap _ => str! "diff_pair_gap"
  | .diffPairWidth _ => str! "diff_pair_width"
  | .addNet _ => str! "add_net"

theorem classItem_name {x : Sexp} {a : NetClassItem F} (h : NetClassItemTree x a) :
    ∃ r, x = .list (.str (classItemName a) :: r) := by
  cases h with
  | clearance h => obtain ⟨_, rfl, -⟩ := h; exact ⟨_, rfl⟩
  | traceWidth h => obtain ⟨_, rfl, -⟩ := h; exact ⟨_, rfl⟩
  | viaDia h => obtain ⟨_, rfl, -⟩ := h; exact ⟨_, rfl⟩
  | viaDrill h => obtain ⟨_, rfl, -⟩ := h; exact ⟨_, rfl⟩
  | uviaDia h => obtain ⟨_, rfl, -⟩ := h; exact ⟨_, rfl⟩
  | uviaDrill h => obtain ⟨_, rfl, -⟩ := h; exact ⟨_, rfl⟩
  | diffPairGap h => obtain ⟨_, rfl, -⟩ := h; exact ⟨_, rfl⟩
  | diffPairWidth h => obtain ⟨_, rfl, -⟩ := h; exact ⟨_, rfl⟩
  | addNet h => obtain ⟨_, rfl, -⟩ := h; exact ⟨_, rfl⟩

theorem other_classItem {x y : Sexp} {a b : NetClassItem F} (h : OtherName x y) (ha : NetClassItemTree x a)
    (hb : NetClassItemTree y b) : classItemName a ≠ classItemName b := by
  obtain ⟨n, m, r, s, rfl, rfl, hnm⟩ := h
  obtain ⟨_, e⟩ := classItem_name ha
  obtain ⟨_, e'⟩ := classItem_name hb
  simp only [Sexp.list.injEq, List.cons.injEq, Sexp.str.injEq] at e e'
  rwa [← e.1, ← e'.1]

/-- What is said under different names. -/
theorem none_or {α β : Type} {name : α → Str} (f : α → Option β) (n : Str) (hf : ∀ a, f a ≠ none → name a = n) {a b : α}
    (h : name a ≠ name b) : f a = none ∨ f b = none := by
  by_cases ha : f a = none
  · exact .inl ha
  · refine .inr ?_
    by_contra hb
    exact h ((hf a ha).trans (hf b hb).symm)

/-- The kind of a part of a board. -/
def boardPartName : BoardPart F → Str
  | .version _ => str! "version"
  | .host _ => str! "host"
  | .general _ => str! "general"
  | .page _ => str! "page"
  | .layers _ => str! "layers"
  | .setup _ => str! "setup"
  | .element _ => []

theorem boardPart_name {n : Str} {r : List Sexp} {a : BoardPart F} (h : BoardPartTree (.list (.str n :: r)) a) :
    n ∈ headingNames ∧ boardPartName a = n ∨ n ∉ headingNames ∧ boardPartName a = [] := by
  have named : ∀ {β : Type} {P : Sexp → β → Prop} {m : Str} {b : β}, Named m P (.list (.str n :: r)) b → n = m := by
    rintro β P m b ⟨_, e, -⟩
    simp only [Sexp.list.injEq, List.cons.injEq, Sexp.str.injEq] at e
    exact e.1
  have head : ∀ {m : Str} {s : List Sexp}, Sexp.list (.str n :: r) = .list (.str m :: s) → n = m := by
    intro m s e
    simp only [Sexp.list.injEq, List.cons.injEq, Sexp.str.injEq] at e
    exact e.1
  generalize hx : Sexp.list (.str n :: r) = x at h
  cases h with
  | version h => subst hx; obtain rfl := named h; exact .inl ⟨by decide, rfl⟩
  | host h => subst hx; obtain rfl := head h; exact .inl ⟨by decide, rfl⟩
  | general h =>
    subst hx; obtain ⟨_, _, _, _, _, _, _, _, _, e, -⟩ := h; obtain rfl := head e; exact .inl ⟨by decide, rfl⟩
  | page h => subst hx; obtain rfl := named h; exact .inl ⟨by decide, rfl⟩
  | layers h => subst hx; obtain ⟨_, e, -⟩ := h; obtain rfl := head e; exact .inl ⟨by decide, rfl⟩
  | setup h => subst hx; obtain ⟨_, _, e, -⟩ := h; obtain rfl := head e; exact .inl ⟨by decide, rfl⟩
  | module_ h => subst hx; obtain ⟨_, e, -⟩ := h; obtain rfl := head e; exact .inr ⟨by decide, rfl⟩
  | net h => subst hx; obtain ⟨_, e, -⟩ := h; obtain rfl := head e; exact .inr ⟨by decide, rfl⟩
  | netClass h => subst hx; obtain ⟨_, _, e, -⟩ := h; obtain rfl := head e; exact .inr ⟨by decide, rfl⟩
  | grText h => subst hx; obtain ⟨_, _, _, _, e, -⟩ := h; obtain rfl := head e; exact .inr ⟨by decide, rfl⟩
  | grLine h => subst hx; obtain ⟨_, _, _, _, _, _, _, _, e, -⟩ := h; obtain rfl := head e; exact .inr ⟨by decide, rfl⟩
  | grArc h => subst hx; obtain ⟨_, _, _, _, _, _, _, e, -⟩ := h; obtain rfl := head e; exact .inr ⟨by decide, rfl⟩
  | grCircle h => subst hx; obtain ⟨_, _, _, _, _, _, e, -⟩ := h; obtain rfl := head e; exact .inr ⟨by decide, rfl⟩
  | dimension h =>
    subst hx; obtain ⟨_, _, _, _, _, _, _, _, _, _, _, e, -⟩ := h; obtain rfl := head e; exact .inr ⟨by decide, rfl⟩
  | zone h =>
    subst hx; obtain ⟨_, _, _, _, _, _, _, _, _, _, _, _, _, e, -⟩ := h; obtain rfl := head e; exact .inr ⟨by decide, rfl⟩
  | segment h => subst hx; obtain ⟨_, _, _, _, _, _, _, e, -⟩ := h; obtain rfl := head e; exact .inr ⟨by decide, rfl⟩
  | via h => subst hx; obtain ⟨_, _, _, _, _, _, _, _, _, e, -⟩ := h; obtain rfl := head e; exact .inr ⟨by decide, rfl⟩
  | other h =>
    obtain rfl := head hx
    have hsub : ∀ m ∈ headingNames, m ∈ boardPartNames := by decide
    exact .inr ⟨fun hm => h (hsub _ hm), rfl⟩

theorem other_boardPart {x y : Sexp} {a b : BoardPart F} (h : OtherSection x y) (ha : BoardPartTree x a)
    (hb : BoardPartTree y b) : boardPartName a ≠ boardPartName b := by
  obtain ⟨n, m, r, s, rfl, rfl, hnm, hh⟩ := h
  have h0 : ([] : Str) ∉ headingNames := by decide
  rcases boardPart_name ha with ⟨h1, h2⟩ | ⟨h1, h2⟩ <;> rcases boardPart_name hb with ⟨h3, h4⟩ | ⟨h3, h4⟩ <;> rw [h2, h4]
  · exact hnm
  · rintro rfl; exact h0 h1
  · rintro rfl; exact h0 h3
  · exact absurd hh (not_or.2 ⟨h1, h3⟩)

/-! ## Parts behind other parts -/

theorem split_swap {allowed : Sexp → Sexp → Prop} {Q : Sexp → Prop} (hQ : ∀ x y, allowed x y → Q x ∧ Q y) {l l' : List Sexp}
    (h : Rearranged allowed l l') : ∀ P E, (∀ x ∈ P, ¬ Q x) → l = P ++ E → ∃ E', l' = P ++ E' ∧ Rearranged allowed E E' := by
  induction h with
  | refl l => exact fun P E _ h => ⟨E, h, .refl _⟩
  | swap a b x y hxy =>
    intro P E hP h
    obtain ⟨hx, hy⟩ := hQ x y hxy
    rcases List.append_eq_append_iff.1 h with ⟨c, h1, h2⟩ | ⟨c, h1, h2⟩
    · cases c with
      | nil =>
        simp only [List.append_nil, List.nil_append] at h1 h2
        subst h1 h2
        exact ⟨_, rfl, .swap [] b x y hxy⟩
      | cons z c =>
        simp only [List.cons_append, List.cons.injEq] at h2
        exact absurd hx (hP x (by rw [h1, h2.1]; simp))
    · subst h1 h2
      exact ⟨c ++ y :: x :: b, by simp, .swap c b x y hxy⟩
  | trans _ _ ih ih' =>
    intro P E hP h
    obtain ⟨E1, h1, h2⟩ := ih P E hP h
    obtain ⟨E2, h3, h4⟩ := ih' P E1 hP h1
    exact ⟨E2, h3, h2.trans h4⟩

theorem zoneItem_kind {x : Sexp} {a : ZoneItem F} (h : ZoneItemTree x a) :
    (∃ p, a = .polygon p ∧ Named (str! "polygon") PtsTree x p) ∨ (∃ p, a = .filledPolygon p ∧ Named (str! "filled_polygon") PtsTree x p) ∨
    (∃ p, a = .fillSegments p ∧ Named (str! "fill_segments") PtsTree x p) ∨ (a = .other x ∧ ¬ ZonePolygon F x) := by
  cases h with
  | polygon h => exact .inl ⟨_, rfl, h⟩
  | filledPolygon h => exact .inr (.inl ⟨_, rfl, h⟩)
  | fillSegments h => exact .inr (.inr (.inl ⟨_, rfl, h⟩))
  | other h => exact .inr (.inr (.inr ⟨rfl, fun ⟨n, hn, p, hp⟩ => h n hn p hp⟩))

/-- The kind of the last parts of a zone. -/
def zoneItemName : ZoneItem F → Str
  | .polygon _ => str! "polygon"
  | .filledPolygon _ => str! "filled_polygon"
  | .fillSegments _ => str! "fill_segments"
  | .other _ => []

theorem other_zoneItem {x y : Sexp} {a b : ZoneItem F} (h : OtherPolygon F x y) (ha : ZoneItemTree x a)
    (hb : ZoneItemTree y b) : zoneItemName a ≠ zoneItemName b := by
  obtain ⟨⟨n, m, r, s, rfl, rfl, hnm⟩, h, -⟩ := h
  have named : ∀ {k n : Str} {r : List Sexp} {p : List (Fp.Xy F)}, Named k PtsTree (.list (.str n :: r)) p → n = k := by
    rintro k n r p ⟨_, e, -⟩
    simp only [Sexp.list.injEq, List.cons.injEq, Sexp.str.injEq] at e
    exact e.1
  rcases zoneItem_kind ha with ⟨p, rfl, h1⟩ | ⟨p, rfl, h1⟩ | ⟨p, rfl, h1⟩ | ⟨rfl, h1⟩ <;>
    rcases zoneItem_kind hb with ⟨p', rfl, h2⟩ | ⟨p', rfl, h2⟩ | ⟨p', rfl, h2⟩ | ⟨rfl, h2⟩ <;>
    first
    | (simp only [zoneItemName]; decide)
    | exact absurd ((named h1).trans (named h2).symm) hnm
    | exact absurd h (not_or.2 ⟨h1, h2⟩)

end Shuf

end Verif
