import Verif.Spec.Footprint
import Verif.Spec.Box
import Verif.Props.C49
/-!
# C26: the bounding box of a footprint
-/

namespace Verif
open Flt Fp Spec

variable {F : Type} [Flt F]

theorem Fp.quarter_eq (rot : F) : extent.quarter rot =
    (lt (Flt.abs (sub rot (lit 90 0))) (lit 1 1) || lt (Flt.abs (add rot (lit 90 0))) (lit 1 1) ||
      lt (Flt.abs (sub rot (lit 270 0))) (lit 1 1) || lt (Flt.abs (add rot (lit 270 0))) (lit 1 1)) := by
  simp [extent.quarter, Bool.or_assoc]

/-- The box of a pad as the specification sees it. -/
theorem Fp.pad_bound_eq (p : Pad F) :
    p.bound =
      let q := extent.quarter p.at_.rot
      let w := half (if q then p.size.y else p.size.x)
      let h := half (if q then p.size.x else p.size.y)
      Bound.new (sub p.at_.x w) (sub p.at_.y h) (add p.at_.x w) (add p.at_.y h) := by
  simp only [Pad.bound, Fp.quarter_eq]
  generalize (lt (Flt.abs (sub p.at_.rot (lit 90 0))) (lit 1 1) || _ || _ || _) = q
  cases q <;> rfl

/-- Growing a box keeps its points. -/
theorem Spec.Inside.update_left [OrdLaws F] {a b : Bound F} {x y : F} (h : Inside a x y) :
    Inside (a.update b) x y := C49_update_contains a b x y (Or.inl h)

theorem Spec.Inside.update_right [OrdLaws F] {a b : Bound F} {x y : F} (h : Inside b x y) :
    Inside (a.update b) x y := C49_update_contains a b x y (Or.inr h)

theorem Spec.Inside.foldl [OrdLaws F] {α : Type} (f : α → Bound F) (l : List α) {b : Bound F} {x y : F}
    (h : Inside b x y ∨ ∃ a ∈ l, Inside (f a) x y) :
    Inside (l.foldl (fun b a => b.update (f a)) b) x y := by
  induction l generalizing b with
  | nil => simpa using h
  | cons a l ih =>
    apply ih
    rcases h with h | ⟨a', h1, h2⟩
    · exact Or.inl h.update_left
    · rcases List.mem_cons.1 h1 with rfl | h1
      · exact Or.inl h2.update_right
      · exact Or.inr ⟨a', h1, h2⟩

theorem Spec.inside_upright [OrdLaws F] {b : Bound F} {x y : F} (h : Inside b x y) : Upright b :=
  ⟨OrdLaws.le_trans _ _ _ h.2.1 h.2.2.1, OrdLaws.le_trans _ _ _ h.2.2.2.1 h.2.2.2.2⟩

theorem Spec.inside_swap [MonoLaws F] {b : Bound F} {x y : F} (h : Inside b x y) :
    Inside b.swapIfNeeded x y := by
  rw [(C49_swap_upright b).2.2.2.2.2.2 (inside_upright h)]; exact h

omit [Flt F] in
/-- The code's test for the elements that matter. -/
theorem Fp.counts_iff (e : Elem F) :
    (e.isGraphics && (e.isFab || e.isPad)) = true ↔ Counts e := by
  cases e <;> simp [Elem.isGraphics, Elem.isFab, Elem.isPad, Counts]

/-- The box of one element covers its extent. -/
theorem Fp.elem_bound_covers [MonoLaws F] (e : Elem F) (ho : Oriented e) (hc : Counts e)
    (p : F × F) (hp : p ∈ extent e) : Inside e.bound p.1 p.2 := by
  have R := @OrdLaws.le_refl F _ _
  have T := @OrdLaws.le_trans F _ _
  cases e with
  | line l =>
    simp only [extent, List.mem_cons, List.not_mem_nil, or_false] at hp
    rcases hp with rfl | rfl <;> simp_all [Elem.bound, FpLine.bound, Bound.new, Inside, Oriented]
  | arc l =>
    simp only [extent, List.mem_cons, List.not_mem_nil, or_false] at hp
    rcases hp with rfl | rfl <;> simp_all [Elem.bound, FpArc.bound, Bound.new, Inside, Oriented]
  | poly q =>
    simp only [extent, List.mem_map] at hp
    obtain ⟨a, ha, rfl⟩ := hp
    simp only [Elem.bound, ptsBound]
    refine inside_swap (Inside.foldl (fun e : Xy F => pointBound e.x e.y) _ (Or.inr ⟨a, ha, ?_⟩))
    simp [pointBound, Bound.new, Inside, R]
  | circle c =>
    have hs := MonoLaws.sqrt_nonneg _ (MonoLaws.sq_nonneg (sub c.center.x c.end_.x) (sub c.center.y c.end_.y))
    simp only [extent, List.mem_cons, List.not_mem_nil, or_false] at hp
    simp only [Elem.bound, FpCircle.bound]
    generalize sqrt (F := F) _ = r at *
    have a1 := MonoLaws.add_nonneg c.center.x r hs
    have a2 := MonoLaws.add_nonneg c.center.y r hs
    have s1 := MonoLaws.sub_nonneg c.center.x r hs
    have s2 := MonoLaws.sub_nonneg c.center.y r hs
    have t1 := T _ _ _ s1 a1
    have t2 := T _ _ _ s2 a2
    rcases hp with rfl | rfl | rfl <;> simp_all [Bound.new, Inside]
  | pad q =>
    simp only [Elem.bound, Fp.pad_bound_eq]
    simp only [extent, List.mem_cons, List.not_mem_nil, or_false] at hp
    obtain ⟨hx, hy⟩ := ho
    have hw : le zero (half (if extent.quarter q.at_.rot = true then q.size.y else q.size.x)) = true := by
      apply MonoLaws.half_nonneg; split <;> assumption
    have hh : le zero (half (if extent.quarter q.at_.rot = true then q.size.x else q.size.y)) = true := by
      apply MonoLaws.half_nonneg; split <;> assumption
    generalize half (if extent.quarter q.at_.rot = true then q.size.y else q.size.x) = w at *
    generalize half (if extent.quarter q.at_.rot = true then q.size.x else q.size.y) = h at *
    have a1 := MonoLaws.add_nonneg q.at_.x w hw
    have a2 := MonoLaws.add_nonneg q.at_.y h hh
    have s1 := MonoLaws.sub_nonneg q.at_.x w hw
    have s2 := MonoLaws.sub_nonneg q.at_.y h hh
    have t1 := T _ _ _ s1 a1
    have t2 := T _ _ _ s2 a2
    rcases hp with rfl | rfl | rfl | rfl | rfl <;> simp_all [Bound.new, Inside]
  | _ => simp [extent] at hp

/-- The box of a footprint before the final normalisation. -/
theorem Fp.bound_fold_inside [MonoLaws F] (x y : F) (es : List (Elem F)) (b : Bound F) (u v : F)
    (h : Inside b u v ∨ ∃ e ∈ es, Counts e ∧ Oriented e ∧
      ∃ p ∈ extent e, u = add p.1 x ∧ v = add p.2 y) :
    Inside (es.foldl (Module.boundStep x y) b) u v := by
  induction es generalizing b with
  | nil => simpa using h
  | cons e es ih =>
    simp only [List.foldl_cons]
    apply ih
    rcases h with h | ⟨e', he', hc, ho, p, hp, rfl, rfl⟩
    · refine Or.inl ?_
      simp only [Module.boundStep]
      split
      · exact h.update_left
      · exact h
    · rcases List.mem_cons.1 he' with rfl | he'
      · refine Or.inl ?_
        have hin := Fp.elem_bound_covers e' ho hc p hp
        have hg := (Fp.counts_iff e').2 hc
        simp only [Module.boundStep, hg, if_true]
        apply Inside.update_right
        obtain ⟨h0, h1, h2, h3, h4⟩ := hin
        exact ⟨h0, MonoLaws.add_mono _ _ _ h1, MonoLaws.add_mono _ _ _ h2,
          MonoLaws.add_mono _ _ _ h3, MonoLaws.add_mono _ _ _ h4⟩
      · exact Or.inr ⟨e', he', hc, ho, p, hp, rfl, rfl⟩

/-- The box covers the footprint position and, moved there, every pad with
nonnegative size, every fabrication polygon and circle, and every fabrication
line and arc that goes right and down.  Missing from the full statement: lines
and arcs in other directions; the code is wrong for those, see
`C26_reversed_line_not_covered`. -/
theorem C26_bound_covers_partial [MonoLaws F] (m : Module F) :
    Inside m.bound m.at_.1 m.at_.2 ∧
    ∀ e ∈ m.elements, Counts e → Oriented e → ∀ p ∈ extent e,
      Inside m.bound (add p.1 m.at_.1) (add p.2 m.at_.2) := by
  have h0 : Inside (Bound.new m.at_.1 m.at_.2 m.at_.1 m.at_.2) m.at_.1 m.at_.2 := by
    simp [Inside, Bound.new, OrdLaws.le_refl]
  refine ⟨inside_swap (Fp.bound_fold_inside _ _ _ _ _ _ (Or.inl h0)), fun e he hc ho p hp => ?_⟩
  exact inside_swap (Fp.bound_fold_inside _ _ _ _ _ _
    (Or.inr ⟨e, he, hc, ho, p, hp, rfl, rfl⟩))

example : ∃ (m : Module Nm) (e : Elem Nm), e ∈ m.elements ∧ Counts e ∧ Oriented e ∧ extent e ≠ [] := by
  refine ⟨⟨[], [.locked, .pad { Pad.new [] .smd .rect with size := ⟨⟨4⟩, ⟨6⟩, .size⟩ }]⟩,
    .pad { Pad.new [] .smd .rect with size := ⟨⟨4⟩, ⟨6⟩, .size⟩ }, by decide, ?_, ?_, by decide⟩
  · trivial
  · unfold Oriented; decide

/-- A fabrication line drawn from right to left is not covered by the box. -/
theorem C26_reversed_line_not_covered : ∃ (m : Module Nm) (e : Elem Nm), e ∈ m.elements ∧ Counts e ∧
    ∃ p ∈ extent e, ¬ Inside m.bound (add p.1 m.at_.1) (add p.2 m.at_.2) := by
  let l : FpLine Nm := ⟨⟨⟨5⟩, ⟨0⟩, .start⟩, ⟨⟨-5⟩, ⟨0⟩, .end_⟩, ⟨.front, .fab⟩, ⟨1⟩⟩
  refine ⟨⟨[], [.line l]⟩, .line l, by decide, rfl, (⟨5⟩, ⟨0⟩), by decide, ?_⟩
  unfold Inside
  decide

/-! ### The box is not larger than needed -/

/-- Every side of a bounded box has the property. -/
def Spec.SidesIn (P Q : F → Prop) (b : Bound F) : Prop :=
  b.isBounded = true → P b.x1 ∧ P b.x2 ∧ Q b.y1 ∧ Q b.y2

theorem Spec.SidesIn.update [OrdLaws F] {P Q : F → Prop} {a b : Bound F} (ha : SidesIn P Q a)
    (hb : SidesIn P Q b) : SidesIn P Q (a.update b) := by
  have mn : ∀ (P : F → Prop) (u v : F), P u → P v → P (fmin u v) := by
    intro P u v hu hv; rw [OrdLaws.min_eq]; split <;> assumption
  have mx : ∀ (P : F → Prop) (u v : F), P u → P v → P (fmax u v) := by
    intro P u v hu hv; rw [OrdLaws.max_eq]; split <;> assumption
  obtain ⟨_, _, _, _, ab⟩ := a
  obtain ⟨_, _, _, _, bb⟩ := b
  cases ab <;> cases bb <;> simp_all [SidesIn, Bound.update]

theorem Spec.SidesIn.swap {P Q : F → Prop} {a : Bound F} (ha : SidesIn P Q a) :
    SidesIn P Q a.swapIfNeeded := by
  obtain ⟨x1, y1, x2, y2, ab⟩ := a
  simp only [SidesIn, Bound.swapIfNeeded] at *
  by_cases hx : lt x2 x1 = true <;> by_cases hy : lt y2 y1 = true <;> simp_all

theorem Fp.elem_sides [OrdLaws F] (e : Elem F) (hc : Counts e) :
    SidesIn (fun u => ∃ p ∈ extent e, p.1 = u) (fun v => ∃ p ∈ extent e, p.2 = v) e.bound := by
  cases e with
  | line l => simp [SidesIn, extent, Elem.bound, FpLine.bound, Bound.new]
  | arc l => simp [SidesIn, extent, Elem.bound, FpArc.bound, Bound.new]
  | circle l => simp [SidesIn, extent, Elem.bound, FpCircle.bound, Bound.new]
  | pad l => simp [SidesIn, extent, Elem.bound, Fp.pad_bound_eq, Bound.new]
  | poly q =>
    simp only [Elem.bound, ptsBound]
    apply SidesIn.swap
    have key : ∀ (l : List (Xy F)) (b : Bound F) (P Q : F → Prop), SidesIn P Q b →
        (∀ a ∈ l, P a.x ∧ Q a.y) →
        SidesIn P Q (l.foldl (fun b e => b.update (pointBound e.x e.y)) b) := by
      intro l
      induction l with
      | nil => intro b P Q h _; exact h
      | cons a l ih =>
        intro b P Q h hl
        rw [List.forall_mem_cons] at hl
        rw [List.foldl_cons]
        refine ih _ _ _ (h.update ?_) hl.2
        intro _
        exact ⟨hl.1.1, hl.1.1, hl.1.2, hl.1.2⟩
    apply key
    · intro h; simp [Bound.dflt] at h
    · intro a ha
      constructor <;> exact ⟨(a.x, a.y), List.mem_map.2 ⟨a, ha, rfl⟩, rfl⟩
  | _ => exact hc.elim

/-- The box is no larger than needed: each of its four sides is the coordinate
of the footprint position or of a point of a pad or of fabrication graphics.
(This also holds for lines in any direction.) -/
theorem C26_bound_attained [OrdLaws F] (m : Module F) :
    m.bound.isBounded = true ∧
    (∀ u, u = m.bound.x1 ∨ u = m.bound.x2 → u = m.at_.1 ∨
      ∃ e ∈ m.elements, Counts e ∧ ∃ p ∈ extent e, u = add p.1 m.at_.1) ∧
    (∀ v, v = m.bound.y1 ∨ v = m.bound.y2 → v = m.at_.2 ∨
      ∃ e ∈ m.elements, Counts e ∧ ∃ p ∈ extent e, v = add p.2 m.at_.2) := by
  have key : ∀ (x y : F) (es : List (Elem F)) (b : Bound F) (P Q : F → Prop), b.isBounded = true →
      SidesIn P Q b →
      (∀ e ∈ es, Counts e → ∀ p ∈ extent e, P (add p.1 x) ∧ Q (add p.2 y)) →
      (es.foldl (Module.boundStep x y) b).isBounded = true ∧
      SidesIn P Q (es.foldl (Module.boundStep x y) b) := by
    intro x y es
    induction es with
    | nil => intro b P Q hb h _; exact ⟨hb, h⟩
    | cons e es ih =>
      intro b P Q hb h hl
      rw [List.forall_mem_cons] at hl
      rw [List.foldl_cons]
      have hstep : (Module.boundStep x y b e).isBounded = true ∧
          SidesIn P Q (Module.boundStep x y b e) := by
        simp only [Module.boundStep]
        split
        · rename_i hg
          have hc : Counts e := (Fp.counts_iff e).1 hg
          refine ⟨?_, h.update ?_⟩
          · simp only [Bound.update, hb]; cases e.bound.isBounded <;> simp [hb]
          · intro hbd
            obtain ⟨⟨p1, q1, e1⟩, ⟨p2, q2, e2⟩, ⟨p3, q3, e3⟩, ⟨p4, q4, e4⟩⟩ := Fp.elem_sides e hc hbd
            simp only [← e1, ← e2, ← e3, ← e4]
            exact ⟨(hl.1 hc _ q1).1, (hl.1 hc _ q2).1, (hl.1 hc _ q3).2, (hl.1 hc _ q4).2⟩
        · exact ⟨hb, h⟩
      exact ih _ _ _ hstep.1 hstep.2 hl.2
  obtain ⟨hb, hs⟩ := key m.at_.1 m.at_.2 m.elements (Bound.new m.at_.1 m.at_.2 m.at_.1 m.at_.2)
    (fun u => u = m.at_.1 ∨ ∃ e ∈ m.elements, Counts e ∧ ∃ p ∈ extent e, u = add p.1 m.at_.1)
    (fun v => v = m.at_.2 ∨ ∃ e ∈ m.elements, Counts e ∧ ∃ p ∈ extent e, v = add p.2 m.at_.2)
    rfl (fun _ => ⟨Or.inl rfl, Or.inl rfl, Or.inl rfl, Or.inl rfl⟩)
    (fun e he hc p hp => ⟨Or.inr ⟨e, he, hc, p, hp, rfl⟩, Or.inr ⟨e, he, hc, p, hp, rfl⟩⟩)
  have hb' : m.bound.isBounded = true := by
    simp only [Module.bound, Bound.swapIfNeeded]
    split <;> split <;> exact hb
  obtain ⟨h1, h2, h3, h4⟩ := SidesIn.swap hs hb'
  refine ⟨hb', ?_, ?_⟩
  · rintro u (rfl | rfl)
    · exact h1
    · exact h2
  · rintro u (rfl | rfl)
    · exact h3
    · exact h4

/-! ### Exactly which box -/

/-- The corner of an element the code takes for the upper left one: where a line or
an arc starts, any corner of a polygon. -/
def Spec.firstCorners : Elem F → List (F × F)
  | .line l => [(l.start.x, l.start.y)]
  | .arc l => [(l.start.x, l.start.y)]
  | .poly p => extent (.poly p)
  | .circle c => (extent (.circle c)).head?.toList
  | .pad p => (extent (.pad p)).head?.toList
  | _ => []

/-- The corner of an element the code takes for the lower right one: where a line or
an arc ends, any corner of a polygon. -/
def Spec.lastCorners : Elem F → List (F × F)
  | .line l => [(l.end_.x, l.end_.y)]
  | .arc l => [(l.end_.x, l.end_.y)]
  | .poly p => extent (.poly p)
  | .circle c => (extent (.circle c)).getLast?.toList
  | .pad p => (extent (.pad p)).getLast?.toList
  | _ => []

/-- The least element of a list. -/
def Spec.Least (v : F) (l : List F) : Prop := v ∈ l ∧ ∀ u ∈ l, le v u = true

/-- The greatest element of a list. -/
def Spec.Greatest (v : F) (l : List F) : Prop := v ∈ l ∧ ∀ u ∈ l, le u v = true

/-- The box spanned by upper left and lower right corners. -/
def Spec.Spans (b : Bound F) (fs ls : List (F × F)) : Prop :=
  (b.isBounded = false ∧ fs = [] ∧ ls = []) ∨
  (b.isBounded = true ∧ Least b.x1 (fs.map Prod.fst) ∧ Least b.y1 (fs.map Prod.snd) ∧
    Greatest b.x2 (ls.map Prod.fst) ∧ Greatest b.y2 (ls.map Prod.snd))

theorem Spec.Least.append [OrdLaws F] {a b : F} {l k : List F} (ha : Least a l) (hb : Least b k) :
    Least (fmin a b) (l ++ k) := by
  have T := @OrdLaws.le_trans F _ _
  rw [OrdLaws.min_eq]
  refine ⟨?_, fun u hu => ?_⟩
  · split
    · exact List.mem_append_left _ ha.1
    · exact List.mem_append_right _ hb.1
  · split
    · rename_i h
      rcases List.mem_append.1 hu with hu | hu
      · exact ha.2 u hu
      · exact T _ _ _ h (hb.2 u hu)
    · rename_i h
      have h := (OrdLaws.le_total a b).resolve_left h
      rcases List.mem_append.1 hu with hu | hu
      · exact T _ _ _ h (ha.2 u hu)
      · exact hb.2 u hu

theorem Spec.Greatest.append [OrdLaws F] {a b : F} {l k : List F} (ha : Greatest a l) (hb : Greatest b k) :
    Greatest (fmax a b) (l ++ k) := by
  have T := @OrdLaws.le_trans F _ _
  rw [OrdLaws.max_eq]
  refine ⟨?_, fun u hu => ?_⟩
  · split
    · exact List.mem_append_right _ hb.1
    · exact List.mem_append_left _ ha.1
  · split
    · rename_i h
      rcases List.mem_append.1 hu with hu | hu
      · exact T _ _ _ (ha.2 u hu) h
      · exact hb.2 u hu
    · rename_i h
      have h := (OrdLaws.le_total a b).resolve_left h
      rcases List.mem_append.1 hu with hu | hu
      · exact ha.2 u hu
      · exact T _ _ _ (hb.2 u hu) h

theorem Spec.Spans.update [OrdLaws F] {a b : Bound F} {fs ls fs' ls' : List (F × F)} (ha : Spans a fs ls)
    (hb : Spans b fs' ls') : Spans (a.update b) (fs ++ fs') (ls ++ ls') := by
  obtain ⟨_, _, _, _, ab⟩ := a
  obtain ⟨_, _, _, _, bb⟩ := b
  rcases ha with ⟨h, rfl, rfl⟩ | ⟨h, ha⟩ <;> rcases hb with ⟨h', rfl, rfl⟩ | ⟨h', hb⟩ <;> simp only at h h' <;>
    subst h <;> subst h'
  · exact .inl ⟨rfl, rfl, rfl⟩
  · exact .inr ⟨rfl, hb⟩
  · rw [List.append_nil, List.append_nil]
    exact .inr ⟨rfl, ha⟩
  · simp only [Spans, List.map_append]
    exact .inr ⟨rfl, ha.1.append hb.1, ha.2.1.append hb.2.1, ha.2.2.1.append hb.2.2.1, ha.2.2.2.append hb.2.2.2⟩

theorem Spec.Spans.swap [MonoLaws F] {b : Bound F} {fs ls : List (F × F)} (h : Spans b fs ls)
    (hc : fs ≠ [] → ∃ c ∈ fs, c ∈ ls) : Spans b.swapIfNeeded fs ls := by
  rcases h with ⟨h, rfl, rfl⟩ | ⟨h, ha⟩
  · left
    refine ⟨?_, rfl, rfl⟩
    rw [(C49_swap_upright b).2.2.2.1, h]
  · have hne : fs ≠ [] := by
      rintro rfl
      exact absurd ha.1.1 (by simp)
    obtain ⟨c, h1, h2⟩ := hc hne
    have T := @OrdLaws.le_trans F _ _
    have hx := T _ _ _ (ha.1.2 c.1 (List.mem_map_of_mem h1)) (ha.2.2.1.2 c.1 (List.mem_map_of_mem h2))
    have hy := T _ _ _ (ha.2.1.2 c.2 (List.mem_map_of_mem h1)) (ha.2.2.2.2 c.2 (List.mem_map_of_mem h2))
    rw [(C49_swap_upright b).2.2.2.2.2.2 ⟨hx, hy⟩]
    exact .inr ⟨h, ha⟩

theorem Fp.pts_spans [MonoLaws F] (pts : List (Xy F)) :
    Spans (ptsBound pts) (pts.map fun q => (q.x, q.y)) (pts.map fun q => (q.x, q.y)) := by
  have key : ∀ (l : List (Xy F)) (b : Bound F) (fs : List (F × F)), Spans b fs fs →
      Spans (l.foldl (fun b e => b.update (pointBound e.x e.y)) b) (fs ++ l.map fun q => (q.x, q.y))
        (fs ++ l.map fun q => (q.x, q.y)) := by
    intro l
    induction l with
    | nil => intro b fs h; simpa using h
    | cons a l ih =>
      intro b fs h
      have hp : Spans (pointBound a.x a.y) [(a.x, a.y)] [(a.x, a.y)] := by
        right
        simp [pointBound, Bound.new, Least, Greatest, OrdLaws.le_refl]
      have := ih _ _ (h.update hp)
      simpa using this
  refine Spans.swap (by simpa using key pts Bound.dflt [] (.inl ⟨rfl, rfl, rfl⟩)) fun h => ?_
  obtain ⟨c, hc⟩ := List.exists_mem_of_ne_nil _ h
  exact ⟨c, hc, hc⟩

/-- The box of a single element: spanned by its first and last corners, for a text
the place of the text, for anything else none. -/
theorem C26_element_box [MonoLaws F] (e : Elem F) :
    match e with
    | .text t => Spans e.bound [(t.at_.x, t.at_.y)] [(t.at_.x, t.at_.y)]
    | e => Spans e.bound (firstCorners e) (lastCorners e) := by
  have R := @OrdLaws.le_refl F _ _
  cases e with
  | poly q => exact Fp.pts_spans q.pts
  | pad q =>
    simp only [Elem.bound, Fp.pad_bound_eq]
    simp [Spans, firstCorners, lastCorners, extent, Least, Greatest, Bound.new, R]
  | line q => simp [Spans, firstCorners, lastCorners, Elem.bound, FpLine.bound, Least, Greatest, Bound.new, R]
  | arc q => simp [Spans, firstCorners, lastCorners, Elem.bound, FpArc.bound, Least, Greatest, Bound.new, R]
  | circle q =>
    simp [Spans, firstCorners, lastCorners, extent, Elem.bound, FpCircle.bound, Least, Greatest, Bound.new, R]
  | text t => simp [Spans, Elem.bound, FpText.bound, pointBound, Least, Greatest, Bound.new, R]
  | _ => exact .inl ⟨rfl, rfl, rfl⟩

instance Spec.decCounts (e : Elem F) : Decidable (Counts e) := by
  cases e <;> simp only [Counts] <;> infer_instance

/-- The corners of a footprint: its place, and moved there the corners of its pads
and fabrication graphics. -/
def Spec.moduleCorners (f : Elem F → List (F × F)) (m : Module F) : List (F × F) :=
  m.at_ :: (m.elements.filter fun e => decide (Counts e)).flatMap fun e =>
    (f e).map fun p => (add p.1 m.at_.1, add p.2 m.at_.2)

/-- The box of a footprint, exactly: its left and upper sides are the least
coordinates of first corners, its right and lower sides the greatest coordinates
of last corners. -/
theorem C26_bound_exact [MonoLaws F] (m : Module F) :
    m.bound.isBounded = true ∧
    Least m.bound.x1 ((moduleCorners firstCorners m).map Prod.fst) ∧
    Least m.bound.y1 ((moduleCorners firstCorners m).map Prod.snd) ∧
    Greatest m.bound.x2 ((moduleCorners lastCorners m).map Prod.fst) ∧
    Greatest m.bound.y2 ((moduleCorners lastCorners m).map Prod.snd) := by
  suffices h : Spans m.bound (moduleCorners firstCorners m) (moduleCorners lastCorners m) by
    rcases h with ⟨_, h, _⟩ | h
    · simp [moduleCorners] at h
    · exact h
  refine Spans.swap ?_ (fun _ => ⟨m.at_, by simp [moduleCorners], by simp [moduleCorners]⟩)
  have hs : ∀ (x y : F) (b : Bound F) (fs ls : List (F × F)), Spans b fs ls →
      Spans { b with x1 := add b.x1 x, y1 := add b.y1 y, x2 := add b.x2 x, y2 := add b.y2 y }
        (fs.map fun p => (add p.1 x, add p.2 y)) (ls.map fun p => (add p.1 x, add p.2 y)) := by
    intro x y b fs ls h
    rcases h with ⟨h, rfl, rfl⟩ | ⟨h, h1, h2, h3, h4⟩
    · exact .inl ⟨h, rfl, rfl⟩
    · right
      have M := @MonoLaws.add_mono F _ _
      simp only [Least, Greatest, List.mem_map] at *
      refine ⟨h, ?_, ?_, ?_, ?_⟩
      · obtain ⟨⟨c, hc, e⟩, h1⟩ := h1
        exact ⟨⟨_, ⟨c, hc, rfl⟩, by rw [e]⟩, by
          rintro u ⟨_, ⟨d, hd, rfl⟩, rfl⟩; exact M _ _ _ (h1 _ ⟨d, hd, rfl⟩)⟩
      · obtain ⟨⟨c, hc, e⟩, h1⟩ := h2
        exact ⟨⟨_, ⟨c, hc, rfl⟩, by rw [e]⟩, by
          rintro u ⟨_, ⟨d, hd, rfl⟩, rfl⟩; exact M _ _ _ (h1 _ ⟨d, hd, rfl⟩)⟩
      · obtain ⟨⟨c, hc, e⟩, h1⟩ := h3
        exact ⟨⟨_, ⟨c, hc, rfl⟩, by rw [e]⟩, by
          rintro u ⟨_, ⟨d, hd, rfl⟩, rfl⟩; exact M _ _ _ (h1 _ ⟨d, hd, rfl⟩)⟩
      · obtain ⟨⟨c, hc, e⟩, h1⟩ := h4
        exact ⟨⟨_, ⟨c, hc, rfl⟩, by rw [e]⟩, by
          rintro u ⟨_, ⟨d, hd, rfl⟩, rfl⟩; exact M _ _ _ (h1 _ ⟨d, hd, rfl⟩)⟩
  have key : ∀ (x y : F) (es : List (Elem F)) (b : Bound F) (fs ls : List (F × F)), Spans b fs ls →
      Spans (es.foldl (Module.boundStep x y) b)
        (fs ++ (es.filter fun e => decide (Counts e)).flatMap fun e =>
          (firstCorners e).map fun p => (add p.1 x, add p.2 y))
        (ls ++ (es.filter fun e => decide (Counts e)).flatMap fun e =>
          (lastCorners e).map fun p => (add p.1 x, add p.2 y)) := by
    intro x y es
    induction es with
    | nil => intro b fs ls h; simpa using h
    | cons e es ih =>
      intro b fs ls h
      rw [List.foldl_cons]
      by_cases hc : Counts e
      · have he : Spans e.bound (firstCorners e) (lastCorners e) := by
          have := C26_element_box e
          cases e <;> first | exact this | exact hc.elim
        have hg := (Fp.counts_iff e).2 hc
        rw [List.filter_cons_of_pos (by simpa using hc), List.flatMap_cons, List.flatMap_cons, ← List.append_assoc,
          ← List.append_assoc]
        apply ih
        simp only [Module.boundStep, hg, if_true]
        exact h.update (hs x y _ _ _ he)
      · have hg : ¬ (e.isGraphics && (e.isFab || e.isPad)) = true := fun h => hc ((Fp.counts_iff e).1 h)
        rw [List.filter_cons_of_neg (by simpa using hc)]
        simp only [Module.boundStep, if_neg hg]
        exact ih _ _ _ h
  have h0 : ∀ c : F × F, Spans (Bound.new c.1 c.2 c.1 c.2) [c] [c] := by
    intro c
    right
    simp [Bound.new, Least, Greatest, OrdLaws.le_refl]
  exact key m.at_.1 m.at_.2 m.elements _ [m.at_] [m.at_] (h0 m.at_)

/-- Exactly the points between first and last corners are covered. -/
theorem C26_covered_iff [MonoLaws F] (m : Module F) (x y : F) : Inside m.bound x y ↔
    (∃ c ∈ moduleCorners firstCorners m, le c.1 x = true) ∧ (∃ c ∈ moduleCorners lastCorners m, le x c.1 = true) ∧
    (∃ c ∈ moduleCorners firstCorners m, le c.2 y = true) ∧ ∃ c ∈ moduleCorners lastCorners m, le y c.2 = true := by
  have T := @OrdLaws.le_trans F _ _
  obtain ⟨hb, ⟨h1, g1⟩, ⟨h2, g2⟩, ⟨h3, g3⟩, ⟨h4, g4⟩⟩ := C26_bound_exact m
  simp only [List.mem_map, forall_exists_index, and_imp, forall_apply_eq_imp_iff₂] at h1 h2 h3 h4 g1 g2 g3 g4
  constructor
  · rintro ⟨_, a1, a2, a3, a4⟩
    obtain ⟨c1, m1, e1⟩ := h1
    obtain ⟨c2, m2, e2⟩ := h2
    obtain ⟨c3, m3, e3⟩ := h3
    obtain ⟨c4, m4, e4⟩ := h4
    exact ⟨⟨c1, m1, e1 ▸ a1⟩, ⟨c3, m3, e3 ▸ a2⟩, ⟨c2, m2, e2 ▸ a3⟩, ⟨c4, m4, e4 ▸ a4⟩⟩
  · rintro ⟨⟨c1, m1, e1⟩, ⟨c3, m3, e3⟩, ⟨c2, m2, e2⟩, ⟨c4, m4, e4⟩⟩
    exact ⟨hb, T _ _ _ (g1 _ m1) e1, T _ _ _ e3 (g3 _ m3), T _ _ _ (g2 _ m2) e2, T _ _ _ e4 (g4 _ m4)⟩

/-- A line drawn from right to left, and one that goes further. -/
example : ∃ (m : Module Nm), moduleCorners firstCorners m = [(⟨0⟩, ⟨0⟩), (⟨5⟩, ⟨1⟩), (⟨-6⟩, ⟨2⟩)] ∧
    moduleCorners lastCorners m = [(⟨0⟩, ⟨0⟩), (⟨-5⟩, ⟨3⟩), (⟨4⟩, ⟨2⟩)] :=
  ⟨⟨[], [.line ⟨⟨⟨5⟩, ⟨1⟩, .start⟩, ⟨⟨-5⟩, ⟨3⟩, .end_⟩, ⟨.front, .fab⟩, ⟨1⟩⟩, .locked,
    .line ⟨⟨⟨-6⟩, ⟨2⟩, .start⟩, ⟨⟨4⟩, ⟨2⟩, .end_⟩, ⟨.front, .fab⟩, ⟨1⟩⟩]⟩, by decide +kernel⟩

end Verif
