import Verif.Props.C26
import Verif.Props.C43
/-!
# C44: the bounding box of a layout
-/

set_option linter.unusedSectionVars false

namespace Verif
open Flt Spec Lay Flt.Exact

variable {F : Type} [Flt F]

theorem Lay.inside_pts [MonoLaws F] (l : List (Fp.Xy F)) (p : Fp.Xy F) (h : p ∈ l) :
    Inside (Fp.ptsBound l) p.x p.y := by
  refine inside_swap (Inside.foldl (fun e : Fp.Xy F => Fp.pointBound e.x e.y) _ (Or.inr ⟨p, h, ?_⟩))
  simp [Fp.pointBound, Bound.new, Inside, OrdLaws.le_refl]

theorem Lay.inside_two [OrdLaws F] (a b : Fp.Xy F) :
    Inside (twoPoint a b) a.x a.y ∧ Inside (twoPoint a b) b.x b.y := by
  simp [twoPoint, Bound.new, Inside, fmin_le_left, fmin_le_right, le_fmax_left, le_fmax_right]

theorem Lay.inside_point [OrdLaws F] (x y : F) : Inside (Fp.pointBound x y) x y := by
  simp [Fp.pointBound, Bound.new, Inside, OrdLaws.le_refl]

/-- The box of a board element covers its extent (for vias: if the size is not
negative). -/
theorem Lay.elem_covers [MonoLaws F] (e : Elem F)
    (hv : ∀ v, e = .via v → le zero v.size = true) (p : F × F) (hp : p ∈ boardExtent e) :
    Inside e.bound p.1 p.2 := by
  have T := @OrdLaws.le_trans F _ _
  cases e with
  | grLine l =>
    simp only [boardExtent, boardPoints, List.mem_cons, List.not_mem_nil, or_false] at hp
    rcases hp with rfl | rfl
    · exact (Lay.inside_two l.start l.end_).1
    · exact (Lay.inside_two l.start l.end_).2
  | grArc l =>
    simp only [boardExtent, boardPoints, List.mem_cons, List.not_mem_nil, or_false] at hp
    rcases hp with rfl | rfl
    · exact (Lay.inside_two l.start l.end_).1
    · exact (Lay.inside_two l.start l.end_).2
  | segment l =>
    simp only [boardExtent, boardPoints, List.mem_cons, List.not_mem_nil, or_false] at hp
    rcases hp with rfl | rfl
    · exact (Lay.inside_two l.start l.end_).1
    · exact (Lay.inside_two l.start l.end_).2
  | grText t =>
    simp only [boardExtent, boardPoints, List.mem_cons, List.not_mem_nil, or_false] at hp
    subst hp
    exact Lay.inside_point _ _
  | grCircle c =>
    have hs := MonoLaws.sqrt_nonneg _ (MonoLaws.sq_nonneg (sub c.center.x c.end_.x) (sub c.center.y c.end_.y))
    simp only [boardExtent, List.mem_cons, List.not_mem_nil, or_false] at hp
    simp only [Elem.bound, GrCircle.bound]
    generalize sqrt (F := F) _ = r at *
    have a1 := MonoLaws.add_nonneg c.center.x r hs
    have a2 := MonoLaws.add_nonneg c.center.y r hs
    have s1 := MonoLaws.sub_nonneg c.center.x r hs
    have s2 := MonoLaws.sub_nonneg c.center.y r hs
    have t1 := T _ _ _ s1 a1
    have t2 := T _ _ _ s2 a2
    rcases hp with rfl | rfl | rfl <;> simp_all [Bound.new, Inside, OrdLaws.le_refl]
  | via c =>
    have hs := hv c rfl
    simp only [boardExtent, List.mem_cons, List.not_mem_nil, or_false] at hp
    simp only [Elem.bound, Via.bound]
    have a1 := MonoLaws.add_nonneg c.at_.x c.size hs
    have a2 := MonoLaws.add_nonneg c.at_.y c.size hs
    have s1 := MonoLaws.sub_nonneg c.at_.x c.size hs
    have s2 := MonoLaws.sub_nonneg c.at_.y c.size hs
    have t1 := T _ _ _ s1 a1
    have t2 := T _ _ _ s2 a2
    rcases hp with rfl | rfl | rfl <;> simp_all [Bound.new, Inside, OrdLaws.le_refl]
  | dimension d =>
    simp only [boardExtent, boardPoints, List.mem_cons, List.mem_map, List.mem_append] at hp
    simp only [Elem.bound, Dimension.bound]
    rcases hp with rfl | ⟨q, hq, rfl⟩
    · exact (Lay.inside_point _ _).update_right.update_left.update_left.update_left.update_left.update_left.update_left.update_left
    · rcases hq with (((((hq | hq) | hq) | hq) | hq) | hq) | hq
      · exact (Lay.inside_pts _ _ hq).update_right.update_left.update_left.update_left.update_left.update_left.update_left
      · exact (Lay.inside_pts _ _ hq).update_right.update_left.update_left.update_left.update_left.update_left
      · exact (Lay.inside_pts _ _ hq).update_right.update_left.update_left.update_left.update_left
      · exact (Lay.inside_pts _ _ hq).update_right.update_left.update_left.update_left
      · exact (Lay.inside_pts _ _ hq).update_right.update_left.update_left
      · exact (Lay.inside_pts _ _ hq).update_right.update_left
      · exact (Lay.inside_pts _ _ hq).update_right
  | zone z =>
    obtain ⟨_, _, _, _, _, _, _, _, _, _, ps, fs, seg, _⟩ := z
    simp only [boardExtent, boardPoints, List.mem_map, List.mem_append, List.mem_flatten] at hp
    simp only [Elem.bound, Zone.bound]
    obtain ⟨q, hq, rfl⟩ := hp
    apply inside_swap
    have seg_left : ∀ b : Bound F, Inside b q.x q.y →
        Inside (match seg with | some p => b.update (Fp.ptsBound p) | none => b) q.x q.y := by
      intro b h; cases seg with
      | none => exact h
      | some s => exact h.update_left
    rcases hq with (⟨l, hl, hq⟩ | ⟨l, hl, hq⟩) | hq
    · exact seg_left _ (Inside.foldl _ _ (Or.inl (Inside.foldl (fun p => Fp.ptsBound p) _
        (Or.inr ⟨l, hl, Lay.inside_pts l q hq⟩))))
    · exact seg_left _ (Inside.foldl (fun p => Fp.ptsBound p) _ (Or.inr ⟨l, hl, Lay.inside_pts l q hq⟩))
    · cases seg with
      | none => simp at hq
      | some s => exact (Lay.inside_pts s q hq).update_right
  | _ => simp [boardExtent, boardPoints] at hp

/-- The box of a layout covers every point of every drawing, track, text,
dimension, zone and (for nonnegative sizes) via, and everything inside the boxes
of its modules. -/
theorem C44_bound_covers [MonoLaws F] (l : Layout F) (e : Elem F) (he : e ∈ l.elements) :
    ((∀ v, e = .via v → le zero v.size = true) → ∀ p ∈ boardExtent e, Inside l.bound p.1 p.2) ∧
    (∀ m, e = .module_ m → ∀ x y, Inside m.bound x y → Inside l.bound x y) := by
  have key : ∀ x y, Inside e.bound x y → Inside l.bound x y := fun x y h =>
    inside_swap (Inside.foldl Elem.bound _ (Or.inr ⟨e, he, h⟩))
  refine ⟨fun hv p hp => key _ _ (Lay.elem_covers e hv p hp), ?_⟩
  rintro m rfl x y h
  exact key x y h

example : ∃ e ∈ (sampleBoard : Layout Nm).elements, ∃ p, p ∈ boardExtent e := by
  refine ⟨sampleBoard.elements[3], ?_, (⟨1000000⟩, ⟨0⟩), ?_⟩
  · exact List.getElem_mem _
  · decide +kernel

/-! ### The box is not larger than needed -/

theorem Lay.sides_pts [OrdLaws F] (P Q : F → Prop) (l : List (Fp.Xy F)) (h : ∀ a ∈ l, P a.x ∧ Q a.y) :
    SidesIn P Q (Fp.ptsBound l) := by
  apply SidesIn.swap
  have key : ∀ (l : List (Fp.Xy F)) (b : Bound F), SidesIn P Q b → (∀ a ∈ l, P a.x ∧ Q a.y) →
      SidesIn P Q (l.foldl (fun b e => b.update (Fp.pointBound e.x e.y)) b) := by
    intro l
    induction l with
    | nil => intro b h _; exact h
    | cons a l ih =>
      intro b h hl
      rw [List.forall_mem_cons] at hl
      exact ih _ (h.update fun _ => ⟨hl.1.1, hl.1.1, hl.1.2, hl.1.2⟩) hl.2
  exact key l _ (by intro h; simp [Bound.dflt] at h) h

theorem Lay.sides_fold [OrdLaws F] {α : Type} (P Q : F → Prop) (f : α → Bound F) (l : List α)
    (b : Bound F) (hb : SidesIn P Q b) (h : ∀ a ∈ l, SidesIn P Q (f a)) :
    SidesIn P Q (l.foldl (fun b a => b.update (f a)) b) := by
  induction l generalizing b with
  | nil => exact hb
  | cons a l ih =>
    rw [List.forall_mem_cons] at h
    exact ih _ (hb.update h.1) h.2

theorem Lay.sides_two [OrdLaws F] (P Q : F → Prop) (a b : Fp.Xy F) (ha : P a.x ∧ Q a.y)
    (hb : P b.x ∧ Q b.y) : SidesIn P Q (twoPoint a b) := by
  have mn : ∀ (P : F → Prop) (u v : F), P u → P v → P (fmin u v) := by
    intro P u v hu hv; rw [OrdLaws.min_eq]; split <;> assumption
  have mx : ∀ (P : F → Prop) (u v : F), P u → P v → P (fmax u v) := by
    intro P u v hu hv; rw [OrdLaws.max_eq]; split <;> assumption
  intro _
  exact ⟨mn P _ _ ha.1 hb.1, mx P _ _ ha.1 hb.1, mn Q _ _ ha.2 hb.2, mx Q _ _ ha.2 hb.2⟩

theorem Lay.sides_dflt (P Q : F → Prop) : SidesIn P Q (Bound.dflt : Bound F) := by
  intro h; simp [Bound.dflt] at h

theorem Lay.elem_sides [OrdLaws F] (e : Elem F) (hm : ∀ m, e ≠ .module_ m) (P Q : F → Prop)
    (h : ∀ p ∈ boardExtent e, P p.1 ∧ Q p.2) : SidesIn P Q e.bound := by
  cases e with
  | module_ m => exact absurd rfl (hm m)
  | grLine l =>
    exact Lay.sides_two P Q _ _ (h _ (by simp [boardExtent, boardPoints]; exact Or.inl rfl))
      (h _ (by simp [boardExtent, boardPoints]; exact Or.inr rfl))
  | grArc l =>
    exact Lay.sides_two P Q _ _ (h _ (by simp [boardExtent, boardPoints]; exact Or.inl rfl))
      (h _ (by simp [boardExtent, boardPoints]; exact Or.inr rfl))
  | segment l =>
    exact Lay.sides_two P Q _ _ (h _ (by simp [boardExtent, boardPoints]; exact Or.inl rfl))
      (h _ (by simp [boardExtent, boardPoints]; exact Or.inr rfl))
  | grText t =>
    have := h (atPair t.at_) (by simp [boardExtent, boardPoints])
    intro _
    exact ⟨this.1, this.1, this.2, this.2⟩
  | grCircle c =>
    simp only [boardExtent, List.forall_mem_cons] at h
    intro _
    exact ⟨h.1.1, h.2.2.1.1, h.1.2, h.2.2.1.2⟩
  | via c =>
    simp only [boardExtent, List.forall_mem_cons] at h
    intro _
    exact ⟨h.1.1, h.2.2.1.1, h.1.2, h.2.2.1.2⟩
  | dimension d =>
    simp only [boardExtent, boardPoints, List.forall_mem_cons] at h
    obtain ⟨h0, h⟩ := h
    have hp : ∀ l : List (Fp.Xy F), (∀ q ∈ l, q ∈ d.feature1 ++ d.feature2 ++ d.crossbar ++ d.arrow1a ++
        d.arrow1b ++ d.arrow2a ++ d.arrow2b) → SidesIn P Q (Fp.ptsBound l) := by
      intro l hl
      exact Lay.sides_pts P Q l fun a ha => h (xyPair a) (List.mem_map.2 ⟨a, hl a ha, rfl⟩)
    have ht : SidesIn P Q d.text.bound := fun _ => ⟨h0.1, h0.1, h0.2, h0.2⟩
    simp only [Elem.bound, Dimension.bound]
    exact ((((((((Lay.sides_dflt P Q).update ht).update (hp _ (by intro q hq; simp [hq]))).update
      (hp _ (by intro q hq; simp [hq]))).update (hp _ (by intro q hq; simp [hq]))).update
      (hp _ (by intro q hq; simp [hq]))).update (hp _ (by intro q hq; simp [hq]))).update
      (hp _ (by intro q hq; simp [hq]))).update (hp _ (by intro q hq; simp [hq]))
  | zone z =>
    obtain ⟨_, _, _, _, _, _, _, _, _, _, ps, fs, seg, _⟩ := z
    simp only [boardExtent, boardPoints] at h
    have hp : ∀ l : List (Fp.Xy F), (∀ q ∈ l, q ∈ ps.flatten ++ fs.flatten ++ seg.getD []) →
        SidesIn P Q (Fp.ptsBound l) := by
      intro l hl
      exact Lay.sides_pts P Q l fun a ha => h (xyPair a) (List.mem_map.2 ⟨a, hl a ha, rfl⟩)
    simp only [Elem.bound, Zone.bound]
    apply SidesIn.swap
    have h1 := Lay.sides_fold P Q (fun p => Fp.ptsBound p) ps _ (Lay.sides_dflt P Q)
      (fun l hl => hp l fun q hq => by
        simp only [List.mem_append, List.mem_flatten]; exact Or.inl (Or.inl ⟨l, hl, hq⟩))
    have h2 := Lay.sides_fold P Q (fun p => Fp.ptsBound p) fs _ h1
      (fun l hl => hp l fun q hq => by
        simp only [List.mem_append, List.mem_flatten]; exact Or.inl (Or.inr ⟨l, hl, hq⟩))
    cases seg with
    | none => exact h2
    | some s => exact h2.update (hp s fun q hq => by simp [hq])
  | _ => exact Lay.sides_dflt P Q

/-- The box is no larger than needed: each of its four sides is a side of a
module's box or the coordinate of a point of some other element. -/
theorem C44_bound_attained [OrdLaws F] (l : Layout F) (hb : l.bound.isBounded = true) :
    (∀ u, u = l.bound.x1 ∨ u = l.bound.x2 →
      ∃ e ∈ l.elements, (∃ m, e = .module_ m ∧ (u = m.bound.x1 ∨ u = m.bound.x2)) ∨
        ∃ p ∈ boardExtent e, u = p.1) ∧
    (∀ v, v = l.bound.y1 ∨ v = l.bound.y2 →
      ∃ e ∈ l.elements, (∃ m, e = .module_ m ∧ (v = m.bound.y1 ∨ v = m.bound.y2)) ∨
        ∃ p ∈ boardExtent e, v = p.2) := by
  have h := Lay.sides_fold
    (fun u => ∃ e ∈ l.elements, (∃ m, e = .module_ m ∧ (u = m.bound.x1 ∨ u = m.bound.x2)) ∨
        ∃ p ∈ boardExtent e, u = p.1)
    (fun v => ∃ e ∈ l.elements, (∃ m, e = .module_ m ∧ (v = m.bound.y1 ∨ v = m.bound.y2)) ∨
        ∃ p ∈ boardExtent e, v = p.2) Elem.bound l.elements Bound.dflt (Lay.sides_dflt _ _) (by
      intro e he
      by_cases hm : ∃ m, e = .module_ m
      · obtain ⟨m, rfl⟩ := hm
        intro _
        exact ⟨⟨_, he, Or.inl ⟨m, rfl, Or.inl rfl⟩⟩, ⟨_, he, Or.inl ⟨m, rfl, Or.inr rfl⟩⟩,
          ⟨_, he, Or.inl ⟨m, rfl, Or.inl rfl⟩⟩, ⟨_, he, Or.inl ⟨m, rfl, Or.inr rfl⟩⟩⟩
      · exact Lay.elem_sides e (fun m h => hm ⟨m, h⟩) _ _ fun p hp =>
          ⟨⟨e, he, Or.inr ⟨p, hp, rfl⟩⟩, ⟨e, he, Or.inr ⟨p, hp, rfl⟩⟩⟩)
  obtain ⟨h1, h2, h3, h4⟩ := h.swap hb
  refine ⟨?_, ?_⟩
  · rintro u (rfl | rfl)
    · exact h1
    · exact h2
  · rintro u (rfl | rfl)
    · exact h3
    · exact h4

example : (sampleBoard : Layout Nm).bound.isBounded = true := by decide +kernel

/-! ### Moving the layout moves the box -/

/-- A box moved by an offset; an unbounded box stays. -/
def Spec.moveBox (x y : F) (b : Bound F) : Bound F :=
  if b.isBounded then ⟨add b.x1 x, add b.y1 y, add b.x2 x, add b.y2 y, true⟩ else b

theorem Spec.moveBox_update [ExactLaws F] (x y : F) (a b : Bound F) :
    (moveBox x y a).update (moveBox x y b) = moveBox x y (a.update b) := by
  obtain ⟨_, _, _, _, ab⟩ := a
  obtain ⟨_, _, _, _, bb⟩ := b
  cases ab <;> cases bb <;> simp [moveBox, Bound.update, fmin_add, fmax_add]

theorem Spec.moveBox_swap [ExactLaws F] (x y : F) (b : Bound F) :
    (moveBox x y b).swapIfNeeded = moveBox x y b.swapIfNeeded := by
  obtain ⟨x1, y1, x2, y2, bb⟩ := b
  cases bb with
  | false =>
    have : ∀ c : Bound F, c.isBounded = false → moveBox x y c = c := by
      intro c h; simp [moveBox, h]
    rw [this _ rfl, this]
    simp only [Bound.swapIfNeeded]
    split <;> split <;> rfl
  | true =>
    simp only [moveBox, Bound.swapIfNeeded, if_true, lt_add_iff]
    by_cases hx : lt x2 x1 = true <;> by_cases hy : lt y2 y1 = true <;> simp [hx, hy, lt_add_iff]

theorem Spec.moveBox_fold [ExactLaws F] {α β : Type} (x y : F) (f : α → Bound F) (g : β → Bound F)
    (h : β → α) (l : List β) (b : Bound F) (hf : ∀ e ∈ l, f (h e) = moveBox x y (g e)) :
    (l.map h).foldl (fun b a => b.update (f a)) (moveBox x y b) =
      moveBox x y (l.foldl (fun b a => b.update (g a)) b) := by
  induction l generalizing b with
  | nil => rfl
  | cons a l ih =>
    rw [List.forall_mem_cons] at hf
    simp only [List.map_cons, List.foldl_cons, hf.1, moveBox_update]
    exact ih _ hf.2

theorem Spec.moveBox_dflt (x y : F) : moveBox x y (Bound.dflt : Bound F) = Bound.dflt := by
  simp [moveBox, Bound.dflt]

theorem Lay.move_pts [ExactLaws F] (x y : F) (l : List (Fp.Xy F)) :
    Fp.ptsBound (adjPts x y l) = moveBox x y (Fp.ptsBound l) := by
  simp only [Fp.ptsBound, adjPts]
  rw [← moveBox_swap]
  congr 1
  have := moveBox_fold x y (fun e : Fp.Xy F => Fp.pointBound e.x e.y)
    (fun e : Fp.Xy F => Fp.pointBound e.x e.y) (adjXy x y) l Bound.dflt
    (fun e _ => by simp [adjXy, Fp.pointBound, moveBox, Bound.new])
  rwa [moveBox_dflt] at this

theorem Lay.move_two [ExactLaws F] (x y : F) (a b : Fp.Xy F) :
    twoPoint (adjXy x y a) (adjXy x y b) = moveBox x y (twoPoint a b) := by
  simp [twoPoint, adjXy, moveBox, Bound.new, fmin_add, fmax_add]

theorem Lay.sub_add_right [ExactLaws F] (a b c : F) : sub (add a c) b = add (sub a b) c := by
  rw [ExactLaws.sub_eq, ExactLaws.sub_eq, ExactLaws.add_assoc, ExactLaws.add_assoc,
    ExactLaws.add_comm c]

theorem Lay.add_add_right [ExactLaws F] (a b c : F) : add (add a c) b = add (add a b) c := by
  rw [ExactLaws.add_assoc, ExactLaws.add_assoc, ExactLaws.add_comm c]

/-- A module with a location of its own: its box moves with it. -/
theorem Lay.move_module [ExactLaws F] (x y : F) (m : Fp.Module F)
    (h : ∃ a, Fp.Elem.at_ a ∈ m.elements) :
    (m.adjust x y).bound = moveBox x y m.bound := by
  have hat : (m.adjust x y).at_ = (add m.at_.1 x, add m.at_.2 y) := by
    simp only [Fp.Module.adjust, Fp.Module.at_]
    obtain ⟨a, ha⟩ := h
    generalize m.elements = es at ha
    induction es with
    | nil => simp at ha
    | cons e es ih =>
      cases e with
      | at_ b => simp [Fp.Module.adjustElem, Fp.Module.firstAt]
      | _ =>
        simp only [List.mem_cons, reduceCtorEq, false_or] at ha
        simpa [Fp.Module.adjustElem, Fp.Module.firstAt] using ih ha
  simp only [Fp.Module.bound, hat]
  rw [← moveBox_swap]
  congr 1
  have b0 : (Bound.new (add m.at_.1 x) (add m.at_.2 y) (add m.at_.1 x) (add m.at_.2 y) : Bound F) =
      moveBox x y (Bound.new m.at_.1 m.at_.2 m.at_.1 m.at_.2) := by
    simp [moveBox, Bound.new]
  rw [b0]
  simp only [Fp.Module.adjust]
  generalize (Bound.new m.at_.1 m.at_.2 m.at_.1 m.at_.2 : Bound F) = b
  generalize m.at_.1 = u
  generalize m.at_.2 = v
  generalize m.elements = es
  induction es generalizing b with
  | nil => rfl
  | cons e es ih =>
    have step : Fp.Module.boundStep (add u x) (add v y) (moveBox x y b) (Fp.Module.adjustElem x y e) =
        moveBox x y (Fp.Module.boundStep u v b e) := by
      have he : Fp.Module.boundStep (add u x) (add v y) (moveBox x y b) (Fp.Module.adjustElem x y e) =
          Fp.Module.boundStep (add u x) (add v y) (moveBox x y b) e := by
        cases e <;> rfl
      rw [he]
      simp only [Fp.Module.boundStep]
      split
      · have hc : ∀ c : Bound F, (moveBox x y b).update
            { c with x1 := add c.x1 (add u x), y1 := add c.y1 (add v y),
                     x2 := add c.x2 (add u x), y2 := add c.y2 (add v y) } =
            moveBox x y (b.update { c with x1 := add c.x1 u, y1 := add c.y1 v,
                                           x2 := add c.x2 u, y2 := add c.y2 v }) := by
          intro c
          obtain ⟨c1, c2, c3, c4, cb⟩ := c
          cases cb
          · simp [Bound.update]
          · rw [← moveBox_update]; simp [moveBox, ExactLaws.add_assoc]
        exact hc e.bound
      · rfl
    simp only [List.map_cons, List.foldl_cons, step]
    exact ih _

theorem Lay.move_elem [ExactLaws F] (x y : F) (e : Elem F)
    (h : ∀ m, e = .module_ m → ∃ a, Fp.Elem.at_ a ∈ m.elements) :
    (e.adjust x y).bound = moveBox x y e.bound := by
  have A := @Lay.add_add_right F _ _
  have S := @Lay.sub_add_right F _ _
  have foldPts : ∀ (l : List (List (Fp.Xy F))) (b : Bound F),
      (l.map (adjPts x y)).foldl (fun b p => b.update (Fp.ptsBound p)) (moveBox x y b) =
        moveBox x y (l.foldl (fun b p => b.update (Fp.ptsBound p)) b) := fun l b =>
    moveBox_fold x y (fun p => Fp.ptsBound p) (fun p => Fp.ptsBound p) (adjPts x y) l b
      (fun e _ => Lay.move_pts x y e)
  cases e with
  | module_ m => exact Lay.move_module x y m (h m rfl)
  | grText t => simp [Elem.adjust, Elem.bound, GrText.bound, GrText.adjust, adjAt, Fp.pointBound, moveBox, Bound.new]
  | grLine l => exact Lay.move_two x y _ _
  | grArc l => exact Lay.move_two x y _ _
  | segment l => exact Lay.move_two x y _ _
  | grCircle c =>
    simp only [Elem.adjust, Elem.bound, GrCircle.bound, adjXy, moveBox, Bound.new, add_sub_add_right,
      if_true]
    generalize sqrt (F := F) _ = r
    simp only [S, A _ r]
  | via c => simp [Elem.adjust, Elem.bound, Via.bound, adjAt, moveBox, Bound.new, A, S]
  | dimension d =>
    have ht : (d.text.adjust x y).bound = moveBox x y d.text.bound := by
      simp [GrText.bound, GrText.adjust, adjAt, Fp.pointBound, moveBox, Bound.new]
    simp only [Elem.adjust, Elem.bound, Dimension.bound, Dimension.adjust, ht, Lay.move_pts]
    rw [← moveBox_dflt x y]
    simp only [moveBox_update]
    rw [moveBox_dflt]
  | zone z =>
    obtain ⟨_, _, _, _, _, _, _, _, _, _, ps, fs, seg, _⟩ := z
    simp only [Elem.adjust, Elem.bound, Zone.bound, Zone.adjust]
    rw [← moveBox_swap]
    congr 1
    conv => lhs; rw [← moveBox_dflt x y]
    rw [foldPts, foldPts]
    cases seg with
    | none => rfl
    | some s => simp only [Option.map_some, Lay.move_pts, moveBox_update]
  | net n => exact (moveBox_dflt x y).symm
  | netClass n => exact (moveBox_dflt x y).symm
  | other s => exact (moveBox_dflt x y).symm

/-- Moving a layout whose modules have a location moves its box by the same
offset (exact arithmetic); a layout without extent stays without. -/
theorem C44_bound_moves [ExactLaws F] (l : Layout F) (x y : F)
    (h : ∀ m, Elem.module_ m ∈ l.elements → ∃ a, Fp.Elem.at_ a ∈ m.elements) :
    (l.adjust x y).bound.isBounded = l.bound.isBounded ∧
    (l.bound.isBounded = true →
      (l.adjust x y).bound =
        ⟨add l.bound.x1 x, add l.bound.y1 y, add l.bound.x2 x, add l.bound.y2 y, true⟩) := by
  have key : (l.adjust x y).bound = moveBox x y l.bound := by
    simp only [Layout.bound, Layout.adjust]
    rw [← moveBox_swap]
    congr 1
    conv => lhs; rw [← moveBox_dflt x y]
    exact moveBox_fold x y Elem.bound Elem.bound (Elem.adjust x y) l.elements Bound.dflt
      (fun e he => Lay.move_elem x y e fun m hm => h m (hm ▸ he))
  rw [key]
  constructor
  · simp only [moveBox]; split <;> simp_all
  · intro hb; simp [moveBox, hb]

example : ∀ m, Elem.module_ m ∈ (sampleBoard : Layout Nm).elements →
    ∃ a, Fp.Elem.at_ a ∈ m.elements := by
  intro m hm
  simp only [sampleBoard, List.mem_cons, reduceCtorEq, List.not_mem_nil, or_false, false_or,
    Elem.module_.injEq] at hm
  subst hm
  exact ⟨_, by simp; rfl⟩

/-- A module without a location of its own does not move, so neither does its
box: the assumption above is needed. -/
theorem C44_unplaced_module_stays (m : Fp.Module F) (x y : F)
    (h : ∀ a, Fp.Elem.at_ a ∉ m.elements) :
    (Elem.module_ m).adjust x y = .module_ m := by
  obtain ⟨nm, es⟩ := m
  simp only [Elem.adjust, Fp.Module.adjust, Elem.module_.injEq, Fp.Module.mk.injEq, true_and]
  conv => rhs; rw [← List.map_id es]
  apply List.map_congr_left
  intro e he
  cases e with
  | at_ a => exact absurd he (h a)
  | _ => rfl

end Verif
