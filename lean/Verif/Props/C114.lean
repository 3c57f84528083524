import Verif.Spec.Mirror
import Verif.Props.C26
/-!
# C114: what flipping and turning do to the shape of a footprint

The box of a flipped footprint is its box in the mirror only if its lines and arcs make closed
outlines, because a line that went down goes up once it is flipped.  The box does not know that a
footprint is turned.  A flipped arc is not the arc in the mirror.
-/

namespace Verif
open Flt Fp Spec

variable {F : Type} [Flt F]

theorem Spec.counts_flip (e : Elem F) : Counts e.flip ↔ Counts e := by
  cases e <;> simp [Elem.flip, Counts, FpPoly.flip, FpLine.flip, FpCircle.flip, FpArc.flip, Layer.flip]

theorem Spec.at_flip [SymLaws F] (m : Module F) : m.flip.at_ = mirrored m.at_ := by
  obtain ⟨n, es⟩ := m
  have : Module.firstAt (es.map Elem.flip) = (Module.firstAt es).map At.flip := by
    induction es with
    | nil => rfl
    | cons e es ih =>
      rw [List.map_cons]
      cases e <;> first | exact ih | rfl
  simp only [Module.flip, Module.at_, this]
  cases Module.firstAt es <;> simp [mirrored, SymLaws.neg_zero, At.flip]

theorem Spec.first_flip [SymLaws F] (e : Elem F) (ha : AngleKept e) :
    (firstCorners e.flip).map Prod.snd = (lowerCorners e).map (fun p => neg p.2) ∧
    (firstCorners e.flip).map Prod.fst = (firstCorners e).map Prod.fst ∧
    (lastCorners e.flip).map Prod.snd = (upperCorners e).map (fun p => neg p.2) ∧
    (lastCorners e.flip).map Prod.fst = (lastCorners e).map Prod.fst := by
  cases e with
  | line l => exact ⟨rfl, rfl, rfl, rfl⟩
  | arc l => exact ⟨rfl, rfl, rfl, rfl⟩
  | poly l =>
    simp only [firstCorners, lastCorners, lowerCorners, upperCorners, Elem.flip, extent, FpPoly.flip, Xy.flip,
      List.map_map, Function.comp_def, and_self]
  | circle c =>
    simp only [firstCorners, lastCorners, lowerCorners, upperCorners, Elem.flip, extent, FpCircle.flip, Xy.flip,
      SymLaws.sub_neg, SymLaws.mul_neg]
    simp [SymLaws.sub_neg_left, SymLaws.add_neg_left]
  | pad p =>
    have := ha p rfl
    simp [firstCorners, lastCorners, lowerCorners, upperCorners, Elem.flip, extent, Pad.flip, At.flip, this,
      SymLaws.sub_neg_left, SymLaws.add_neg_left]
  | _ => exact ⟨rfl, rfl, rfl, rfl⟩

/-- Corners of the flipped footprint, from the corners of the footprint. -/
theorem Spec.corners_flip [SymLaws F] (m : Module F) (ha : ∀ e ∈ m.elements, AngleKept e) :
    (moduleCorners firstCorners m.flip).map Prod.snd = ((moduleCorners lowerCorners m).map Prod.snd).map neg ∧
    (moduleCorners firstCorners m.flip).map Prod.fst = (moduleCorners firstCorners m).map Prod.fst ∧
    (moduleCorners lastCorners m.flip).map Prod.snd = ((moduleCorners upperCorners m).map Prod.snd).map neg ∧
    (moduleCorners lastCorners m.flip).map Prod.fst = (moduleCorners lastCorners m).map Prod.fst := by
  simp only [moduleCorners, at_flip]
  generalize m.at_ = c
  have one : ∀ (f g : Elem F → List (F × F)),
      (∀ e ∈ m.elements, (f e.flip).map Prod.snd = (g e).map (fun p => neg p.2)) →
      (((m.flip.elements.filter fun e => decide (Counts e)).flatMap fun e =>
        (f e).map fun p => (add p.1 (mirrored c).1, add p.2 (mirrored c).2)).map Prod.snd) =
      (((m.elements.filter fun e => decide (Counts e)).flatMap fun e =>
        (g e).map fun p => (add p.1 c.1, add p.2 c.2)).map Prod.snd).map neg := by
    intro f g h
    simp only [Module.flip, List.filter_map, List.flatMap_map, List.map_flatMap, List.map_map, Function.comp_def,
      counts_flip]
    refine List.flatMap_congr fun e he => ?_
    have := congrArg (List.map fun v => add v (neg c.2)) (h e (List.mem_filter.1 he).1)
    simpa only [List.map_map, Function.comp_def, SymLaws.add_neg, mirrored] using this
  have two : ∀ (f g : Elem F → List (F × F)),
      (∀ e ∈ m.elements, (f e.flip).map Prod.fst = (g e).map Prod.fst) →
      (((m.flip.elements.filter fun e => decide (Counts e)).flatMap fun e =>
        (f e).map fun p => (add p.1 (mirrored c).1, add p.2 (mirrored c).2)).map Prod.fst) =
      (((m.elements.filter fun e => decide (Counts e)).flatMap fun e =>
        (g e).map fun p => (add p.1 c.1, add p.2 c.2)).map Prod.fst) := by
    intro f g h
    simp only [Module.flip, List.filter_map, List.flatMap_map, List.map_flatMap, List.map_map, Function.comp_def,
      counts_flip]
    refine List.flatMap_congr fun e he => ?_
    have := congrArg (List.map fun v => add v c.1) (h e (List.mem_filter.1 he).1)
    simpa only [List.map_map, Function.comp_def, mirrored] using this
  simp only [List.map_cons]
  rw [one _ _ fun e he => (first_flip e (ha e he)).1, two _ _ fun e he => (first_flip e (ha e he)).2.1,
    one _ _ fun e he => (first_flip e (ha e he)).2.2.1, two _ _ fun e he => (first_flip e (ha e he)).2.2.2]
  exact ⟨rfl, rfl, rfl, rfl⟩

theorem Spec.least_unique [OrdLaws F] {l : List F} {a b : F} (ha : Least a l) (hb : Least b l) : a = b :=
  OrdLaws.le_antisymm _ _ (ha.2 _ hb.1) (hb.2 _ ha.1)

theorem Spec.greatest_unique [OrdLaws F] {l : List F} {a b : F} (ha : Greatest a l) (hb : Greatest b l) : a = b :=
  OrdLaws.le_antisymm _ _ (hb.2 _ ha.1) (ha.2 _ hb.1)

theorem Spec.least_neg [SymLaws F] {l : List F} {a : F} (h : Least a (l.map neg)) : Greatest (neg a) l := by
  obtain ⟨h1, h2⟩ := h
  obtain ⟨b, hb, rfl⟩ := List.mem_map.1 h1
  rw [SymLaws.neg_neg]
  exact ⟨hb, fun u hu => by
    have := h2 _ (List.mem_map_of_mem hu)
    rwa [SymLaws.neg_le] at this⟩

theorem Spec.greatest_neg [SymLaws F] {l : List F} {a : F} (h : Greatest a (l.map neg)) : Least (neg a) l := by
  obtain ⟨h1, h2⟩ := h
  obtain ⟨b, hb, rfl⟩ := List.mem_map.1 h1
  rw [SymLaws.neg_neg]
  exact ⟨hb, fun u hu => by
    have := h2 _ (List.mem_map_of_mem hu)
    rwa [SymLaws.neg_le] at this⟩

/-- The box of a flipped footprint, exactly, also with binary64 numbers: as wide as before, and up
to where its shapes begin and end once flipped. -/
theorem C114_flipped_box [MonoLaws F] [SymLaws F] (m : Module F) (ha : ∀ e ∈ m.elements, AngleKept e) :
    m.flip.bound.isBounded = true ∧ m.flip.bound.x1 = m.bound.x1 ∧ m.flip.bound.x2 = m.bound.x2 ∧
    Greatest (neg m.flip.bound.y1) ((moduleCorners lowerCorners m).map Prod.snd) ∧
    Least (neg m.flip.bound.y2) ((moduleCorners upperCorners m).map Prod.snd) := by
  obtain ⟨a0, a1, a2, a3, a4⟩ := C26_bound_exact m
  obtain ⟨b0, b1, b2, b3, b4⟩ := C26_bound_exact m.flip
  obtain ⟨k1, k2, k3, k4⟩ := corners_flip m ha
  rw [k2] at b1
  rw [k1] at b2
  rw [k4] at b3
  rw [k3] at b4
  exact ⟨b0, least_unique b1 a1, greatest_unique b3 a3, least_neg b2, greatest_neg b4⟩

/-- When it is the box in the mirror. -/
theorem C114_flipped_box_iff [MonoLaws F] [SymLaws F] (m : Module F) (ha : ∀ e ∈ m.elements, AngleKept e) :
    m.flip.bound = mirroredBox m.bound ↔
      Greatest m.bound.y2 ((moduleCorners lowerCorners m).map Prod.snd) ∧
      Least m.bound.y1 ((moduleCorners upperCorners m).map Prod.snd) := by
  obtain ⟨b0, b1, b2, b3, b4⟩ := C114_flipped_box m ha
  have a0 := (C26_bound_exact m).1
  constructor
  · intro h
    rw [h] at b3 b4
    simp only [mirroredBox, SymLaws.neg_neg] at b3 b4
    exact ⟨b3, b4⟩
  · rintro ⟨h1, h2⟩
    have e1 := greatest_unique b3 h1
    have e2 := least_unique b4 h2
    have hb : m.flip.bound = ⟨m.flip.bound.x1, m.flip.bound.y1, m.flip.bound.x2, m.flip.bound.y2,
      m.flip.bound.isBounded⟩ := rfl
    rw [hb, mirroredBox, Bound.mk.injEq]
    exact ⟨b1, by rw [← e1, SymLaws.neg_neg], b2, by rw [← e2, SymLaws.neg_neg], by rw [b0, a0]⟩

/-- It is, if the lines and arcs make closed outlines. -/
theorem C114_flipped_outline [MonoLaws F] [SymLaws F] (m : Module F) (ha : ∀ e ∈ m.elements, AngleKept e)
    (ho : Outlines m) : m.flip.bound = mirroredBox m.bound := by
  rw [C114_flipped_box_iff m ha]
  obtain ⟨-, -, a2, -, a4⟩ := C26_bound_exact m
  have mem : ∀ (f : Elem F → List (F × F)) (u : F), u ∈ (moduleCorners f m).map Prod.snd ↔
      u = m.at_.2 ∨ ∃ e ∈ m.elements, Counts e ∧ ∃ p ∈ f e, u = add p.2 m.at_.2 := by
    intro f u
    simp only [moduleCorners, List.map_cons, List.mem_cons, List.map_flatMap, List.map_map, Function.comp_def,
      List.mem_flatMap, List.mem_filter, decide_eq_true_eq, List.mem_map]
    constructor
    · rintro (h | ⟨e, ⟨h1, h2⟩, p, h3, h4⟩)
      · exact .inl h
      · exact .inr ⟨e, h1, h2, p, h3, h4.symm⟩
    · rintro (h | ⟨e, h1, h2, p, h3, h4⟩)
      · exact .inl h
      · exact .inr ⟨e, ⟨h1, h2⟩, p, h3, h4.symm⟩
  have same : ∀ (f g : Elem F → List (F × F)),
      (∀ e ∈ m.elements, Counts e → ∀ p ∈ f e, ∃ e' ∈ m.elements, Counts e' ∧ ∃ p' ∈ g e', p'.2 = p.2) →
      ∀ u ∈ (moduleCorners f m).map Prod.snd, u ∈ (moduleCorners g m).map Prod.snd := by
    intro f g h u hu
    rw [mem] at hu ⊢
    rcases hu with hu | ⟨e, h1, h2, p, h3, h4⟩
    · exact .inl hu
    · obtain ⟨e', k1, k2, p', k3, k4⟩ := h e h1 h2 p h3
      exact .inr ⟨e', k1, k2, p', k3, by rw [h4, k4]⟩
  have start : ∀ e' : Elem F, ∀ p' q', ends? e' = some (p', q') →
      lowerCorners e' = [p'] ∧ firstCorners e' = [p'] ∧ upperCorners e' = [q'] ∧ lastCorners e' = [q'] := by
    intro e' p' q' h
    cases e' <;> simp only [ends?, Option.some.injEq, Prod.mk.injEq, reduceCtorEq] at h <;>
      (obtain ⟨rfl, rfl⟩ := h; exact ⟨rfl, rfl, rfl, rfl⟩)
  have other : ∀ e : Elem F, ends? e = none →
      lowerCorners e = lastCorners e ∧ upperCorners e = firstCorners e := by
    intro e h
    cases e <;> first | exact ⟨rfl, rfl⟩ | cases h
  have low : ∀ u, u ∈ (moduleCorners lowerCorners m).map Prod.snd ↔ u ∈ (moduleCorners lastCorners m).map Prod.snd := by
    intro u
    constructor
    · refine same _ _ (fun e he hc p hp => ?_) u
      cases h : ends? e with
      | none => exact ⟨e, he, hc, p, (other e h).1 ▸ hp, rfl⟩
      | some pq =>
        obtain ⟨a, b⟩ := pq
        obtain ⟨e', k1, k2, p', q', k3, k4⟩ := ho.2 e he hc a b h
        rw [(start e a b h).1, List.mem_singleton] at hp
        exact ⟨e', k1, k2, q', by rw [(start e' p' q' k3).2.2.2]; exact List.mem_singleton_self _, by rw [hp, k4]⟩
    · refine same _ _ (fun e he hc p hp => ?_) u
      cases h : ends? e with
      | none => exact ⟨e, he, hc, p, (other e h).1 ▸ hp, rfl⟩
      | some pq =>
        obtain ⟨a, b⟩ := pq
        obtain ⟨e', k1, k2, p', q', k3, k4⟩ := ho.1 e he hc a b h
        rw [(start e a b h).2.2.2, List.mem_singleton] at hp
        exact ⟨e', k1, k2, p', by rw [(start e' p' q' k3).1]; exact List.mem_singleton_self _, by rw [hp, k4]⟩
  have high : ∀ u, u ∈ (moduleCorners upperCorners m).map Prod.snd ↔ u ∈ (moduleCorners firstCorners m).map Prod.snd := by
    intro u
    constructor
    · refine same _ _ (fun e he hc p hp => ?_) u
      cases h : ends? e with
      | none => exact ⟨e, he, hc, p, (other e h).2 ▸ hp, rfl⟩
      | some pq =>
        obtain ⟨a, b⟩ := pq
        obtain ⟨e', k1, k2, p', q', k3, k4⟩ := ho.1 e he hc a b h
        rw [(start e a b h).2.2.1, List.mem_singleton] at hp
        exact ⟨e', k1, k2, p', by rw [(start e' p' q' k3).2.1]; exact List.mem_singleton_self _, by rw [hp, k4]⟩
    · refine same _ _ (fun e he hc p hp => ?_) u
      cases h : ends? e with
      | none => exact ⟨e, he, hc, p, (other e h).2 ▸ hp, rfl⟩
      | some pq =>
        obtain ⟨a, b⟩ := pq
        obtain ⟨e', k1, k2, p', q', k3, k4⟩ := ho.2 e he hc a b h
        rw [(start e a b h).2.1, List.mem_singleton] at hp
        exact ⟨e', k1, k2, q', by rw [(start e' p' q' k3).2.2.1]; exact List.mem_singleton_self _, by rw [hp, k4]⟩
  exact ⟨⟨(low _).2 a4.1, fun u hu => a4.2 u ((low u).1 hu)⟩, ⟨(high _).2 a2.1, fun u hu => a2.2 u ((high u).1 hu)⟩⟩

/-- The usual angles are quarter turns before and after, also with binary64 numbers. -/
theorem C114_usual_angles (p : Pad Fl)
    (h : p.at_.rot ∈ [(zero : Fl), lit 45 0, lit 90 0, lit 135 0, lit 180 0, lit 225 0, lit 270 0, lit 315 0]) :
    AngleKept (.pad p) := by
  rintro _ ⟨⟩
  generalize p.at_.rot = r at *
  simp only [List.mem_cons, List.not_mem_nil, or_false] at h
  rcases h with rfl | rfl | rfl | rfl | rfl | rfl | rfl | rfl <;> decide +kernel

/-- Exact numbers: so are all angles of at least zero and less than a full turn. -/
theorem C114_normal_angles (p : Pad Nm) (h : Normal p.at_.rot) : AngleKept (.pad p) := by
  rintro _ ⟨⟩
  generalize p.at_.rot = r at *
  obtain ⟨n⟩ := r
  simp only [Normal, Flt.le, Flt.lt, Flt.lit, Flt.zero, decide_eq_true_eq] at h
  norm_num at h
  rw [Bool.eq_iff_iff]
  simp only [extent.quarter, Flt.lt, Flt.lit, Flt.sub, Flt.add, Flt.abs, List.any_cons, List.any_nil, Bool.or_eq_true,
    decide_eq_true_eq, Bool.or_false]
  norm_num
  simp only [abs_lt]
  omega

/-- A line that goes down goes up once flipped, and the box of the footprint loses it: what it
covered before it does not cover afterwards. -/
theorem C114_flipped_line_lost : ∃ (m : Module Nm) (e : Elem Nm), e ∈ m.elements ∧ Counts e ∧ Oriented e ∧
    (∀ p ∈ extent e, Inside m.bound (add p.1 m.at_.1) (add p.2 m.at_.2)) ∧
    ∃ p ∈ extent e.flip, ¬ Inside m.flip.bound (add p.1 m.flip.at_.1) (add p.2 m.flip.at_.2) := by
  let l : FpLine Nm := ⟨⟨⟨0⟩, ⟨3⟩, .start⟩, ⟨⟨0⟩, ⟨5⟩, .end_⟩, ⟨.front, .fab⟩, ⟨1⟩⟩
  refine ⟨⟨[], [.line l]⟩, .line l, by decide, rfl, ⟨by decide, by decide⟩, ?_, (⟨0⟩, ⟨-5⟩), by decide, ?_⟩
  · unfold Inside; decide
  · unfold Inside; decide

/-- A pad turned by a negative quarter turn is measured the other way once flipped. -/
theorem C114_negative_angle : ∃ m : Module Nm, (∀ e ∈ m.elements, Oriented e) ∧ Outlines m ∧
    m.flip.bound ≠ mirroredBox m.bound := by
  let p : Pad Nm := { Pad.new (str! "1") .smd .rect with
    at_ := ⟨zero, zero, lit (-90) 0⟩, size := ⟨lit 1 0, lit 2 0, .size⟩ }
  refine ⟨⟨[], [.pad p]⟩, ?_, ⟨?_, ?_⟩, by decide +kernel⟩
  · intro e he
    rw [List.mem_singleton.1 he]
    exact ⟨by decide, by decide⟩
  all_goals
    intro e he _ p q h
    rw [List.mem_singleton.1 he] at h
    cases h

/-! ## Turned footprints -/

theorem Spec.at_turned (r : F) (m : Module F) : (turnedTo r m).at_ = m.at_ := by
  obtain ⟨n, es⟩ := m
  have : Module.firstAt (turnedTo r ⟨n, es⟩).elements =
      (Module.firstAt es).map fun a => { a with rot := r } := by
    simp only [turnedTo]
    induction es with
    | nil => rfl
    | cons e es ih =>
      rw [List.map_cons]
      cases e <;> first | exact ih | rfl
  simp only [Module.at_, this]
  cases Module.firstAt es <;> rfl

/-- The box of a footprint does not depend on the angle it is placed with. -/
theorem C114_angle_ignored (r : F) (m : Module F) : (turnedTo r m).bound = m.bound := by
  simp only [Module.bound, at_turned]
  congr 1
  generalize Bound.new m.at_.1 m.at_.2 m.at_.1 m.at_.2 = b
  generalize m.at_ = c
  simp only [turnedTo, List.foldl_map]
  congr 1
  funext b e
  cases e <;> rfl

/-- So a pad of a footprint that is placed with a quarter turn need not be inside. -/
theorem C114_turned_not_covered : ∃ (m : Module Nm) (p : Pad Nm), Elem.pad p ∈ m.elements ∧
    m.elements.filterMap (fun e => match e with | .at_ a => some a.rot | _ => none) = [lit 90 0] ∧
    Inside m.bound (add p.at_.x m.at_.1) (add p.at_.y m.at_.2) ∧
    ¬ Inside m.bound (drawnQuarter m (p.at_.x, p.at_.y)).1 (drawnQuarter m (p.at_.x, p.at_.y)).2 := by
  let p : Pad Nm := { Pad.new (str! "1") .smd .rect with
    at_ := ⟨lit 10 0, zero, lit 90 0⟩, size := ⟨lit 1 0, lit 2 0, .size⟩ }
  refine ⟨⟨[], [.at_ ⟨lit 5 0, lit 5 0, lit 90 0⟩, .pad p]⟩, p, by simp, rfl, ?_, ?_⟩
  · unfold Inside; decide +kernel
  · unfold Inside; decide +kernel

/-- Turning a footprint without pads leaves its box as it is, whatever is drawn. -/
theorem C114_rotated_box (r : F) (m : Module F) (h : ∀ p, Elem.pad p ∉ m.elements) :
    (m.rotate r).bound = m.bound := by
  have hat : (m.rotate r).at_ = m.at_ := by
    obtain ⟨n, es⟩ := m
    have : Module.firstAt (es.map (Elem.rotate r)) = (Module.firstAt es).map fun a => a.rotate r := by
      clear h
      induction es with
      | nil => rfl
      | cons e es ih =>
        rw [List.map_cons]
        cases e <;> first | exact ih | rfl
    simp only [Module.rotate, Module.at_, this]
    cases Module.firstAt es <;> rfl
  simp only [Module.bound, hat]
  congr 1
  generalize Bound.new m.at_.1 m.at_.2 m.at_.1 m.at_.2 = b
  generalize m.at_ = c
  obtain ⟨n, es⟩ := m
  simp only [Module.rotate] at h ⊢
  clear hat
  induction es generalizing b with
  | nil => rfl
  | cons e es ih =>
    rw [List.map_cons, List.foldl_cons, List.foldl_cons]
    have : Module.boundStep c.1 c.2 b (e.rotate r) = Module.boundStep c.1 c.2 b e := by
      cases e with
      | pad p => exact absurd List.mem_cons_self (h p)
      | _ => rfl
    rw [this]
    exact ih _ (fun p hp => h p (List.mem_cons_of_mem _ hp))

/-- Exact numbers: flipping mirrors where a quarter arc begins and the point it turns around, but it
goes on the wrong way: it ends where it should only if it has no radius. -/
theorem C114_arc_not_mirrored (a : FpArc Nm) :
    farEnd a.flip = mirrored (farEnd a) ↔ a.end_.x = a.start.x ∧ a.end_.y = a.start.y := by
  simp only [farEnd, FpArc.flip, Xy.flip, mirrored, Prod.mk.injEq, Flt.sub, Flt.add, Flt.neg, Nm.mk.injEq]
  have hx : a.end_.x = a.start.x ↔ a.end_.x.n = a.start.x.n := ⟨fun h => by rw [h], Nm.ext_n⟩
  have hy : a.end_.y = a.start.y ↔ a.end_.y.n = a.start.y.n := ⟨fun h => by rw [h], Nm.ext_n⟩
  rw [hx, hy]
  omega

/-! A footprint with a pad turned by a quarter, a circle, and a closed triangle. -/

/-- The footprint. -/
def Spec.outlined (F : Type) [Flt F] : Module F :=
  let at_ (x y : Int) (t : XyType) : Xy F := ⟨lit x 0, lit y 0, t⟩
  let side (a b c d : Int) : Elem F := .line ⟨at_ a b .start, at_ c d .end_, ⟨.front, .fab⟩, lit 1 1⟩
  ⟨str! "A", [.at_ ⟨lit 2 0, lit 3 0, zero⟩,
    .pad { Pad.new (str! "1") .smd .rect with at_ := ⟨lit 1 0, lit 5 0, lit 90 0⟩, size := ⟨lit 1 0, lit 2 0, .size⟩ },
    .circle ⟨at_ 0 0 .center, at_ 3 4 .end_, ⟨.front, .fab⟩, lit 1 1⟩,
    side 0 0 9 0, side 9 0 9 8, side 9 8 0 0]⟩

theorem Spec.outlined_closed (F : Type) [Flt F] : Outlines (outlined F) := by
  obtain ⟨es, hes⟩ : ∃ es, es = (outlined F).elements := ⟨_, rfl⟩
  have k : ∀ i e, es[i]? = some e → e ∈ es := fun i e h => List.mem_of_getElem? h
  unfold Outlines
  rw [← hes]
  have m1 := k 3 _ (by rw [hes]; rfl)
  have m2 := k 4 _ (by rw [hes]; rfl)
  have m3 := k 5 _ (by rw [hes]; rfl)
  constructor <;> intro e he _ p q h <;> rw [hes] at he <;>
    simp only [outlined, List.mem_cons, List.not_mem_nil, or_false] at he <;>
    rcases he with rfl | rfl | rfl | rfl | rfl | rfl <;> simp only [ends?, reduceCtorEq, Option.some.injEq, Prod.mk.injEq] at h <;>
    obtain ⟨rfl, rfl⟩ := h <;>
    first
    | exact ⟨_, m1, rfl, _, _, rfl, rfl⟩
    | exact ⟨_, m2, rfl, _, _, rfl, rfl⟩
    | exact ⟨_, m3, rfl, _, _, rfl, rfl⟩

example : (outlined Fl).flip.bound = mirroredBox (outlined Fl).bound :=
  C114_flipped_outline _ (by
    intro e he
    simp only [outlined, List.mem_cons, List.not_mem_nil, or_false] at he
    rcases he with rfl | rfl | rfl | rfl | rfl | rfl
    · exact fun _ h => nomatch h
    · exact C114_usual_angles _ (by decide +kernel)
    all_goals exact fun _ h => nomatch h) (outlined_closed Fl)

end Verif
