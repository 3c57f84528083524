import Verif.Props.C30
import Verif.Props.C44
import Verif.Lemmas.Near
import Mathlib.Algebra.Order.Group.MinMax
/-!
# C94: boxes and courtyards with 64-bit floating point numbers

The theorems of C30 and C44 about the clearance of courtyards and the box of a moved
layout assume exact arithmetic.  Here the numbers are those the code computes with (`Fl`).
-/

namespace Verif
open Flt Spec Fp64

namespace Spec

/-- A number that is at most `R` away from zero. -/
def Within (R : ℚ) (a : Fl) : Prop := |a.val| ≤ R

/-- A box is another one moved by an offset, up to an error of `t` in each side. -/
def BoxMoved (t : ℚ) (x y : Fl) (b b' : Bound Fl) : Prop :=
  b'.isBounded = b.isBounded ∧ (b.isBounded = true →
    |b'.x1.val - (b.x1.val + x.val)| ≤ t ∧ |b'.y1.val - (b.y1.val + y.val)| ≤ t ∧
    |b'.x2.val - (b.x2.val + x.val)| ≤ t ∧ |b'.y2.val - (b.y2.val + y.val)| ≤ t)

/-- Everything about a board element that its box depends on is at most `R` away from zero: its
points, the size of a via, and what a module draws (relative to the module). -/
def Reaches (R : ℚ) (e : Lay.Elem Fl) : Prop :=
  (∀ p ∈ boardPoints e, Within R p.1 ∧ Within R p.2) ∧
  (∀ v, e = .via v → Within R v.size) ∧
  (∀ m, e = .module_ m → ∀ f ∈ m.elements, Counts f → ∀ p ∈ extent f, Within R p.1 ∧ Within R p.2)

end Spec

theorem Fl.fmin_val (a b : Fl) : (fmin a b).val = min a.val b.val := by
  show (if a.val ≤ b.val then a else b).val = _
  split
  · rename_i h; rw [min_eq_left h]
  · rename_i h; rw [min_eq_right (le_of_not_ge h)]

theorem Fl.fmax_val (a b : Fl) : (fmax a b).val = max a.val b.val := by
  show (if a.val ≤ b.val then b else a).val = _
  split
  · rename_i h; rw [max_eq_right h]
  · rename_i h; rw [max_eq_left (le_of_not_ge h)]

theorem Fl.add_comm' (a b : Fl) : Flt.add a b = Flt.add b a := by
  show Fl.of (a.val + b.val) = Fl.of (b.val + a.val)
  rw [_root_.add_comm]

theorem Spec.near_min {t x a b a' b' : ℚ} (ha : |a' - (a + x)| ≤ t) (hb : |b' - (b + x)| ≤ t) :
    |min a' b' - (min a b + x)| ≤ t := by
  rw [← min_add_add_right]
  exact le_trans (abs_min_sub_min_le_max _ _ _ _) (max_le ha hb)

theorem Spec.near_max {t x a b a' b' : ℚ} (ha : |a' - (a + x)| ≤ t) (hb : |b' - (b + x)| ≤ t) :
    |max a' b' - (max a b + x)| ≤ t := by
  rw [← max_add_add_right]
  exact le_trans (abs_max_sub_max_le_max _ _ _ _) (max_le ha hb)

theorem Spec.BoxMoved.update {t : ℚ} {x y : Fl} {a a' b b' : Bound Fl} (ha : BoxMoved t x y a a')
    (hb : BoxMoved t x y b b') : BoxMoved t x y (a.update b) (a'.update b') := by
  obtain ⟨_, _, _, _, ab⟩ := a
  obtain ⟨_, _, _, _, bb⟩ := b
  obtain ⟨_, _, _, _, ab'⟩ := a'
  obtain ⟨_, _, _, _, bb'⟩ := b'
  obtain ⟨e1, h1⟩ := ha
  obtain ⟨e2, h2⟩ := hb
  simp only at e1 e2
  subst e1 e2
  cases ab' <;> cases bb' <;> simp_all [BoxMoved, Bound.update, Fl.fmin_val, Fl.fmax_val, near_min, near_max]

/-- Putting the corners in order. -/
theorem Spec.swap_sides (b : Bound Fl) : b.swapIfNeeded.isBounded = b.isBounded ∧
    b.swapIfNeeded.x1.val = min b.x1.val b.x2.val ∧ b.swapIfNeeded.x2.val = max b.x1.val b.x2.val ∧
    b.swapIfNeeded.y1.val = min b.y1.val b.y2.val ∧ b.swapIfNeeded.y2.val = max b.y1.val b.y2.val := by
  obtain ⟨x1, y1, x2, y2, bb⟩ := b
  have L : ∀ a b : Fl, (Flt.lt a b = true) = (a.val < b.val) := by
    intro a b; simp [Flt.lt]
  simp only [Bound.swapIfNeeded, L]
  by_cases hx : x2.val < x1.val <;> by_cases hy : y2.val < y1.val <;>
    simp only [hx, hy, if_true, if_false] <;>
    simp [hx, hy, not_lt.1, _root_.le_of_lt]

theorem Spec.BoxMoved.swap {t : ℚ} {x y : Fl} {b b' : Bound Fl} (h : BoxMoved t x y b b') :
    BoxMoved t x y b.swapIfNeeded b'.swapIfNeeded := by
  obtain ⟨h1, h2⟩ := h
  obtain ⟨a0, a1, a2, a3, a4⟩ := swap_sides b
  obtain ⟨c0, c1, c2, c3, c4⟩ := swap_sides b'
  refine ⟨by rw [a0, c0, h1], fun hb => ?_⟩
  obtain ⟨k1, k2, k3, k4⟩ := h2 (by rw [← a0]; exact hb)
  rw [a1, a2, a3, a4, c1, c2, c3, c4]
  exact ⟨near_min k1 k3, near_min k2 k4, near_max k1 k3, near_max k2 k4⟩

theorem Spec.BoxMoved.dflt (t : ℚ) (x y : Fl) : BoxMoved t x y Bound.dflt Bound.dflt :=
  ⟨rfl, fun h => by simp [Bound.dflt] at h⟩

theorem Spec.BoxMoved.fold {α β : Type} {t : ℚ} {x y : Fl} (f : α → Bound Fl) (g : β → Bound Fl) (h : β → α)
    (l : List β) (b b' : Bound Fl) (hb : BoxMoved t x y b b') (hf : ∀ e ∈ l, BoxMoved t x y (g e) (f (h e))) :
    BoxMoved t x y (l.foldl (fun b a => b.update (g a)) b) ((l.map h).foldl (fun b a => b.update (f a)) b') := by
  induction l generalizing b b' with
  | nil => exact hb
  | cons a l ih =>
    rw [List.forall_mem_cons] at hf
    exact ih _ _ (hb.update hf.1) hf.2

/-- How far a single coordinate may be off. -/
theorem Fl.move_point {R : ℚ} {p x : Fl} (hp : |p.val| ≤ R) (hx : |x.val| ≤ R) :
    |(Flt.add p x).val - (p.val + x.val)| ≤ (R + 1) * pow2 (-46) := by
  have h := Fl.add_within hp hx
  have e : pow2 (-46) = 128 * pow2 (-53) := by
    rw [show (-46 : Int) = 7 + -53 by norm_num, pow2_add]; rfl
  have R0 : 0 ≤ R := le_trans (abs_nonneg _) hp
  have w0 := w_pos
  rw [e]
  have := mul_nonneg R0 (_root_.le_of_lt w0)
  linarith

theorem Fl.eight {R : ℚ} (R0 : 0 ≤ R) : R * 8 * pow2 (-53) ≤ (R + 1) * pow2 (-46) := by
  have e : pow2 (-46) = 128 * pow2 (-53) := by
    rw [show (-46 : Int) = 7 + -53 by norm_num, pow2_add]; rfl
  have w0 := w_pos
  rw [e]
  have := mul_nonneg R0 (_root_.le_of_lt w0)
  linarith

theorem Fl.move_circle {R : ℚ} {cx cy ex ey x y : Fl} (h1 : |cx.val| ≤ R) (h2 : |cy.val| ≤ R) (h3 : |ex.val| ≤ R)
    (h4 : |ey.val| ≤ R) (h5 : |x.val| ≤ R) (h6 : |y.val| ≤ R) {c z : Fl} (hc : |c.val| ≤ R) (hz : |z.val| ≤ R) :
    |(Flt.sub (Flt.add c z) (Fl.dist (Flt.sub (Flt.add cx x) (Flt.add ex x)) (Flt.sub (Flt.add cy y) (Flt.add ey y)))).val -
      ((Flt.sub c (Fl.dist (Flt.sub cx ex) (Flt.sub cy ey))).val + z.val)| ≤ (R + 1) * pow2 (-46) ∧
    |(Flt.add (Flt.add c z) (Fl.dist (Flt.sub (Flt.add cx x) (Flt.add ex x)) (Flt.sub (Flt.add cy y) (Flt.add ey y)))).val -
      ((Flt.add c (Fl.dist (Flt.sub cx ex) (Flt.sub cy ey))).val + z.val)| ≤ (R + 1) * pow2 (-46) := by
  obtain ⟨d1, d2, d3⟩ := Fl.move_dist h1 h2 h3 h4 h5 h6
  generalize Fl.dist (Flt.sub (Flt.add cx x) (Flt.add ex x)) (Flt.sub (Flt.add cy y) (Flt.add ey y)) = q at *
  generalize Fl.dist (Flt.sub cx ex) (Flt.sub cy ey) = r at *
  clear h1 h2 h3 h4 h5 h6
  have e : pow2 (-46) = 128 * pow2 (-53) := by
    rw [show (-46 : Int) = 7 + -53 by norm_num, pow2_add]; rfl
  have R0 : 0 ≤ R := le_trans (abs_nonneg _) hc
  have w0 := w_pos
  have w1 := w_small
  have f0 := mul_nonneg R0 (_root_.le_of_lt w0)
  have f1 : R * pow2 (-53) ≤ R * (1 / 1024) := mul_le_mul_of_nonneg_left w1 R0
  have a1 := abs_le.1 (Fl.add_within hc hz)
  have hc' := abs_le.1 hc
  have hz' := abs_le.1 hz
  have s1 : |(Flt.add c z).val| ≤ 3 * R := abs_le.2 ⟨by linarith, by linarith⟩
  have b1 := abs_le.1 (Fl.sub_within s1 d3)
  have b2 := abs_le.1 (Fl.sub_within hc d2)
  have b3 := abs_le.1 (Fl.add_within s1 d3)
  have b4 := abs_le.1 (Fl.add_within hc d2)
  have d1' := abs_le.1 d1
  rw [e]
  exact ⟨abs_le.2 ⟨by linarith, by linarith⟩, abs_le.2 ⟨by linarith, by linarith⟩⟩

section
variable {R : ℚ} {x y : Fl} (hx : Within R x) (hy : Within R y)
include hx hy

theorem Lay.near_point {p q : Fl} (hp : Within R p) (hq : Within R q) :
    BoxMoved ((R + 1) * pow2 (-46)) x y (Fp.pointBound p q) (Fp.pointBound (add p x) (add q y)) :=
  ⟨rfl, fun _ => ⟨Fl.move_point hp hx, Fl.move_point hq hy, Fl.move_point hp hx, Fl.move_point hq hy⟩⟩

theorem Lay.near_two {a b : Fp.Xy Fl} (ha : Within R a.x ∧ Within R a.y) (hb : Within R b.x ∧ Within R b.y) :
    BoxMoved ((R + 1) * pow2 (-46)) x y (Lay.twoPoint a b) (Lay.twoPoint (Lay.adjXy x y a) (Lay.adjXy x y b)) := by
  refine ⟨rfl, fun _ => ?_⟩
  simp only [Lay.twoPoint, Bound.new, Lay.adjXy, Fl.fmin_val, Fl.fmax_val]
  exact ⟨near_min (Fl.move_point ha.1 hx) (Fl.move_point hb.1 hx), near_min (Fl.move_point ha.2 hy) (Fl.move_point hb.2 hy),
    near_max (Fl.move_point ha.1 hx) (Fl.move_point hb.1 hx), near_max (Fl.move_point ha.2 hy) (Fl.move_point hb.2 hy)⟩

theorem Lay.near_pts (l : List (Fp.Xy Fl)) (hl : ∀ a ∈ l, Within R a.x ∧ Within R a.y) :
    BoxMoved ((R + 1) * pow2 (-46)) x y (Fp.ptsBound l) (Fp.ptsBound (Lay.adjPts x y l)) := by
  apply BoxMoved.swap
  exact BoxMoved.fold (fun e : Fp.Xy Fl => Fp.pointBound e.x e.y) (fun e : Fp.Xy Fl => Fp.pointBound e.x e.y)
    (Lay.adjXy x y) l _ _ (BoxMoved.dflt _ x y) fun e he => Lay.near_point hx hy (hl e he).1 (hl e he).2

theorem Lay.near_module (m : Fp.Module Fl) (h : ∃ a, Fp.Elem.at_ a ∈ m.elements)
    (hr : Reaches R (.module_ m)) :
    BoxMoved ((R + 1) * pow2 (-46)) x y m.bound (m.adjust x y).bound := by
  obtain ⟨h1, -, h3⟩ := hr
  have h3 := h3 m rfl
  have hat : (m.adjust x y).at_ = (add m.at_.1 x, add m.at_.2 y) ∧ Within R m.at_.1 ∧ Within R m.at_.2 := by
    simp only [Fp.Module.adjust, Fp.Module.at_]
    simp only [boardPoints] at h1
    obtain ⟨a, ha⟩ := h
    clear h3
    generalize m.elements = es at ha h1
    induction es with
    | nil => simp at ha
    | cons e es ih =>
      cases e with
      | at_ b =>
        have := h1 (b.x, b.y) (by simp [ownAt])
        simpa [Fp.Module.adjustElem, Fp.Module.firstAt] using this
      | _ =>
        simp only [List.mem_cons, reduceCtorEq, false_or] at ha
        simpa [Fp.Module.adjustElem, Fp.Module.firstAt] using ih ha (by simpa [ownAt] using h1)
  obtain ⟨hat, hu, hv⟩ := hat
  simp only [Fp.Module.bound, hat]
  apply BoxMoved.swap
  have b0 := Lay.near_point hx hy hu hv
  simp only [Fp.pointBound] at b0
  simp only [Fp.Module.adjust]
  revert b0
  generalize (Bound.new m.at_.1 m.at_.2 m.at_.1 m.at_.2 : Bound Fl) = b
  generalize (Bound.new (add m.at_.1 x) (add m.at_.2 y) (add m.at_.1 x) (add m.at_.2 y) : Bound Fl) = b'
  clear hat h1 h
  generalize m.at_.1 = u at *
  generalize m.at_.2 = v at *
  generalize m.elements = es at *
  have R0 : 0 ≤ R := le_trans (abs_nonneg _) hx
  induction es generalizing b b' with
  | nil => exact id
  | cons e es ih =>
    intro b0
    rw [List.forall_mem_cons] at h3
    refine ih _ _ h3.2 ?_
    have he : Fp.Module.boundStep (add u x) (add v y) b' (Fp.Module.adjustElem x y e) =
        Fp.Module.boundStep (add u x) (add v y) b' e := by cases e <;> rfl
    rw [he]
    simp only [Fp.Module.boundStep]
    split
    · rename_i hg
      have hc : Counts e := (Fp.counts_iff e).1 hg
      refine b0.update ⟨rfl, fun hbd => ?_⟩
      obtain ⟨⟨p1, q1, e1⟩, ⟨p2, q2, e2⟩, ⟨p3, q3, e3⟩, ⟨p4, q4, e4⟩⟩ := Fp.elem_sides e hc hbd
      have M : ∀ {c u x : Fl}, |c.val| ≤ R → |u.val| ≤ R → |x.val| ≤ R →
          |(add c (add u x)).val - ((add c u).val + x.val)| ≤ (R + 1) * pow2 (-46) := by
        intro c u x h1 h2 h3
        rw [Fl.add_comm' c, Fl.add_comm' c]
        exact le_trans (Fl.move_add h2 h1 h3) (Fl.eight R0)
      simp only [← e1, ← e2, ← e3, ← e4]
      exact ⟨M (h3.1 hc _ q1).1 hu hx, M (h3.1 hc _ q3).2 hv hy, M (h3.1 hc _ q2).1 hu hx, M (h3.1 hc _ q4).2 hv hy⟩
    · exact b0

theorem Lay.near_elem (e : Lay.Elem Fl) (h : ∀ m, e = .module_ m → ∃ a, Fp.Elem.at_ a ∈ m.elements)
    (hr : Reaches R e) : BoxMoved ((R + 1) * pow2 (-46)) x y e.bound (e.adjust x y).bound := by
  have R0 : 0 ≤ R := le_trans (abs_nonneg _) hx
  obtain ⟨h1, h2, h3⟩ := id hr
  cases e with
  | module_ m => exact Lay.near_module hx hy m (h m rfl) hr
  | grText t =>
    have := h1 (atPair t.at_) (by simp [boardPoints])
    exact Lay.near_point hx hy this.1 this.2
  | grLine l =>
    exact Lay.near_two hx hy (h1 (xyPair l.start) (by simp [boardPoints])) (h1 (xyPair l.end_) (by simp [boardPoints]))
  | grArc l =>
    exact Lay.near_two hx hy (h1 (xyPair l.start) (by simp [boardPoints])) (h1 (xyPair l.end_) (by simp [boardPoints]))
  | segment l =>
    exact Lay.near_two hx hy (h1 (xyPair l.start) (by simp [boardPoints])) (h1 (xyPair l.end_) (by simp [boardPoints]))
  | grCircle c =>
    have k1 := h1 (xyPair c.center) (by simp [boardPoints])
    have k2 := h1 (xyPair c.end_) (by simp [boardPoints])
    have c1 := Fl.move_circle (cx := c.center.x) (cy := c.center.y) (ex := c.end_.x) (ey := c.end_.y) k1.1 k1.2 k2.1 k2.2
      hx hy k1.1 hx
    have c2 := Fl.move_circle (cx := c.center.x) (cy := c.center.y) (ex := c.end_.x) (ey := c.end_.y) k1.1 k1.2 k2.1 k2.2
      hx hy k1.2 hy
    exact ⟨rfl, fun _ => ⟨c1.1, c2.1, c1.2, c2.2⟩⟩
  | via c =>
    have k := h1 (atPair c.at_) (by simp [boardPoints])
    have hs := h2 c rfl
    refine ⟨rfl, fun _ => ⟨?_, ?_, ?_, ?_⟩⟩
    · exact le_trans (Fl.move_sub k.1 hs hx) (Fl.eight R0)
    · exact le_trans (Fl.move_sub k.2 hs hy) (Fl.eight R0)
    · exact le_trans (Fl.move_add k.1 hs hx) (Fl.eight R0)
    · exact le_trans (Fl.move_add k.2 hs hy) (Fl.eight R0)
  | dimension d =>
    simp only [boardPoints, List.forall_mem_cons] at h1
    obtain ⟨h0, h1⟩ := h1
    have hp : ∀ l : List (Fp.Xy Fl), (∀ q ∈ l, q ∈ d.feature1 ++ d.feature2 ++ d.crossbar ++ d.arrow1a ++
        d.arrow1b ++ d.arrow2a ++ d.arrow2b) →
        BoxMoved ((R + 1) * pow2 (-46)) x y (Fp.ptsBound l) (Fp.ptsBound (Lay.adjPts x y l)) := by
      intro l hl
      exact Lay.near_pts hx hy l fun a ha => h1 (xyPair a) (List.mem_map.2 ⟨a, hl a ha, rfl⟩)
    have ht : BoxMoved ((R + 1) * pow2 (-46)) x y d.text.bound (d.text.adjust x y).bound := Lay.near_point hx hy h0.1 h0.2
    simp only [Lay.Elem.adjust, Lay.Elem.bound, Lay.Dimension.bound, Lay.Dimension.adjust]
    exact ((((((((BoxMoved.dflt _ x y).update ht).update (hp _ (by intro q hq; simp [hq]))).update
      (hp _ (by intro q hq; simp [hq]))).update (hp _ (by intro q hq; simp [hq]))).update
      (hp _ (by intro q hq; simp [hq]))).update (hp _ (by intro q hq; simp [hq]))).update
      (hp _ (by intro q hq; simp [hq]))).update (hp _ (by intro q hq; simp [hq]))
  | zone z =>
    obtain ⟨_, _, _, _, _, _, _, _, _, _, ps, fs, seg, _⟩ := z
    simp only [boardPoints] at h1
    have hp : ∀ l : List (Fp.Xy Fl), (∀ q ∈ l, q ∈ ps.flatten ++ fs.flatten ++ seg.getD []) →
        BoxMoved ((R + 1) * pow2 (-46)) x y (Fp.ptsBound l) (Fp.ptsBound (Lay.adjPts x y l)) := by
      intro l hl
      exact Lay.near_pts hx hy l fun a ha => h1 (xyPair a) (List.mem_map.2 ⟨a, hl a ha, rfl⟩)
    simp only [Lay.Elem.adjust, Lay.Elem.bound, Lay.Zone.bound, Lay.Zone.adjust]
    apply BoxMoved.swap
    have k1 := BoxMoved.fold (fun p => Fp.ptsBound p) (fun p => Fp.ptsBound p) (Lay.adjPts x y) ps _ _
      (BoxMoved.dflt _ x y) (fun l hl => hp l fun q hq => by
        simp only [List.mem_append, List.mem_flatten]; exact Or.inl (Or.inl ⟨l, hl, hq⟩))
    have k2 := BoxMoved.fold (fun p => Fp.ptsBound p) (fun p => Fp.ptsBound p) (Lay.adjPts x y) fs _ _ k1
      (fun l hl => hp l fun q hq => by
        simp only [List.mem_append, List.mem_flatten]; exact Or.inl (Or.inr ⟨l, hl, hq⟩))
    cases seg with
    | none => exact k2
    | some s => exact k2.update (hp s fun q hq => by simp [hq])
  | net n => exact BoxMoved.dflt _ x y
  | netClass n => exact BoxMoved.dflt _ x y
  | other s => exact BoxMoved.dflt _ x y

end

/-- Moving a layout whose modules have a location moves its box by the same offset, up to rounding:
if everything lies within `R` of the origin, each side is off by at most `(R + 1) * 2^-46`. -/
theorem C94_box_moves (l : Lay.Layout Fl) (x y : Fl) (R : ℚ) (hx : Within R x) (hy : Within R y)
    (h : ∀ m, Lay.Elem.module_ m ∈ l.elements → ∃ a, Fp.Elem.at_ a ∈ m.elements)
    (hr : ∀ e ∈ l.elements, Reaches R e) :
    BoxMoved ((R + 1) * pow2 (-46)) x y l.bound (l.adjust x y).bound := by
  apply BoxMoved.swap
  exact BoxMoved.fold Lay.Elem.bound Lay.Elem.bound (Lay.Elem.adjust x y) l.elements _ _ (BoxMoved.dflt _ x y)
    fun e he => Lay.near_elem hx hy e (fun m hm => h m (hm ▸ he)) (hr e he)

/-- In millimetres: a board within a metre of the origin, moved by less than a metre, has a box that
is off by less than a tenth of a nanometre. -/
theorem C94_box_moves_millimetres (l : Lay.Layout Fl) (x y : Fl) (hx : Within 1000 x) (hy : Within 1000 y)
    (h : ∀ m, Lay.Elem.module_ m ∈ l.elements → ∃ a, Fp.Elem.at_ a ∈ m.elements)
    (hr : ∀ e ∈ l.elements, Reaches 1000 e) (hb : l.bound.isBounded = true) :
    |(l.adjust x y).bound.x1.val - (l.bound.x1.val + x.val)| < 1 / 10 ^ 7 ∧
    |(l.adjust x y).bound.y1.val - (l.bound.y1.val + y.val)| < 1 / 10 ^ 7 ∧
    |(l.adjust x y).bound.x2.val - (l.bound.x2.val + x.val)| < 1 / 10 ^ 7 ∧
    |(l.adjust x y).bound.y2.val - (l.bound.y2.val + y.val)| < 1 / 10 ^ 7 := by
  obtain ⟨-, h1⟩ := C94_box_moves l x y 1000 hx hy h hr
  have e : ((1000 : ℚ) + 1) * pow2 (-46) < 1 / 10 ^ 7 := by
    rw [show pow2 (-46) = 1 / 2 ^ 46 by rw [pow2_eq]; norm_num]; norm_num
  obtain ⟨a, b, c, d⟩ := h1 hb
  exact ⟨lt_of_le_of_lt a e, lt_of_le_of_lt b e, lt_of_le_of_lt c e, lt_of_le_of_lt d e⟩

example : (∀ e ∈ (sampleBoard : Lay.Layout Fl).elements, Reaches 10 e) ∧ (sampleBoard : Lay.Layout Fl).bound.isBounded = true := by
  have pad : ∀ f ∈ ([.text { Fp.FpText.new (str! "reference") (str! "R1") with at_ := Fp.At.dflt },
        .at_ ⟨lit 3 0, lit 4 0, zero⟩,
        .pad { Fp.Pad.new (str! "1") .smd .rect with net := some ⟨1, str! "/a/gnd"⟩ }] : List (Fp.Elem Fl)),
      ∀ p ∈ extent f, |p.1.val| ≤ 10 ∧ |p.2.val| ≤ 10 := by decide +kernel
  have pts : ∀ e ∈ (sampleBoard : Lay.Layout Fl).elements, ∀ p ∈ boardPoints e, |p.1.val| ≤ 10 ∧ |p.2.val| ≤ 10 := by
    decide +kernel
  refine ⟨fun e he => ⟨pts e he, ?_, ?_⟩, by decide +kernel⟩
  · rintro v rfl
    simp [sampleBoard] at he
  · rintro m rfl
    simp only [sampleBoard, List.mem_cons, reduceCtorEq, List.not_mem_nil, or_false, false_or,
      Lay.Elem.module_.injEq] at he
    subst he
    exact fun f hf _ => pad f hf

/-- The error is real: a board with one via whose box does not move exactly. -/
theorem C94_not_exact : ∃ (l : Lay.Layout Fl) (x y : Fl), (∀ e ∈ l.elements, Reaches 1 e) ∧ Within 1 x ∧ Within 1 y ∧
    (l.adjust x y).bound.x2 ≠ add l.bound.x2 x := by
  refine ⟨{ (Lay.Layout.dflt : Lay.Layout Fl) with elements := [.via ⟨false, false, ⟨lit 2 1, zero, zero⟩, lit 1 1, zero, [], 0⟩] },
    lit 3 1, zero, ?_, ?_, ?_, ?_⟩
  · intro e he
    rw [List.mem_singleton.1 he]
    refine ⟨?_, ?_, fun m h => by cases h⟩
    · unfold Within; decide +kernel
    · rintro v ⟨rfl⟩
      unfold Within; decide +kernel
  · unfold Within; decide +kernel
  · unfold Within; decide +kernel
  · decide +kernel

/-! ### Boards of points -/

/-- Elements whose box is that of their points: all but modules, circles and vias. -/
def Spec.OfPoints {F : Type} : Lay.Elem F → Prop
  | .module_ _ => False
  | .grCircle _ => False
  | .via _ => False
  | _ => True

section
variable {F : Type} [Flt F] [MonoLaws F]

theorem Flt.min_add (a b c : F) : fmin (add a c) (add b c) = add (fmin a b) c := by
  simp only [OrdLaws.min_eq]
  by_cases h : le a b = true
  · rw [if_pos h, if_pos (MonoLaws.add_mono _ _ _ h)]
  · have h' : le b a = true := (OrdLaws.le_total a b).resolve_left h
    rw [if_neg h]
    split
    · rename_i h2
      exact OrdLaws.le_antisymm _ _ h2 (MonoLaws.add_mono _ _ _ h')
    · rfl

theorem Flt.max_add (a b c : F) : fmax (add a c) (add b c) = add (fmax a b) c := by
  simp only [OrdLaws.max_eq]
  by_cases h : le a b = true
  · rw [if_pos h, if_pos (MonoLaws.add_mono _ _ _ h)]
  · have h' : le b a = true := (OrdLaws.le_total a b).resolve_left h
    rw [if_neg h]
    split
    · rename_i h2
      exact OrdLaws.le_antisymm _ _ (MonoLaws.add_mono _ _ _ h') h2
    · rfl

/-- A box and the same box moved. -/
def Spec.Moved (x y : F) (b b' : Bound F) : Prop := b' = moveBox x y b ∧ Upright b

theorem Spec.upright_update {a b : Bound F} (ha : Upright a) (hb : Upright b) : Upright (a.update b) := by
  have T := @OrdLaws.le_trans F _ _
  obtain ⟨_, _, _, _, ab⟩ := a
  obtain ⟨_, _, _, _, bb⟩ := b
  cases ab <;> cases bb <;> simp only [Bound.update, Bool.not_true, Bool.not_false, if_true, if_false, Bool.false_eq_true]
  · exact ha
  · exact hb
  · exact ha
  · exact ⟨T _ _ _ (fmin_le_left _ _) (T _ _ _ ha.1 (le_fmax_left _ _)),
      T _ _ _ (fmin_le_left _ _) (T _ _ _ ha.2 (le_fmax_left _ _))⟩

theorem Spec.Moved.update {x y : F} {a a' b b' : Bound F} (ha : Moved x y a a') (hb : Moved x y b b') :
    Moved x y (a.update b) (a'.update b') := by
  obtain ⟨rfl, ua⟩ := ha
  obtain ⟨rfl, ub⟩ := hb
  refine ⟨?_, upright_update ua ub⟩
  obtain ⟨_, _, _, _, ab⟩ := a
  obtain ⟨_, _, _, _, bb⟩ := b
  cases ab <;> cases bb <;> simp [moveBox, Bound.update, Flt.min_add, Flt.max_add]

theorem Spec.Moved.swap {x y : F} {b b' : Bound F} (h : Moved x y b b') :
    Moved x y b.swapIfNeeded b'.swapIfNeeded := by
  obtain ⟨rfl, u⟩ := h
  have u' : Upright (moveBox x y b) := by
    unfold moveBox
    split
    · exact ⟨MonoLaws.add_mono _ _ _ u.1, MonoLaws.add_mono _ _ _ u.2⟩
    · exact u
  rw [(C49_swap_upright b).2.2.2.2.2.2 u, (C49_swap_upright _).2.2.2.2.2.2 u']
  exact ⟨rfl, u⟩

theorem Spec.Moved.dflt (x y : F) : Moved x y (Bound.dflt : Bound F) Bound.dflt :=
  ⟨(moveBox_dflt x y).symm, OrdLaws.le_refl _, OrdLaws.le_refl _⟩

theorem Spec.Moved.fold {α β : Type} {x y : F} (f : α → Bound F) (g : β → Bound F) (h : β → α)
    (l : List β) (b b' : Bound F) (hb : Moved x y b b') (hf : ∀ e ∈ l, Moved x y (g e) (f (h e))) :
    Moved x y (l.foldl (fun b a => b.update (g a)) b) ((l.map h).foldl (fun b a => b.update (f a)) b') := by
  induction l generalizing b b' with
  | nil => exact hb
  | cons a l ih =>
    rw [List.forall_mem_cons] at hf
    exact ih _ _ (hb.update hf.1) hf.2

theorem Lay.moved_point (x y p q : F) : Moved x y (Fp.pointBound p q) (Fp.pointBound (add p x) (add q y)) :=
  ⟨by simp [Fp.pointBound, moveBox, Bound.new], OrdLaws.le_refl _, OrdLaws.le_refl _⟩

theorem Lay.moved_two (x y : F) (a b : Fp.Xy F) :
    Moved x y (Lay.twoPoint a b) (Lay.twoPoint (Lay.adjXy x y a) (Lay.adjXy x y b)) := by
  refine ⟨by simp [Lay.twoPoint, Lay.adjXy, moveBox, Bound.new, Flt.min_add, Flt.max_add], ?_, ?_⟩
  · exact OrdLaws.le_trans _ _ _ (fmin_le_left _ _) (le_fmax_left _ _)
  · exact OrdLaws.le_trans _ _ _ (fmin_le_left _ _) (le_fmax_left _ _)

theorem Lay.moved_pts (x y : F) (l : List (Fp.Xy F)) :
    Moved x y (Fp.ptsBound l) (Fp.ptsBound (Lay.adjPts x y l)) :=
  Moved.swap (Moved.fold (fun e : Fp.Xy F => Fp.pointBound e.x e.y) (fun e : Fp.Xy F => Fp.pointBound e.x e.y)
    (Lay.adjXy x y) l _ _ (Moved.dflt x y) fun e _ => Lay.moved_point x y e.x e.y)

theorem Lay.moved_elem (x y : F) (e : Lay.Elem F) (h : OfPoints e) : Moved x y e.bound (e.adjust x y).bound := by
  cases e with
  | module_ m => exact h.elim
  | grCircle c => exact h.elim
  | via c => exact h.elim
  | grText t => exact Lay.moved_point x y _ _
  | grLine l => exact Lay.moved_two x y _ _
  | grArc l => exact Lay.moved_two x y _ _
  | segment l => exact Lay.moved_two x y _ _
  | dimension d =>
    have ht : Moved x y d.text.bound (d.text.adjust x y).bound := Lay.moved_point x y _ _
    have hp := Lay.moved_pts x y
    exact ((((((((Moved.dflt x y).update ht).update (hp _)).update (hp _)).update (hp _)).update (hp _)).update
      (hp _)).update (hp _)).update (hp _)
  | zone z =>
    obtain ⟨_, _, _, _, _, _, _, _, _, _, ps, fs, seg, _⟩ := z
    simp only [Lay.Elem.adjust, Lay.Elem.bound, Lay.Zone.bound, Lay.Zone.adjust]
    apply Moved.swap
    have k1 := Moved.fold (fun p => Fp.ptsBound p) (fun p => Fp.ptsBound p) (Lay.adjPts x y) ps _ _
      (Moved.dflt x y) (fun l _ => Lay.moved_pts x y l)
    have k2 := Moved.fold (fun p => Fp.ptsBound p) (fun p => Fp.ptsBound p) (Lay.adjPts x y) fs _ _ k1
      (fun l _ => Lay.moved_pts x y l)
    cases seg with
    | none => exact k2
    | some s => exact k2.update (Lay.moved_pts x y s)
  | net n => exact Moved.dflt x y
  | netClass n => exact Moved.dflt x y
  | other s => exact Moved.dflt x y

/-- The box of a board without modules, circles and vias moves bit for bit: each side is the
rounded sum of the old side and the offset. -/
theorem C94_points_move_exactly (l : Lay.Layout F) (x y : F) (h : ∀ e ∈ l.elements, OfPoints e) :
    (l.adjust x y).bound = if l.bound.isBounded then
      ⟨add l.bound.x1 x, add l.bound.y1 y, add l.bound.x2 x, add l.bound.y2 y, true⟩ else l.bound :=
  (Moved.swap (Moved.fold Lay.Elem.bound Lay.Elem.bound (Lay.Elem.adjust x y) l.elements _ _ (Moved.dflt x y)
    fun e he => Lay.moved_elem x y e (h e he))).1

end

/-! ### The courtyard -/

/-- The clearance of the courtyard rule in millimetres: 0.15 for footprints smaller than 2 by 2,
0.1 for larger ball grid arrays, 0.25 otherwise. -/
def Spec.nominal (m : Fp.Module Fl) : ℚ :=
  if lt m.bound.width (lit 2 0) = true ∧ lt m.bound.height (lit 2 0) = true then 15 / 100
  else if (str! "BGA") <+: m.name then 1 / 10
  else 25 / 100

theorem Fl.clearance_near (m : Fp.Module Fl) : |(clearance m).val - nominal m| ≤ pow2 (-53) ∧
    (clearance m).val ≤ 1 / 2 ∧ 0 ≤ (clearance m).val := by
  unfold clearance nominal
  split
  · decide +kernel
  · split
    · decide +kernel
    · decide +kernel

theorem Fl.side_near {R n : ℚ} {b a o : Fl} (hb : |b.val| ≤ R) (ha : |a.val| ≤ R) (ho : |o.val - n| ≤ pow2 (-53))
    (h1 : o.val ≤ 1 / 2) (h0 : 0 ≤ o.val) : |(sub (sub b a) o).val - (b.val - a.val - n)| ≤ (R + 1) * 6 * pow2 (-53) ∧
    |(add (sub b a) o).val - (b.val - a.val + n)| ≤ (R + 1) * 6 * pow2 (-53) := by
  have R0 : 0 ≤ R := le_trans (abs_nonneg _) hb
  have w0 := w_pos
  have f0 := mul_nonneg R0 (_root_.le_of_lt w0)
  have f1 : R * pow2 (-53) ≤ R * (1 / 1024) := mul_le_mul_of_nonneg_left w_small R0
  have a1 := abs_le.1 (Fl.sub_within hb ha)
  have hb' := abs_le.1 hb
  have ha' := abs_le.1 ha
  have s1 : |(sub b a).val| ≤ 3 * R := abs_le.2 ⟨by linarith, by linarith⟩
  have s2 : |o.val| ≤ 1 / 2 := by rw [abs_of_nonneg h0]; exact h1
  have b1 := abs_le.1 (Fl.sub_within s1 s2)
  have b2 := abs_le.1 (Fl.add_within s1 s2)
  have ho' := abs_le.1 ho
  exact ⟨abs_le.2 ⟨by linarith, by linarith⟩, abs_le.2 ⟨by linarith, by linarith⟩⟩

/-- A footprint with fewer than four courtyard lines gets four more at the end, and they form a
rectangle (relative to the footprint position) whose sides keep the prescribed clearance from the
bounding box, up to rounding. -/
theorem C94_courtyard_rectangle (m : Fp.Module Fl) (cfg : Config Fl) (h : (courtyard m).length < 4) (R : ℚ)
    (hR : Within R m.bound.x1 ∧ Within R m.bound.y1 ∧ Within R m.bound.x2 ∧ Within R m.bound.y2)
    (ha : Within R m.at_.1 ∧ Within R m.at_.2) :
    ∃ (pre : List (Fp.Elem Fl)) (x1 y1 x2 y2 : Fl),
      (m.fix cfg).elements = pre ++ rectangle x1 y1 x2 y2 ∧
      |x1.val - (m.bound.x1.val - m.at_.1.val - nominal m)| ≤ (R + 1) * pow2 (-50) ∧
      |y1.val - (m.bound.y1.val - m.at_.2.val - nominal m)| ≤ (R + 1) * pow2 (-50) ∧
      |x2.val - (m.bound.x2.val - m.at_.1.val + nominal m)| ≤ (R + 1) * pow2 (-50) ∧
      |y2.val - (m.bound.y2.val - m.at_.2.val + nominal m)| ≤ (R + 1) * pow2 (-50) := by
  have up : Upright m.bound := inside_upright (C26_bound_covers_partial m).1
  have hx : ∀ a : Fl, le (sub m.bound.x1 a) (sub m.bound.x2 a) = true :=
    fun a => MonoLaws.sub_mono _ _ _ up.1
  have hy : ∀ a : Fl, le (sub m.bound.y1 a) (sub m.bound.y2 a) = true :=
    fun a => MonoLaws.sub_mono _ _ _ up.2
  have e8 : ∀ {q : ℚ}, |q| ≤ (R + 1) * 6 * pow2 (-53) → |q| ≤ (R + 1) * pow2 (-50) := by
    intro q hq
    have e : pow2 (-50) = 8 * pow2 (-53) := by
      rw [show (-50 : Int) = 3 + -53 by norm_num, pow2_add]; rfl
    have R0 : 0 ≤ R := le_trans (abs_nonneg _) ha.1
    have w0 := w_pos
    have f0 := mul_nonneg R0 (_root_.le_of_lt w0)
    rw [e]
    linarith
  obtain ⟨c1, c2, c3⟩ := Fl.clearance_near m
  refine ⟨Fp.keptElems cfg m ++ Fp.addedText cfg m ++ Fp.addedAttr m, (Fp.courtyardBox m).1,
    (Fp.courtyardBox m).2.1, (Fp.courtyardBox m).2.2.1, (Fp.courtyardBox m).2.2.2, ?_, ?_, ?_, ?_, ?_⟩
  · rw [← Fp.courtyardCount_eq] at h
    rw [Fp.fix_eq, Fp.addedLines, if_pos h]; rfl
  · simp only [Fp.courtyardBox, Fp.courtyardOffset_eq, OrdLaws.min_eq, hx, if_true]
    exact e8 (Fl.side_near hR.1 ha.1 c1 c2 c3).1
  · simp only [Fp.courtyardBox, Fp.courtyardOffset_eq, OrdLaws.min_eq, hy, if_true]
    exact e8 (Fl.side_near hR.2.1 ha.2 c1 c2 c3).1
  · simp only [Fp.courtyardBox, Fp.courtyardOffset_eq, OrdLaws.max_eq, hx, if_true]
    exact e8 (Fl.side_near hR.2.2.1 ha.1 c1 c2 c3).2
  · simp only [Fp.courtyardBox, Fp.courtyardOffset_eq, OrdLaws.max_eq, hy, if_true]
    exact e8 (Fl.side_near hR.2.2.2 ha.2 c1 c2 c3).2

/-- A rounded sum of a bounded size: the exact sum is near. -/
theorem Fl.sum_near {R : ℚ} {p a : Fl} (h : |(add p a).val| ≤ R) :
    |(add p a).val - (p.val + a.val)| ≤ R * 2 * pow2 (-53) := by
  have h1 := Fl.add_err p a
  have w0 := w_pos
  have w1 := w_small
  have h2 : |p.val + a.val| ≤ R * 2 := by
    have := abs_add_le ((add p a).val) (p.val + a.val - (add p a).val)
    rw [add_sub_cancel, abs_sub_comm] at this
    have f := mul_le_mul_of_nonneg_left w1 (abs_nonneg (p.val + a.val))
    have R0 : 0 ≤ R := le_trans (abs_nonneg _) h
    linarith
  exact le_trans h1 (mul_le_mul_of_nonneg_right h2 (_root_.le_of_lt w0))

/-- So the courtyard surrounds, with the prescribed clearance up to rounding, every pad and every
fabrication polygon, circle and right-and-down line or arc (the ones the bounding box covers, see
C26). -/
theorem C94_courtyard_surrounds (m : Fp.Module Fl) (cfg : Config Fl) (h : (courtyard m).length < 4) (R : ℚ)
    (hR : Within R m.bound.x1 ∧ Within R m.bound.y1 ∧ Within R m.bound.x2 ∧ Within R m.bound.y2)
    (ha : Within R m.at_.1 ∧ Within R m.at_.2) :
    ∃ (pre : List (Fp.Elem Fl)) (x1 y1 x2 y2 : Fl),
      (m.fix cfg).elements = pre ++ rectangle x1 y1 x2 y2 ∧
      ∀ e ∈ m.elements, Counts e → Oriented e → ∀ p ∈ extent e,
        x1.val + nominal m ≤ p.1.val + (R + 1) * pow2 (-49) ∧
        p.1.val ≤ x2.val - nominal m + (R + 1) * pow2 (-49) ∧
        y1.val + nominal m ≤ p.2.val + (R + 1) * pow2 (-49) ∧
        p.2.val ≤ y2.val - nominal m + (R + 1) * pow2 (-49) := by
  obtain ⟨pre, x1, y1, x2, y2, h0, h1, h2, h3, h4⟩ := C94_courtyard_rectangle m cfg h R hR ha
  refine ⟨pre, x1, y1, x2, y2, h0, fun e he hc ho p hp => ?_⟩
  obtain ⟨_, i1, i2, i3, i4⟩ := (C26_bound_covers_partial m).2 e he hc ho p hp
  simp only [Flt.le, decide_eq_true_eq] at i1 i2 i3 i4
  have R0 : 0 ≤ R := le_trans (abs_nonneg _) ha.1
  have w0 := w_pos
  have f0 := mul_nonneg R0 (_root_.le_of_lt w0)
  have e50 : pow2 (-50) = 8 * pow2 (-53) := by
    rw [show (-50 : Int) = 3 + -53 by norm_num, pow2_add]; rfl
  have e49 : pow2 (-49) = 16 * pow2 (-53) := by
    rw [show (-49 : Int) = 4 + -53 by norm_num, pow2_add]; rfl
  have r1 := abs_le.1 hR.1
  have r2 := abs_le.1 hR.2.1
  have r3 := abs_le.1 hR.2.2.1
  have r4 := abs_le.1 hR.2.2.2
  have s1 := abs_le.1 (Fl.sum_near (R := R) (p := p.1) (a := m.at_.1) (abs_le.2 ⟨by linarith, by linarith⟩))
  have s2 := abs_le.1 (Fl.sum_near (R := R) (p := p.2) (a := m.at_.2) (abs_le.2 ⟨by linarith, by linarith⟩))
  rw [e50] at h1 h2 h3 h4
  rw [e49]
  have k1 := abs_le.1 h1
  have k2 := abs_le.1 h2
  have k3 := abs_le.1 h3
  have k4 := abs_le.1 h4
  exact ⟨by linarith, by linarith, by linarith, by linarith⟩

/-- A pad of 0.6 by 0.7 mm at (0.1, 0.2): exact arithmetic does not apply, the theorem does. -/
def Spec.oddPad : Fp.Module Fl :=
  ⟨str! "R0402", [.at_ ⟨lit 1 1, lit 2 1, zero⟩,
    .pad { Fp.Pad.new (str! "1") .smd .rect with at_ := ⟨lit 3 1, zero, zero⟩, size := ⟨lit 6 1, lit 7 1, .size⟩ }]⟩

example : (courtyard oddPad).length < 4 ∧
    (Within 1 oddPad.bound.x1 ∧ Within 1 oddPad.bound.y1 ∧ Within 1 oddPad.bound.x2 ∧ Within 1 oddPad.bound.y2) ∧
    (Within 1 oddPad.at_.1 ∧ Within 1 oddPad.at_.2) := by
  unfold Within
  decide +kernel

end Verif
