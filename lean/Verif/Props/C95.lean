import Verif.Props.C94
import Mathlib.Tactic.IntervalCases
/-!
# C95: boxes cover what is drawn

C26 and C44 are about corner points as the code computes them.  Here the shapes are those the
numbers of a file describe, as sets of points of the plane (with rational coordinates); the boxes
are computed with 64-bit floating point numbers.
-/

namespace Verif
open Flt Spec Fp64

namespace Spec

/-- A box covers a point, up to `t` in each direction. -/
def Covers (t : ℚ) (b : Bound Fl) (px py : ℚ) : Prop :=
  b.isBounded = true ∧ b.x1.val - t ≤ px ∧ px ≤ b.x2.val + t ∧ b.y1.val - t ≤ py ∧ py ≤ b.y2.val + t

/-- The disc with the given centre, up to the circle through the second point. -/
def OnDisc (cx cy ex ey px py : ℚ) : Prop :=
  (px - cx) * (px - cx) + (py - cy) * (py - cy) ≤ (ex - cx) * (ex - cx) + (ey - cy) * (ey - cy)

/-- The straight line between two points. -/
def OnLine (ax ay bx by_ px py : ℚ) : Prop :=
  ∃ k : ℚ, 0 ≤ k ∧ k ≤ 1 ∧ px = ax + k * (bx - ax) ∧ py = ay + k * (by_ - ay)

end Spec

/-- Differences are computed with a relative error, so are their squares. -/
theorem Fl.diff_sq (a b : Fl) :
    (sub a b).val * (sub a b).val ≤ (b.val - a.val) * (b.val - a.val) * ((1 + 4 * pow2 (-53)) * (1 + 4 * pow2 (-53))) ∧
    (b.val - a.val) * (b.val - a.val) ≤ (sub a b).val * (sub a b).val * ((1 + 4 * pow2 (-53)) * (1 + 4 * pow2 (-53))) := by
  have h := Fl.sub_err a b
  have w0 := w_pos
  have w1 := w_small
  generalize (sub a b).val = d at *
  have e : (b.val - a.val) * (b.val - a.val) = (a.val - b.val) * (a.val - b.val) := by ring
  rw [e]
  generalize a.val - b.val = D at *
  generalize pow2 (-53) = w at *
  have hD := abs_nonneg D
  have h1 : |d| ≤ |D| * (1 + 4 * w) := by
    have := abs_add_le (d - D) D
    rw [sub_add_cancel] at this
    have := mul_nonneg hD (_root_.le_of_lt w0)
    linarith
  have h2 : |D| ≤ |d| * (1 + 4 * w) := by
    have := abs_add_le (D - d) d
    rw [sub_add_cancel, abs_sub_comm] at this
    have k : |D| * (1 - w) ≤ |d| := by linarith
    have : |D| ≤ |D| * (1 - w) * (1 + 4 * w) := by nlinarith [mul_nonneg hD (_root_.le_of_lt w0)]
    exact le_trans this (mul_le_mul_of_nonneg_right k (by linarith))
  have a1 := mul_self_le_mul_self (abs_nonneg d) h1
  have a2 := mul_self_le_mul_self (abs_nonneg D) h2
  rw [abs_mul_abs_self] at a1 a2
  have e1 : |D| * (1 + 4 * w) * (|D| * (1 + 4 * w)) = |D| * |D| * ((1 + 4 * w) * (1 + 4 * w)) := by ring
  have e2 : |d| * (1 + 4 * w) * (|d| * (1 + 4 * w)) = |d| * |d| * ((1 + 4 * w) * (1 + 4 * w)) := by ring
  rw [e1, abs_mul_abs_self] at a1
  rw [e2, abs_mul_abs_self] at a2
  exact ⟨a1, a2⟩

/-- The computed radius against the true one. -/
theorem Fl.radius_near {R : ℚ} {cx cy ex ey : Fl} (h1 : |cx.val| ≤ R) (h2 : |cy.val| ≤ R) (h3 : |ex.val| ≤ R)
    (h4 : |ey.val| ≤ R) (q : ℚ) (hq : 0 ≤ q) :
    0 ≤ (Fl.dist (sub cx ex) (sub cy ey)).val ∧ (Fl.dist (sub cx ex) (sub cy ey)).val ≤ 5 * R + 1 ∧
    (q * q ≤ (ex.val - cx.val) * (ex.val - cx.val) + (ey.val - cy.val) * (ey.val - cy.val) →
      q ≤ (Fl.dist (sub cx ex) (sub cy ey)).val + (R + 1) * 80 * pow2 (-53)) ∧
    ((ex.val - cx.val) * (ex.val - cx.val) + (ey.val - cy.val) * (ey.val - cy.val) ≤ q * q →
      (Fl.dist (sub cx ex) (sub cy ey)).val ≤ q + (R + 1) * 80 * pow2 (-53)) := by
  have R0 : 0 ≤ R := le_trans (abs_nonneg _) h1
  have sx : |(sub cx ex).val| ≤ R * (5 / 2) := (Fl.move_diff h1 h3 (x := cx) h1).2.1
  have sy : |(sub cy ey).val| ≤ R * (5 / 2) := (Fl.move_diff h2 h4 (x := cx) h1).2.1
  have z := Fl.dist_size sx sy
  obtain ⟨r0, r1, r2⟩ := Fl.dist_sq (sub cx ex) (sub cy ey)
  obtain ⟨x1, x2⟩ := Fl.diff_sq cx ex
  obtain ⟨y1, y2⟩ := Fl.diff_sq cy ey
  have w0 := w_pos
  have w1 := w_small
  obtain ⟨-, t1, t0⟩ := t_facts
  clear sx sy
  generalize (Fl.dist (sub cx ex) (sub cy ey)).val = r at *
  generalize (sub cx ex).val * (sub cx ex).val = a at *
  generalize (sub cy ey).val * (sub cy ey).val = b at *
  generalize (ex.val - cx.val) * (ex.val - cx.val) = A at *
  generalize (ey.val - cy.val) * (ey.val - cy.val) = B at *
  generalize pow2 (-530) = t at *
  generalize pow2 (-53) = w at *
  have hk : 0 ≤ 1 + 4 * w := by linarith
  have hk2 : 1 + 4 * w ≤ 2 := by linarith
  have kk : 0 ≤ (1 + 4 * w) * (1 + 4 * w) := mul_nonneg hk hk
  have k9 : (1 + 4 * w) * (1 + 4 * w) ≤ 1 + 9 * w := by nlinarith
  refine ⟨r0, by linarith, ?_, ?_⟩
  · intro h
    have h5 : q * q ≤ (r * r * ((1 + 4 * w) * (1 + 4 * w)) + t * t) * ((1 + 4 * w) * (1 + 4 * w)) :=
      le_trans h (le_trans (by linarith) (mul_le_mul_of_nonneg_right r2 kk))
    have h6 : q * q ≤ (r * ((1 + 4 * w) * (1 + 4 * w)) + t * 2) * (r * ((1 + 4 * w) * (1 + 4 * w)) + t * 2) := by
      have c4 : (1 + 4 * w) * (1 + 4 * w) ≤ 4 := by nlinarith
      have := mul_le_mul_of_nonneg_left c4 (mul_nonneg (_root_.le_of_lt t0) (_root_.le_of_lt t0))
      have : 0 ≤ r * ((1 + 4 * w) * (1 + 4 * w)) * (t * 2) := by positivity
      nlinarith
    have h7 := (mul_self_le_mul_self_iff hq (by positivity)).2 h6
    have h8 := mul_le_mul_of_nonneg_left k9 r0
    have h9 : r * w ≤ (R * (5 / 2) * (7 / 4) + t) * w := mul_le_mul_of_nonneg_right z (_root_.le_of_lt w0)
    have h10 : t * w ≤ t * (1 / 1024) := mul_le_mul_of_nonneg_left w1 (_root_.le_of_lt t0)
    have h11 := mul_nonneg R0 (_root_.le_of_lt w0)
    linarith
  · intro h
    by_cases hbig : 6 * R ≤ q
    · have h11 := mul_nonneg R0 (_root_.le_of_lt w0)
      linarith
    · have h5 : r * r ≤ q * q * ((1 + 4 * w) * (1 + 4 * w)) * ((1 + 4 * w) * (1 + 4 * w)) + t * t := by
        have : a + b ≤ q * q * ((1 + 4 * w) * (1 + 4 * w)) :=
          le_trans (by linarith) (mul_le_mul_of_nonneg_right h kk)
        have := mul_le_mul_of_nonneg_right this kk
        linarith
      have h6 : r * r ≤ (q * ((1 + 4 * w) * (1 + 4 * w)) + t) * (q * ((1 + 4 * w) * (1 + 4 * w)) + t) := by
        have : 0 ≤ q * ((1 + 4 * w) * (1 + 4 * w)) * t := by positivity
        nlinarith
      have h7 := (mul_self_le_mul_self_iff r0 (by positivity)).2 h6
      have h8 := mul_le_mul_of_nonneg_left k9 hq
      have h9 : q * w ≤ (6 * R) * w := mul_le_mul_of_nonneg_right (_root_.le_of_lt (not_le.1 hbig)) (_root_.le_of_lt w0)
      have h11 := mul_nonneg R0 (_root_.le_of_lt w0)
      linarith

theorem Fl.w128 : pow2 (-46) = 128 * pow2 (-53) := by
  rw [show (-46 : Int) = 7 + -53 by norm_num, pow2_add]; rfl

/-- One direction of a disc: a coordinate against the computed sides. -/
theorem Fl.disc_side {R : ℚ} {cx cy ex ey : Fl} (h1 : |cx.val| ≤ R) (h2 : |cy.val| ≤ R) (h3 : |ex.val| ≤ R)
    (h4 : |ey.val| ≤ R) {c : Fl} (hc : |c.val| ≤ R) {p : ℚ}
    (hp : (p - c.val) * (p - c.val) ≤ (ex.val - cx.val) * (ex.val - cx.val) + (ey.val - cy.val) * (ey.val - cy.val)) :
    (sub c (Fl.dist (sub cx ex) (sub cy ey))).val ≤ p + (R + 1) * 90 * pow2 (-53) ∧
    p ≤ (add c (Fl.dist (sub cx ex) (sub cy ey))).val + (R + 1) * 90 * pow2 (-53) ∧
    |(sub c (Fl.dist (sub cx ex) (sub cy ey))).val| ≤ 7 * R + 2 ∧
    |(add c (Fl.dist (sub cx ex) (sub cy ey))).val| ≤ 7 * R + 2 := by
  obtain ⟨r0, r1, r2, -⟩ := Fl.radius_near h1 h2 h3 h4 |p - c.val| (abs_nonneg _)
  have hq := r2 (by rw [abs_mul_abs_self]; exact hp)
  generalize Fl.dist (sub cx ex) (sub cy ey) = r at *
  have R0 : 0 ≤ R := le_trans (abs_nonneg _) h1
  have ra : |r.val| ≤ 5 * R + 1 := by rw [abs_of_nonneg r0]; exact r1
  have s1 := abs_le.1 (Fl.sub_within hc ra)
  have s2 := abs_le.1 (Fl.add_within hc ra)
  have w0 := w_pos
  have w1 := w_small
  have f0 := mul_nonneg R0 (_root_.le_of_lt w0)
  have f1 : R * pow2 (-53) ≤ R * (1 / 1024) := mul_le_mul_of_nonneg_left w1 R0
  have k := abs_le.1 (le_refl |p - c.val|)
  have hc' := abs_le.1 hc
  refine ⟨by linarith, by linarith, abs_le.2 ⟨by linarith, by linarith⟩, abs_le.2 ⟨by linarith, by linarith⟩⟩

/-- The box of a layout covers every disc drawn on the board. -/
theorem C95_board_disc (l : Lay.Layout Fl) (c : Lay.GrCircle Fl) (hc : Lay.Elem.grCircle c ∈ l.elements) (R : ℚ)
    (h : Within R c.center.x ∧ Within R c.center.y ∧ Within R c.end_.x ∧ Within R c.end_.y) (px py : ℚ)
    (hp : OnDisc c.center.x.val c.center.y.val c.end_.x.val c.end_.y.val px py) :
    Covers ((R + 1) * pow2 (-46)) l.bound px py := by
  obtain ⟨h1, h2, h3, h4⟩ := h
  have cov := (C44_bound_covers l _ hc).1 (fun v hv => by cases hv)
  have c1 := cov _ (List.mem_cons_self)
  have c2 := cov _ (List.mem_cons_of_mem _ (List.mem_cons_of_mem _ List.mem_cons_self))
  obtain ⟨hb, a1, a2, a3, a4⟩ := c1
  obtain ⟨-, b1, b2, b3, b4⟩ := c2
  simp only [Flt.le, decide_eq_true_eq] at a1 a2 a3 a4 b1 b2 b3 b4
  unfold OnDisc at hp
  have dx := Fl.disc_side h1 h2 h3 h4 h1 (p := px) (by nlinarith [mul_self_nonneg (py - c.center.y.val)])
  have dy := Fl.disc_side h1 h2 h3 h4 h2 (p := py) (by nlinarith [mul_self_nonneg (px - c.center.x.val)])
  simp only [Fl.dist] at dx dy
  have R0 : 0 ≤ R := le_trans (abs_nonneg _) h1
  have f0 := mul_nonneg R0 (_root_.le_of_lt w_pos)
  have w0 := w_pos
  rw [Fl.w128]
  exact ⟨hb, by linarith, by linarith, by linarith, by linarith⟩

/-- The box of a footprint covers every disc of its fabrication layer. -/
theorem C95_footprint_disc (m : Fp.Module Fl) (c : Fp.FpCircle Fl) (hc : Fp.Elem.circle c ∈ m.elements)
    (hf : c.layer.t = .fab) (R : ℚ) (ha : Within R m.at_.1 ∧ Within R m.at_.2)
    (h : Within R c.center.x ∧ Within R c.center.y ∧ Within R c.end_.x ∧ Within R c.end_.y) (px py : ℚ)
    (hp : OnDisc c.center.x.val c.center.y.val c.end_.x.val c.end_.y.val px py) :
    Covers ((R + 1) * pow2 (-46)) m.bound (px + m.at_.1.val) (py + m.at_.2.val) := by
  obtain ⟨h1, h2, h3, h4⟩ := h
  have cov := (C26_bound_covers_partial m).2 _ hc hf trivial
  have c1 := cov _ (List.mem_cons_self)
  have c2 := cov _ (List.mem_cons_of_mem _ (List.mem_cons_of_mem _ List.mem_cons_self))
  obtain ⟨hb, a1, a2, a3, a4⟩ := c1
  obtain ⟨-, b1, b2, b3, b4⟩ := c2
  simp only [Flt.le, decide_eq_true_eq] at a1 a2 a3 a4 b1 b2 b3 b4
  unfold OnDisc at hp
  have dx := Fl.disc_side h1 h2 h3 h4 h1 (p := px) (by nlinarith [mul_self_nonneg (py - c.center.y.val)])
  have dy := Fl.disc_side h1 h2 h3 h4 h2 (p := py) (by nlinarith [mul_self_nonneg (px - c.center.x.val)])
  have e1 := abs_le.1 (Fl.add_within dx.2.2.1 ha.1)
  have e2 := abs_le.1 (Fl.add_within dx.2.2.2 ha.1)
  have e3 := abs_le.1 (Fl.add_within dy.2.2.1 ha.2)
  have e4 := abs_le.1 (Fl.add_within dy.2.2.2 ha.2)
  simp only [Fl.dist] at dx dy e1 e2 e3 e4
  have R0 : 0 ≤ R := le_trans (abs_nonneg _) h1
  have f0 := mul_nonneg R0 (_root_.le_of_lt w_pos)
  have w0 := w_pos
  rw [Fl.w128]
  exact ⟨hb, by linarith, by linarith, by linarith, by linarith⟩

/-- The box of a board that has nothing but one disc is no larger than needed: it lies within
every square around the centre that contains the disc, up to rounding. -/
theorem C95_disc_tight (l : Lay.Layout Fl) (c : Lay.GrCircle Fl) (hl : l.elements = [.grCircle c]) (R : ℚ)
    (h : Within R c.center.x ∧ Within R c.center.y ∧ Within R c.end_.x ∧ Within R c.end_.y) (q : ℚ) (hq : 0 ≤ q)
    (hr : (c.end_.x.val - c.center.x.val) * (c.end_.x.val - c.center.x.val) +
      (c.end_.y.val - c.center.y.val) * (c.end_.y.val - c.center.y.val) ≤ q * q) :
    c.center.x.val - q - (R + 1) * pow2 (-46) ≤ l.bound.x1.val ∧ l.bound.x2.val ≤ c.center.x.val + q + (R + 1) * pow2 (-46) ∧
    c.center.y.val - q - (R + 1) * pow2 (-46) ≤ l.bound.y1.val ∧ l.bound.y2.val ≤ c.center.y.val + q + (R + 1) * pow2 (-46) := by
  obtain ⟨h1, h2, h3, h4⟩ := h
  have hb : l.bound.isBounded = true :=
    ((C44_bound_covers l (.grCircle c) (by rw [hl]; exact List.mem_cons_self)).1 (fun v hv => by cases hv) _
      List.mem_cons_self).1
  obtain ⟨ax, ay⟩ := C44_bound_attained l hb
  obtain ⟨r0, r1, -, r3⟩ := Fl.radius_near h1 h2 h3 h4 q hq
  have hr' := r3 hr
  have R0 : 0 ≤ R := le_trans (abs_nonneg _) h1
  have ra : |(Fl.dist (sub c.center.x c.end_.x) (sub c.center.y c.end_.y)).val| ≤ 5 * R + 1 := by
    rw [abs_of_nonneg r0]; exact r1
  have s1 := abs_le.1 (Fl.sub_within h1 ra)
  have s2 := abs_le.1 (Fl.add_within h1 ra)
  have s3 := abs_le.1 (Fl.sub_within h2 ra)
  have s4 := abs_le.1 (Fl.add_within h2 ra)
  have f0 := mul_nonneg R0 (_root_.le_of_lt w_pos)
  have w0 := w_pos
  have kx : ∀ u, u = l.bound.x1 ∨ u = l.bound.x2 →
      c.center.x.val - q - (R + 1) * pow2 (-46) ≤ u.val ∧ u.val ≤ c.center.x.val + q + (R + 1) * pow2 (-46) := by
    intro u hu
    obtain ⟨e, he, h⟩ := ax u hu
    rw [hl] at he
    obtain rfl := List.mem_singleton.1 he
    rcases h with ⟨m, hm, -⟩ | ⟨p, hp, rfl⟩
    · cases hm
    · simp only [boardExtent, List.mem_cons, List.not_mem_nil, or_false] at hp
      simp only [Fl.dist] at *
      rw [Fl.w128]
      rcases hp with rfl | rfl | rfl <;> exact ⟨by linarith, by linarith⟩
  have ky : ∀ u, u = l.bound.y1 ∨ u = l.bound.y2 →
      c.center.y.val - q - (R + 1) * pow2 (-46) ≤ u.val ∧ u.val ≤ c.center.y.val + q + (R + 1) * pow2 (-46) := by
    intro u hu
    obtain ⟨e, he, h⟩ := ay u hu
    rw [hl] at he
    obtain rfl := List.mem_singleton.1 he
    rcases h with ⟨m, hm, -⟩ | ⟨p, hp, rfl⟩
    · cases hm
    · simp only [boardExtent, List.mem_cons, List.not_mem_nil, or_false] at hp
      simp only [Fl.dist] at *
      rw [Fl.w128]
      rcases hp with rfl | rfl | rfl <;> exact ⟨by linarith, by linarith⟩
  exact ⟨(kx _ (Or.inl rfl)).1, (kx _ (Or.inr rfl)).2, (ky _ (Or.inl rfl)).1, (ky _ (Or.inr rfl)).2⟩

/-! ### Vias -/

/-- The round copper of a via, of the diameter the file gives. -/
def Spec.OnVia (v : Lay.Via Fl) (px py : ℚ) : Prop :=
  (px - v.at_.x.val) * (px - v.at_.x.val) + (py - v.at_.y.val) * (py - v.at_.y.val) ≤
    v.size.val / 2 * (v.size.val / 2)

/-- The box of a layout covers every via of a positive size. -/
theorem C95_via (l : Lay.Layout Fl) (v : Lay.Via Fl) (hv : Lay.Elem.via v ∈ l.elements) (hs : 0 ≤ v.size.val) (R : ℚ)
    (h : Within R v.at_.x ∧ Within R v.at_.y ∧ Within R v.size) (px py : ℚ) (hp : OnVia v px py) :
    Covers ((R + 1) * pow2 (-46)) l.bound px py := by
  obtain ⟨h1, h2, h3⟩ := h
  have cov := (C44_bound_covers l _ hv).1 (fun v hv => by cases hv; simpa [Flt.le, Fl.zero_val] using hs)
  obtain ⟨hb, a1, a2, a3, a4⟩ := cov _ (List.mem_cons_self)
  obtain ⟨-, b1, b2, b3, b4⟩ := cov _ (List.mem_cons_of_mem _ (List.mem_cons_of_mem _ List.mem_cons_self))
  simp only [Flt.le, decide_eq_true_eq] at a1 a2 a3 a4 b1 b2 b3 b4
  unfold OnVia at hp
  have kx : |px - v.at_.x.val| ≤ v.size.val / 2 := abs_le_of_sq_le_sq
    (by nlinarith [mul_self_nonneg (py - v.at_.y.val)]) (by linarith)
  have ky : |py - v.at_.y.val| ≤ v.size.val / 2 := abs_le_of_sq_le_sq
    (by nlinarith [mul_self_nonneg (px - v.at_.x.val)]) (by linarith)
  have s1 := abs_le.1 (Fl.sub_within h1 h3)
  have s2 := abs_le.1 (Fl.add_within h1 h3)
  have s3 := abs_le.1 (Fl.sub_within h2 h3)
  have s4 := abs_le.1 (Fl.add_within h2 h3)
  have kx := abs_le.1 kx
  have ky := abs_le.1 ky
  have R0 : 0 ≤ R := le_trans (abs_nonneg _) h1
  have f0 := mul_nonneg R0 (_root_.le_of_lt w_pos)
  have w0 := w_pos
  rw [Fl.w128]
  exact ⟨hb, by linarith, by linarith, by linarith, by linarith⟩

/-- The box of a board that has nothing but one via is twice as wide and twice as high as the via. -/
theorem C95_via_twice (l : Lay.Layout Fl) (v : Lay.Via Fl) (hl : l.elements = [.via v]) (hs : 0 ≤ v.size.val) (R : ℚ)
    (h : Within R v.at_.x ∧ Within R v.at_.y ∧ Within R v.size) :
    |l.bound.x2.val - l.bound.x1.val - 2 * v.size.val| ≤ (R + 1) * pow2 (-46) ∧
    |l.bound.y2.val - l.bound.y1.val - 2 * v.size.val| ≤ (R + 1) * pow2 (-46) := by
  obtain ⟨h1, h2, h3⟩ := h
  have cov := (C44_bound_covers l (.via v) (by rw [hl]; exact List.mem_cons_self)).1
    (fun v hv => by cases hv; simpa [Flt.le, Fl.zero_val] using hs)
  obtain ⟨hb, a1, a2, a3, a4⟩ := cov _ (List.mem_cons_self)
  obtain ⟨-, b1, b2, b3, b4⟩ := cov _ (List.mem_cons_of_mem _ (List.mem_cons_of_mem _ List.mem_cons_self))
  simp only [Flt.le, decide_eq_true_eq] at a1 a2 a3 a4 b1 b2 b3 b4
  obtain ⟨ax, ay⟩ := C44_bound_attained l hb
  have s1 := abs_le.1 (Fl.sub_within h1 h3)
  have s2 := abs_le.1 (Fl.add_within h1 h3)
  have s3 := abs_le.1 (Fl.sub_within h2 h3)
  have s4 := abs_le.1 (Fl.add_within h2 h3)
  have R0 : 0 ≤ R := le_trans (abs_nonneg _) h1
  have f0 := mul_nonneg R0 (_root_.le_of_lt w_pos)
  have w0 := w_pos
  have kx : ∀ u, u = l.bound.x1 ∨ u = l.bound.x2 →
      v.at_.x.val - v.size.val - (R + 1) * 8 * pow2 (-53) ≤ u.val ∧ u.val ≤ v.at_.x.val + v.size.val + (R + 1) * 8 * pow2 (-53) := by
    intro u hu
    obtain ⟨e, he, h⟩ := ax u hu
    rw [hl] at he
    obtain rfl := List.mem_singleton.1 he
    rcases h with ⟨m, hm, -⟩ | ⟨p, hp, rfl⟩
    · cases hm
    · simp only [boardExtent, List.mem_cons, List.not_mem_nil, or_false] at hp
      rcases hp with rfl | rfl | rfl <;> exact ⟨by linarith, by linarith⟩
  have ky : ∀ u, u = l.bound.y1 ∨ u = l.bound.y2 →
      v.at_.y.val - v.size.val - (R + 1) * 8 * pow2 (-53) ≤ u.val ∧ u.val ≤ v.at_.y.val + v.size.val + (R + 1) * 8 * pow2 (-53) := by
    intro u hu
    obtain ⟨e, he, h⟩ := ay u hu
    rw [hl] at he
    obtain rfl := List.mem_singleton.1 he
    rcases h with ⟨m, hm, -⟩ | ⟨p, hp, rfl⟩
    · cases hm
    · simp only [boardExtent, List.mem_cons, List.not_mem_nil, or_false] at hp
      rcases hp with rfl | rfl | rfl <;> exact ⟨by linarith, by linarith⟩
  have x1 := kx _ (Or.inl rfl)
  have x2 := kx _ (Or.inr rfl)
  have y1 := ky _ (Or.inl rfl)
  have y2 := ky _ (Or.inr rfl)
  rw [Fl.w128]
  exact ⟨abs_le.2 ⟨by linarith, by linarith⟩, abs_le.2 ⟨by linarith, by linarith⟩⟩

/-! ### Straight lines -/

/-- Every point of a straight line between two corner points that are inside a box is inside. -/
theorem Spec.Covers.line {t : ℚ} {b : Bound Fl} {ax ay bx by_ px py : ℚ} (ha : Covers t b ax ay)
    (hb : Covers t b bx by_) (h : OnLine ax ay bx by_ px py) : Covers t b px py := by
  obtain ⟨k, k0, k1, rfl, rfl⟩ := h
  obtain ⟨h0, a1, a2, a3, a4⟩ := ha
  obtain ⟨-, b1, b2, b3, b4⟩ := hb
  have m := fun (z : ℚ) (hz : 0 ≤ z) => mul_nonneg k0 hz
  have n := fun (z : ℚ) (hz : 0 ≤ z) => mul_nonneg (sub_nonneg.2 k1) hz
  refine ⟨h0, ?_, ?_, ?_, ?_⟩
  · have := m _ (sub_nonneg.2 b1); have := n _ (sub_nonneg.2 a1); linarith
  · have := m _ (sub_nonneg.2 b2); have := n _ (sub_nonneg.2 a2); linarith
  · have := m _ (sub_nonneg.2 b3); have := n _ (sub_nonneg.2 a3); linarith
  · have := m _ (sub_nonneg.2 b4); have := n _ (sub_nonneg.2 a4); linarith

/-- The elements of a board that are drawn with straight lines only. -/
def Spec.Straight : Lay.Elem Fl → Prop
  | .grLine _ | .segment _ | .zone _ | .dimension _ => True
  | _ => False

/-- Every straight line between points of lines, tracks, zones and dimensions of a board, in
particular every line of such an element, is covered exactly. -/
theorem C95_board_line (l : Lay.Layout Fl) (e e' : Lay.Elem Fl) (he : e ∈ l.elements) (he' : e' ∈ l.elements)
    (hs : Straight e) (hs' : Straight e') (p q : Fl × Fl) (hp : p ∈ boardPoints e) (hq : q ∈ boardPoints e')
    (px py : ℚ) (h : OnLine p.1.val p.2.val q.1.val q.2.val px py) : Covers 0 l.bound px py := by
  have key : ∀ e ∈ l.elements, Straight e → ∀ p ∈ boardPoints e, Covers 0 l.bound p.1.val p.2.val := by
    intro e he hs p hp
    have hx : boardExtent e = boardPoints e := by cases e <;> first | rfl | exact hs.elim
    obtain ⟨h0, h1, h2, h3, h4⟩ := (C44_bound_covers l e he).1
      (fun v hv => by subst hv; exact hs.elim) p (by rw [hx]; exact hp)
    simp only [Flt.le, decide_eq_true_eq] at h1 h2 h3 h4
    exact ⟨h0, by linarith, by linarith, by linarith, by linarith⟩
  exact (key _ he hs _ hp).line (key _ he' hs' _ hq) h

/-- A computed point that is inside the box of a footprint, against the true one. -/
theorem Fl.covers_moved {b : Bound Fl} {R : ℚ} {x y ax ay : Fl} (h : Inside b (add x ax) (add y ay))
    (hx : Within R x) (hy : Within R y) (hax : Within R ax) (hay : Within R ay) :
    Covers ((R + 1) * pow2 (-46)) b (x.val + ax.val) (y.val + ay.val) := by
  obtain ⟨h0, h1, h2, h3, h4⟩ := h
  simp only [Flt.le, decide_eq_true_eq] at h1 h2 h3 h4
  have s1 := abs_le.1 (Fl.add_within hx hax)
  have s2 := abs_le.1 (Fl.add_within hy hay)
  have R0 : 0 ≤ R := le_trans (abs_nonneg _) hx
  have f0 := mul_nonneg R0 (_root_.le_of_lt w_pos)
  have w0 := w_pos
  rw [Fl.w128]
  exact ⟨h0, by linarith, by linarith, by linarith, by linarith⟩

/-- The edges of the polygons of the fabrication layer are covered. -/
theorem C95_footprint_polygon (m : Fp.Module Fl) (g : Fp.FpPoly Fl) (hg : Fp.Elem.poly g ∈ m.elements)
    (hf : g.layer.t = .fab) (R : ℚ) (ha : Within R m.at_.1 ∧ Within R m.at_.2) (p q : Fp.Xy Fl)
    (hp : p ∈ g.pts) (hq : q ∈ g.pts) (hpq : Within R p.x ∧ Within R p.y ∧ Within R q.x ∧ Within R q.y) (px py : ℚ)
    (h : OnLine p.x.val p.y.val q.x.val q.y.val px py) :
    Covers ((R + 1) * pow2 (-46)) m.bound (px + m.at_.1.val) (py + m.at_.2.val) := by
  have cov := (C26_bound_covers_partial m).2 _ hg hf trivial
  have c1 := Fl.covers_moved (cov _ (List.mem_map.2 ⟨p, hp, rfl⟩)) hpq.1 hpq.2.1 ha.1 ha.2
  have c2 := Fl.covers_moved (cov _ (List.mem_map.2 ⟨q, hq, rfl⟩)) hpq.2.2.1 hpq.2.2.2 ha.1 ha.2
  obtain ⟨k, k0, k1, rfl, rfl⟩ := h
  exact c1.line c2 ⟨k, k0, k1, by ring, by ring⟩

/-- The lines of the fabrication layer that go from the left to the right and downwards (in KiCad
down is positive) are covered.  For the others the box is wrong: see `C95_footprint_line_missed`. -/
theorem C95_footprint_line (m : Fp.Module Fl) (g : Fp.FpLine Fl) (hg : Fp.Elem.line g ∈ m.elements)
    (hf : g.layer.t = .fab) (ho : g.start.x.val ≤ g.end_.x.val ∧ g.start.y.val ≤ g.end_.y.val) (R : ℚ)
    (ha : Within R m.at_.1 ∧ Within R m.at_.2)
    (hpq : Within R g.start.x ∧ Within R g.start.y ∧ Within R g.end_.x ∧ Within R g.end_.y) (px py : ℚ)
    (h : OnLine g.start.x.val g.start.y.val g.end_.x.val g.end_.y.val px py) :
    Covers ((R + 1) * pow2 (-46)) m.bound (px + m.at_.1.val) (py + m.at_.2.val) := by
  have cov := (C26_bound_covers_partial m).2 _ hg hf (by simpa [Oriented, Flt.le] using ho)
  have c1 := Fl.covers_moved (cov _ (List.mem_cons_self)) hpq.1 hpq.2.1 ha.1 ha.2
  have c2 := Fl.covers_moved (cov _ (List.mem_cons_of_mem _ List.mem_cons_self)) hpq.2.2.1 hpq.2.2.2 ha.1 ha.2
  obtain ⟨k, k0, k1, rfl, rfl⟩ := h
  exact c1.line c2 ⟨k, k0, k1, by ring, by ring⟩

/-! ### Pads -/

/-- The rectangle of a pad in its footprint: the size is given before turning, so for an odd number
of quarter turns width and height are swapped. -/
def Spec.OnPad (p : Fp.Pad Fl) (turns : ℤ) (px py : ℚ) : Prop :=
  if turns % 2 = 0 then |px - p.at_.x.val| ≤ p.size.x.val / 2 ∧ |py - p.at_.y.val| ≤ p.size.y.val / 2
  else |px - p.at_.x.val| ≤ p.size.y.val / 2 ∧ |py - p.at_.y.val| ≤ p.size.x.val / 2

theorem Fl.quarter (r : Fl) (k : ℤ) (hk : -4 ≤ k ∧ k ≤ 4) (h : r.val = 90 * k) :
    extent.quarter r = decide (k % 2 ≠ 0) := by
  obtain ⟨k0, k1⟩ := hk
  obtain ⟨v, ok⟩ := r
  simp only at h
  subst h
  interval_cases k <;> (revert ok; decide +kernel)

theorem Fl.half_near {a : Fl} {R : ℚ} (h : |a.val| ≤ R) :
    |(half a).val - a.val / 2| ≤ (R + 1) * pow2 (-53) ∧ |(half a).val| ≤ R + 1 := by
  have e := round64_abs (a.val / 2)
  have hh : (half a).val = round64 (a.val / 2) := rfl
  have t : pow2 (-1075) ≤ pow2 (-53) := pow2_mono (by norm_num)
  have k : |a.val / 2| ≤ R := by rw [abs_div, abs_two]; linarith [abs_nonneg a.val]
  have w0 := w_pos
  have w1 := w_small
  have R0 : 0 ≤ R := le_trans (abs_nonneg _) h
  have f1 : R * pow2 (-53) ≤ R * (1 / 1024) := mul_le_mul_of_nonneg_left w1 R0
  have f := mul_le_mul_of_nonneg_right k (_root_.le_of_lt w0)
  have a1 : |(half a).val - a.val / 2| ≤ (R + 1) * pow2 (-53) := by rw [hh]; linarith
  refine ⟨a1, ?_⟩
  have := abs_le.1 a1
  have := abs_le.1 h
  exact abs_le.2 ⟨by linarith, by linarith⟩

/-- The rectangle around a computed point, with computed half sizes. -/
theorem Fl.pad_side {R : ℚ} {c s at_ : Fl} (hc : |c.val| ≤ R) (hs : |s.val| ≤ R) (ha : |at_.val| ≤ R) {p : ℚ}
    (hp : |p - c.val| ≤ s.val / 2) :
    (add (sub c (half s)) at_).val ≤ p + at_.val + (R + 1) * 20 * pow2 (-53) ∧
    p + at_.val ≤ (add (add c (half s)) at_).val + (R + 1) * 20 * pow2 (-53) := by
  obtain ⟨n, ns⟩ := Fl.half_near hs
  have n := abs_le.1 n
  have w0 := w_pos
  have w1 := w_small
  have R0 : 0 ≤ R := le_trans (abs_nonneg _) hs
  have f1 : R * pow2 (-53) ≤ R * (1 / 1024) := mul_le_mul_of_nonneg_left w1 R0
  have f0 := mul_nonneg R0 (_root_.le_of_lt w0)
  have s1 := abs_le.1 (Fl.sub_within hc ns)
  have s2 := abs_le.1 (Fl.add_within hc ns)
  have hc' := abs_le.1 hc
  have ns' := abs_le.1 ns
  have z1 : |(sub c (half s)).val| ≤ 3 * R + 2 := abs_le.2 ⟨by linarith, by linarith⟩
  have z2 : |(add c (half s)).val| ≤ 3 * R + 2 := abs_le.2 ⟨by linarith, by linarith⟩
  have y1 := abs_le.1 (Fl.add_within z1 ha)
  have y2 := abs_le.1 (Fl.add_within z2 ha)
  have hp := abs_le.1 hp
  exact ⟨by linarith, by linarith⟩

/-- The box of a footprint covers its pads, whichever quarter turn they have. -/
theorem C95_pad (m : Fp.Module Fl) (g : Fp.Pad Fl) (hg : Fp.Elem.pad g ∈ m.elements) (k : ℤ) (hk : -4 ≤ k ∧ k ≤ 4)
    (hr : g.at_.rot.val = 90 * k) (R : ℚ) (ha : Within R m.at_.1 ∧ Within R m.at_.2)
    (h : Within R g.at_.x ∧ Within R g.at_.y ∧ Within R g.size.x ∧ Within R g.size.y) (px py : ℚ)
    (hp : OnPad g k px py) :
    Covers ((R + 1) * pow2 (-46)) m.bound (px + m.at_.1.val) (py + m.at_.2.val) := by
  obtain ⟨h1, h2, h3, h4⟩ := h
  have pos : 0 ≤ g.size.x.val ∧ 0 ≤ g.size.y.val := by
    have a := abs_nonneg (px - g.at_.x.val)
    have b := abs_nonneg (py - g.at_.y.val)
    unfold OnPad at hp
    split at hp
    · exact ⟨by linarith, by linarith⟩
    · exact ⟨by linarith, by linarith⟩
  have cov := (C26_bound_covers_partial m).2 _ hg trivial
    (by simpa [Oriented, Flt.le, Fl.zero_val] using pos)
  have q := Fl.quarter g.at_.rot k hk hr
  have R0 : 0 ≤ R := le_trans (abs_nonneg _) h1
  have f0 := mul_nonneg R0 (_root_.le_of_lt w_pos)
  have w0 := w_pos
  simp only [extent, q, List.forall_mem_cons] at cov
  obtain ⟨⟨hb, a1, a2, a3, a4⟩, -, -, -, ⟨-, b1, b2, b3, b4⟩, -⟩ := cov
  simp only [Flt.le, decide_eq_true_eq] at a1 a2 a3 a4 b1 b2 b3 b4
  unfold OnPad at hp
  rw [Fl.w128]
  by_cases e : k % 2 = 0
  · rw [if_pos e] at hp
    simp only [e, ne_eq, not_true_eq_false, decide_false, if_false] at *
    have dx := Fl.pad_side h1 h3 ha.1 hp.1
    have dy := Fl.pad_side h2 h4 ha.2 hp.2
    exact ⟨hb, by linarith, by linarith, by linarith, by linarith⟩
  · rw [if_neg e] at hp
    simp only [e, ne_eq, not_false_eq_true, decide_true, if_true] at *
    have dx := Fl.pad_side h1 h4 ha.1 hp.1
    have dy := Fl.pad_side h2 h3 ha.2 hp.2
    exact ⟨hb, by linarith, by linarith, by linarith, by linarith⟩

/-! ### What the boxes miss -/

/-- The box of an arc of the board only knows its two points.  In the files of KiCad 4 and 5 `start`
is the centre and `end` is one end of the arc, so the point of the circle opposite of the end, which
is drawn if the angle is 180 degrees or more, is missed by the whole radius. -/
theorem C95_arc_missed (a : Lay.GrArc Fl) (t : ℚ)
    (h : t < |a.end_.x.val - a.start.x.val| ∨ t < |a.end_.y.val - a.start.y.val|) :
    OnDisc a.start.x.val a.start.y.val a.end_.x.val a.end_.y.val
      (2 * a.start.x.val - a.end_.x.val) (2 * a.start.y.val - a.end_.y.val) ∧
    ¬ Covers t (Lay.Elem.grArc a).bound (2 * a.start.x.val - a.end_.x.val) (2 * a.start.y.val - a.end_.y.val) := by
  refine ⟨by unfold OnDisc; apply le_of_eq; ring, ?_⟩
  rintro ⟨-, h1, h2, h3, h4⟩
  simp only [Lay.Elem.bound, Lay.twoPoint, Bound.new, Fl.fmin_val, Fl.fmax_val] at h1 h2 h3 h4
  have key : ∀ u v : ℚ, min u v - t ≤ 2 * u - v → 2 * u - v ≤ max u v + t → |v - u| ≤ t := by
    intro u v g1 g2
    rcases le_total u v with e | e
    · rw [min_eq_left e] at g1; rw [abs_of_nonneg (by linarith)]; linarith
    · rw [max_eq_left e] at g2; rw [abs_of_nonpos (by linarith)]; linarith
  rcases h with h | h
  · exact absurd (key _ _ h1 h2) (not_le.2 h)
  · exact absurd (key _ _ h3 h4) (not_le.2 h)

/-- Lines of the fabrication layer that are drawn from the right of the origin to the left of it do
not widen the box at all. -/
theorem C95_footprint_line_missed (m : Fp.Module Fl) (g : Fp.FpLine Fl) (hm : m.elements = [.line g])
    (hf : g.layer.t = .fab) (ho : g.end_.x.val < 0 ∧ 0 < g.start.x.val) :
    m.bound.x1.val = 0 ∧ m.bound.x2.val = 0 ∧ ¬ Covers 0 m.bound g.start.x.val g.start.y.val := by
  have ha : m.at_ = (zero, zero) := by simp [Fp.Module.at_, hm, Fp.Module.firstAt]
  have z : ∀ a : Fl, (add a zero).val = a.val := fun a => by
    have : (add a zero).val = round64 (a.val + (zero : Fl).val) := rfl
    rw [this, Fl.zero_val, add_zero]; exact a.ok
  have hx : m.bound.x1.val = 0 ∧ m.bound.x2.val = 0 := by
    simp only [Fp.Module.bound, ha, hm, List.foldl_cons, List.foldl_nil, Fp.Module.boundStep, Fp.Elem.isGraphics,
      Fp.Elem.isFab, hf, decide_true, Bool.true_or, Bool.and_self, if_true, Fp.Elem.bound, Fp.FpLine.bound, Bound.new,
      Bound.update, Bool.not_true, Bool.false_eq_true, if_false, Bound.swapIfNeeded]
    have e1 : (fmin (zero : Fl) (add g.start.x zero)).val = 0 := by
      rw [Fl.fmin_val, z, Fl.zero_val]; exact min_eq_left (_root_.le_of_lt ho.2)
    have e2 : (fmax (zero : Fl) (add g.end_.x zero)).val = 0 := by
      rw [Fl.fmax_val, z, Fl.zero_val]; exact max_eq_left (_root_.le_of_lt ho.1)
    split <;> split <;> exact ⟨by assumption, by assumption⟩
  refine ⟨hx.1, hx.2, ?_⟩
  rintro ⟨-, h1, h2, -, -⟩
  rw [hx.2] at h2
  linarith [ho.2]

/-! ### Cases that meet the hypotheses -/

/-- A circle of radius 5 and a track through it, and a via. -/
def Spec.aCircle : Lay.GrCircle Fl :=
  ⟨⟨ofInt 3, ofInt 4, .center⟩, ⟨ofInt 6, ofInt 8, .end_⟩, ⟨.edge, .cuts⟩, ofInt 1, none⟩
def Spec.aLine : Lay.GrLine Fl :=
  ⟨⟨ofInt 0, ofInt 4, .start⟩, ⟨ofInt 6, ofInt 1, .end_⟩, ofInt 0, ⟨.edge, .cuts⟩, ofInt 1, none⟩
def Spec.aVia : Lay.Via Fl := ⟨false, false, ⟨ofInt 1, ofInt 2, ofInt 0⟩, lit 6 1, lit 3 1, [], 1⟩
def Spec.discBoard : Lay.Layout Fl :=
  { Lay.Layout.dflt with elements := [.grCircle aCircle, .grLine aLine, .via aVia] }

/-- A footprint off the origin with a pad of 2 by 1 that is turned by a quarter, a circle and a
triangle on the fabrication layer. -/
def Spec.turnedPad : Fp.Pad Fl :=
  { Fp.Pad.new [] .smd .rect with at_ := ⟨lit 5 1, lit 1 1, ofInt 270⟩, size := ⟨ofInt 2, ofInt 1, .size⟩ }
def Spec.fabCircle : Fp.FpCircle Fl :=
  ⟨⟨ofInt 0, ofInt 0, .center⟩, ⟨lit 8 1, lit 1 1, .end_⟩, ⟨.front, .fab⟩, lit 1 1⟩
def Spec.fabPoly : Fp.FpPoly Fl :=
  ⟨[⟨ofInt 0, ofInt 0, .xy⟩, ⟨ofInt 1, ofInt 0, .xy⟩, ⟨ofInt 0, ofInt 1, .xy⟩], lit 1 1, ⟨.front, .fab⟩⟩
def Spec.turned : Fp.Module Fl :=
  ⟨str! "turned", [.at_ ⟨lit 1 1, lit 2 1, ofInt 0⟩, .pad turnedPad, .circle fabCircle, .poly fabPoly]⟩

example : Lay.Elem.grCircle aCircle ∈ discBoard.elements ∧
    (Within 10 aCircle.center.x ∧ Within 10 aCircle.center.y ∧ Within 10 aCircle.end_.x ∧ Within 10 aCircle.end_.y) ∧
    OnDisc aCircle.center.x.val aCircle.center.y.val aCircle.end_.x.val aCircle.end_.y.val (13 / 2) (15 / 2) ∧
    Covers ((10 + 1) * pow2 (-46)) discBoard.bound (13 / 2) (15 / 2) := by
  have h : Lay.Elem.grCircle aCircle ∈ discBoard.elements := List.mem_cons_self
  have w : Within 10 aCircle.center.x ∧ Within 10 aCircle.center.y ∧ Within 10 aCircle.end_.x ∧ Within 10 aCircle.end_.y := by
    unfold Within; decide +kernel
  have o : OnDisc aCircle.center.x.val aCircle.center.y.val aCircle.end_.x.val aCircle.end_.y.val (13 / 2) (15 / 2) := by
    unfold OnDisc; decide +kernel
  exact ⟨h, w, o, C95_board_disc _ _ h _ w _ _ o⟩

example : Lay.Elem.via aVia ∈ discBoard.elements ∧ 0 ≤ aVia.size.val ∧
    (Within 10 aVia.at_.x ∧ Within 10 aVia.at_.y ∧ Within 10 aVia.size) ∧ OnVia aVia (6 / 5) (11 / 5) ∧
    ({ Lay.Layout.dflt with elements := [.via aVia] } : Lay.Layout Fl).elements = [.via aVia] := by
  refine ⟨?_, ?_, ?_, ?_, rfl⟩
  · exact List.mem_cons_of_mem _ (List.mem_cons_of_mem _ List.mem_cons_self)
  · decide +kernel
  · unfold Within; decide +kernel
  · unfold OnVia; decide +kernel

example : Lay.Elem.grLine aLine ∈ discBoard.elements ∧ Straight (.grLine aLine) ∧
    OnLine aLine.start.x.val aLine.start.y.val aLine.end_.x.val aLine.end_.y.val 2 3 := by
  refine ⟨List.mem_cons_of_mem _ List.mem_cons_self, trivial, 1 / 3, ?_⟩
  decide +kernel

example : Fp.Elem.circle fabCircle ∈ turned.elements ∧ fabCircle.layer.t = .fab ∧
    (Within 10 turned.at_.1 ∧ Within 10 turned.at_.2) ∧
    (Within 10 fabCircle.center.x ∧ Within 10 fabCircle.center.y ∧ Within 10 fabCircle.end_.x ∧ Within 10 fabCircle.end_.y) ∧
    OnDisc fabCircle.center.x.val fabCircle.center.y.val fabCircle.end_.x.val fabCircle.end_.y.val (1 / 2) (-1 / 2) := by
  refine ⟨?_, rfl, ?_, ?_, ?_⟩
  · exact List.mem_cons_of_mem _ (List.mem_cons_of_mem _ List.mem_cons_self)
  · unfold Within; decide +kernel
  · unfold Within; decide +kernel
  · unfold OnDisc; decide +kernel

example : Fp.Elem.pad turnedPad ∈ turned.elements ∧ turnedPad.at_.rot.val = 90 * ((3 : ℤ) : ℚ) ∧
    (Within 10 turnedPad.at_.x ∧ Within 10 turnedPad.at_.y ∧ Within 10 turnedPad.size.x ∧ Within 10 turnedPad.size.y) ∧
    OnPad turnedPad 3 (1 / 4) (9 / 10) ∧ ¬ OnPad turnedPad 0 (1 / 4) (9 / 10) := by
  refine ⟨?_, ?_, ?_, ?_, ?_⟩
  · exact List.mem_cons_of_mem _ List.mem_cons_self
  · decide +kernel
  · unfold Within; decide +kernel
  · unfold OnPad; decide +kernel
  · unfold OnPad; decide +kernel

example : Fp.Elem.poly fabPoly ∈ turned.elements ∧ fabPoly.layer.t = .fab ∧
    OnLine 1 0 0 1 (1 / 2) (1 / 2) := by
  refine ⟨?_, rfl, 1 / 2, by norm_num, by norm_num, by norm_num, by norm_num⟩
  exact List.mem_cons_of_mem _ (List.mem_cons_of_mem _ (List.mem_cons_of_mem _ List.mem_cons_self))

example : ∃ (m : Fp.Module Fl) (g : Fp.FpLine Fl), m.elements = [.line g] ∧ g.layer.t = .fab ∧
    g.end_.x.val < 0 ∧ 0 < g.start.x.val :=
  ⟨⟨[], [.line ⟨⟨ofInt 5, ofInt 0, .start⟩, ⟨ofInt (-5), ofInt 0, .end_⟩, ⟨.front, .fab⟩, ofInt 1⟩]⟩, _, rfl, rfl,
    by decide +kernel, by decide +kernel⟩

end Verif
