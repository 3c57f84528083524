import Verif.Props.C23
import Verif.Props.C24
import Verif.Props.C43
import Verif.Props.C01
import Verif.Props.C14
import Verif.Props.C19
import Verif.Props.C35
import Verif.Lemmas.Rounding
/-!
# C81: moving, rotating and flipping with 64-bit floating point numbers

The theorems of C23, C24 and C43 about undoing a move, rotation or flip assume
exact arithmetic.  Here the numbers are those the code computes with (`Fl`).
-/

namespace Verif
open Flt Spec Fp64

namespace Spec

/-- A multiple of `2^-g`, at most `2^52` units large: for `g = 43` the multiples
of 2^-43 up to 512. -/
def OnGrid (g : Nat) (a : Fl) : Prop := ∃ z : Int, |z| ≤ 2 ^ 52 ∧ a.val = z * pow2 (-(g : Int))

/-- Two numbers differ by at most `t`. -/
def CloseTo (t : ℚ) (a b : Fl) : Prop := |a.val - b.val| ≤ t

end Spec

/-! ### Arithmetic on a grid is exact -/

theorem Fl.val_of_isF64 {q : ℚ} (h : IsF64 q) : (Fl.of q).val = q := round64_of_isF64 h

theorem Fl.neg_neg (a : Fl) : Flt.neg (Flt.neg a) = a := Fl.ext_val (by rw [Fl.neg_val, Fl.neg_val, _root_.neg_neg])

theorem Fl.c360 : (lit 360 0 : Fl).val = 360 := by decide +kernel

theorem Fl.grid_add {g : Nat} (hg : g ≤ 1074) {a b : Fl} (ha : OnGrid g a) (hb : OnGrid g b) :
    (Flt.add a b).val = a.val + b.val := by
  obtain ⟨u, hu, eu⟩ := ha
  obtain ⟨v, hv, ev⟩ := hb
  refine Fl.val_of_isF64 ⟨u + v, -(g : Int), ?_, by omega, ?_⟩
  · have := abs_add_le u v
    linarith
  · rw [eu, ev]; push_cast; ring

theorem Spec.OnGrid.neg {g : Nat} {a : Fl} (h : OnGrid g a) : OnGrid g (Flt.neg a) := by
  obtain ⟨z, hz, e⟩ := h
  exact ⟨-z, by rwa [abs_neg], by rw [Fl.neg_val, e]; push_cast; ring⟩

/-- Adding an offset and taking it away again, on a grid. -/
theorem Fl.grid_back {g : Nat} (hg : g ≤ 1074) {a d : Fl} (ha : OnGrid g a) (hd : OnGrid g d) :
    Flt.add (Flt.add a d) (Flt.neg d) = a := by
  apply Fl.ext_val
  show round64 ((Flt.add a d).val + (Flt.neg d).val) = a.val
  rw [Fl.grid_add hg ha hd, Fl.neg_val, add_neg_cancel_right, a.ok]

/-! ### Moving there and back -/

/-- If the offset can be taken away from every coordinate of an element, moving
there and back restores it. -/
theorem Lay.adjust_back_of {F : Type} [Flt F] (x y : F) (e : Lay.Elem F)
    (h : ∀ p ∈ boardPoints e, add (add p.1 x) (neg x) = p.1 ∧ add (add p.2 y) (neg y) = p.2) :
    (e.adjust x y).adjust (neg x) (neg y) = e := by
  have X : ∀ p : Fp.Xy F, (add (add p.x x) (neg x) = p.x ∧ add (add p.y y) (neg y) = p.y) →
      Lay.adjXy (neg x) (neg y) (Lay.adjXy x y p) = p := by
    intro p hp; simp [Lay.adjXy, hp.1, hp.2]
  have A : ∀ p : Fp.At F, (add (add p.x x) (neg x) = p.x ∧ add (add p.y y) (neg y) = p.y) →
      Lay.adjAt (neg x) (neg y) (Lay.adjAt x y p) = p := by
    intro p hp; simp [Lay.adjAt, hp.1, hp.2]
  have P : ∀ l : List (Fp.Xy F), (∀ p ∈ l, add (add p.x x) (neg x) = p.x ∧ add (add p.y y) (neg y) = p.y) →
      Lay.adjPts (neg x) (neg y) (Lay.adjPts x y l) = l := by
    intro l hl
    simp only [Lay.adjPts, List.map_map]
    conv => rhs; rw [← List.map_id l]
    exact List.map_congr_left fun p hp => X p (hl p hp)
  have PP : ∀ l : List (List (Fp.Xy F)), (∀ p ∈ l.flatten, add (add p.x x) (neg x) = p.x ∧
      add (add p.y y) (neg y) = p.y) →
      (l.map (Lay.adjPts x y)).map (Lay.adjPts (neg x) (neg y)) = l := by
    intro l hl
    rw [List.map_map]
    conv => rhs; rw [← List.map_id l]
    exact List.map_congr_left fun p hp => P p fun q hq => hl q (List.mem_flatten.2 ⟨p, hp, hq⟩)
  cases e with
  | module_ m =>
    obtain ⟨nm, es⟩ := m
    simp only [Lay.Elem.adjust, Fp.Module.adjust, List.map_map, Lay.Elem.module_.injEq,
      Fp.Module.mk.injEq, true_and]
    conv => rhs; rw [← List.map_id es]
    apply List.map_congr_left
    intro e he
    cases e with
    | at_ a =>
      have := h (a.x, a.y) (List.mem_filterMap.2 ⟨_, he, rfl⟩)
      simp only [Function.comp_apply, Fp.Module.adjustElem, id_eq, this.1, this.2]
    | _ => rfl
  | zone z =>
    obtain ⟨_, _, _, _, _, _, _, _, _, _, ps, fs, seg, _⟩ := z
    have h' : ∀ q ∈ ps.flatten ++ fs.flatten ++ seg.getD [], add (add q.x x) (neg x) = q.x ∧
        add (add q.y y) (neg y) = q.y := fun q hq => h (xyPair q) (List.mem_map.2 ⟨q, hq, rfl⟩)
    have h1 := PP ps fun q hq => h' q (by simp [List.mem_flatten.1 hq])
    have h2 := PP fs fun q hq => h' q (by simp [List.mem_flatten.1 hq])
    simp only [Lay.Elem.adjust, Lay.Zone.adjust, h1, h2]
    cases seg with
    | none => rfl
    | some s => simp only [Option.map_some, P s fun q hq => h' q (by simp [hq])]
  | dimension d =>
    have ht := A d.text.at_ (h (atPair d.text.at_) (by simp [boardPoints]))
    have h' : ∀ q ∈ d.feature1 ++ d.feature2 ++ d.crossbar ++ d.arrow1a ++ d.arrow1b ++ d.arrow2a ++
        d.arrow2b, add (add q.x x) (neg x) = q.x ∧ add (add q.y y) (neg y) = q.y :=
      fun q hq => h (xyPair q) (by
        simp only [boardPoints, List.mem_cons]; exact Or.inr (List.mem_map.2 ⟨q, hq, rfl⟩))
    simp only [Lay.Elem.adjust, Lay.Dimension.adjust, Lay.GrText.adjust, ht,
      P d.feature1 fun q hq => h' q (by simp [hq]), P d.feature2 fun q hq => h' q (by simp [hq]),
      P d.crossbar fun q hq => h' q (by simp [hq]), P d.arrow1a fun q hq => h' q (by simp [hq]),
      P d.arrow1b fun q hq => h' q (by simp [hq]), P d.arrow2a fun q hq => h' q (by simp [hq]),
      P d.arrow2b fun q hq => h' q (by simp [hq])]
  | grText t => simp only [Lay.Elem.adjust, Lay.GrText.adjust, A t.at_ (h (atPair t.at_) (by simp [boardPoints]))]
  | via t => simp only [Lay.Elem.adjust, A t.at_ (h (atPair t.at_) (by simp [boardPoints]))]
  | grLine l =>
    simp only [Lay.Elem.adjust, X l.start (h (xyPair l.start) (by simp [boardPoints])),
      X l.end_ (h (xyPair l.end_) (by simp [boardPoints]))]
  | grArc l =>
    simp only [Lay.Elem.adjust, X l.start (h (xyPair l.start) (by simp [boardPoints])),
      X l.end_ (h (xyPair l.end_) (by simp [boardPoints]))]
  | segment l =>
    simp only [Lay.Elem.adjust, X l.start (h (xyPair l.start) (by simp [boardPoints])),
      X l.end_ (h (xyPair l.end_) (by simp [boardPoints]))]
  | grCircle l =>
    simp only [Lay.Elem.adjust, X l.center (h (xyPair l.center) (by simp [boardPoints])),
      X l.end_ (h (xyPair l.end_) (by simp [boardPoints]))]
  | _ => rfl

/-- A layout whose coordinates lie on a common binary grid, moved by an offset on
the grid and back, is the same layout again, bit for bit. -/
theorem C81_move_back_on_grid (l : Lay.Layout Fl) (x y : Fl) (g : Nat) (hg : g ≤ 1074)
    (hx : OnGrid g x) (hy : OnGrid g y)
    (h : ∀ e ∈ l.elements, ∀ p ∈ boardPoints e, OnGrid g p.1 ∧ OnGrid g p.2) :
    (l.adjust x y).adjust (neg x) (neg y) = l := by
  have : (l.elements.map (Lay.Elem.adjust x y)).map (Lay.Elem.adjust (neg x) (neg y)) = l.elements := by
    rw [List.map_map]
    conv => rhs; rw [← List.map_id l.elements]
    exact List.map_congr_left fun e he => Lay.adjust_back_of x y e fun p hp =>
      ⟨Fl.grid_back hg (h e he p hp).1 hx, Fl.grid_back hg (h e he p hp).2 hy⟩
  simp only [Lay.Layout.adjust, this]

/-- In general a layout moved there and back is the same up to rounding: nothing
but points changes, and each coordinate by at most `2^-51` of its own size and
that of the offset. -/
theorem C81_move_back_near (l : Lay.Layout Fl) (x y : Fl) :
    { (l.adjust x y).adjust (neg x) (neg y) with elements := l.elements } = l ∧
    List.Forall₂ (fun e e' => eraseBoardPoints e' = eraseBoardPoints e ∧
      List.Forall₂ (fun p p' => CloseTo ((|p.1.val| + |x.val|) * pow2 (-51)) p'.1 p.1 ∧
        CloseTo ((|p.2.val| + |y.val|) * pow2 (-51)) p'.2 p.2) (boardPoints e) (boardPoints e'))
      l.elements ((l.adjust x y).adjust (neg x) (neg y)).elements := by
  refine ⟨rfl, ?_⟩
  simp only [Lay.Layout.adjust, List.map_map]
  generalize l.elements = es
  induction es with
  | nil => exact .nil
  | cons e es ih =>
    refine .cons ⟨?_, ?_⟩ ih
    · rw [Function.comp_apply, (C43_moves_points _ _ _).2.1, (C43_moves_points _ _ _).2.1]
    · rw [Function.comp_apply, (C43_moves_points _ _ _).1, (C43_moves_points _ _ _).1]
      generalize boardPoints e = ps
      clear ih
      induction ps with
      | nil => exact .nil
      | cons p ps ih => exact .cons ⟨Fl.add_back_err p.1 x, Fl.add_back_err p.2 y⟩ ih

/-- Hence positions given in nanometres within a metre of the origin, moved by
less than a metre and back, are still the same number of nanometres. -/
theorem C81_move_back_nanometres (n : Int) (d : Fl) (hn : |n| ≤ 10 ^ 9) (hd : |d.val| ≤ 1000) :
    |(Flt.add (Flt.add (Fl.of (n / 10 ^ 6)) d) (Flt.neg d)).val * 10 ^ 6 - n| < 1 / 2 := by
  have h1 := Fl.add_back_err (Fl.of (n / 10 ^ 6)) d
  have hn' : |(n : ℚ) / 10 ^ 6| ≤ 1000 := by
    rw [abs_div, abs_of_pos (by norm_num : (0 : ℚ) < 10 ^ 6), div_le_iff₀ (by norm_num)]
    have : ((|n| : Int) : ℚ) ≤ ((10 ^ 9 : Int) : ℚ) := by exact_mod_cast hn
    rw [Int.cast_abs] at this
    norm_num at this ⊢
    exact this
  have h2 : |(Fl.of (n / 10 ^ 6)).val - n / 10 ^ 6| ≤ pow2 (-43) / 2 := by
    have e1 := round64_err ((n : ℚ) / 10 ^ 6)
    have : ulpExp ((n : ℚ) / 10 ^ 6) ≤ -43 := by
      unfold ulpExp
      by_cases h0 : (n : ℚ) / 10 ^ 6 = 0
      · rw [h0]; decide +kernel
      · have := (expo_spec h0).1
        have h3 : pow2 (expo ((n : ℚ) / 10 ^ 6)) < pow2 10 :=
          lt_of_le_of_lt (le_trans this hn') (by rw [show pow2 10 = 1024 from rfl]; norm_num)
        have := pow2_lt h3
        omega
    have := pow2_mono this
    exact le_trans e1 (by linarith)
  have p51 : pow2 (-51) = 1 / 2 ^ 51 := by rw [pow2_eq]; norm_num
  have p43 : pow2 (-43) = 1 / 2 ^ 43 := by rw [pow2_eq]; norm_num
  rw [p51] at h1
  rw [p43] at h2
  generalize (Fl.of ((n : ℚ) / 10 ^ 6)).val = a at *
  generalize (Flt.add (Flt.add (Fl.of (n / 10 ^ 6)) d) (Flt.neg d)).val = t at *
  have ha : |a| ≤ 1001 := by
    have := abs_add_le (a - n / 10 ^ 6) ((n : ℚ) / 10 ^ 6)
    rw [sub_add_cancel] at this
    norm_num at h2 ⊢
    linarith
  have h3 : |t - a| ≤ 2001 * (1 / 2 ^ 51) :=
    le_trans h1 (mul_le_mul_of_nonneg_right (by linarith) (by norm_num))
  have h4 : |t - n / 10 ^ 6| ≤ 2001 * (1 / 2 ^ 51) + 1 / 2 ^ 43 / 2 := by
    have := abs_add_le (t - a) (a - n / 10 ^ 6)
    rw [sub_add_sub_cancel] at this
    linarith
  have h5 : t * 10 ^ 6 - n = (t - n / 10 ^ 6) * 10 ^ 6 := by field_simp
  rw [h5, abs_mul, abs_of_pos (by norm_num : (0 : ℚ) < 10 ^ 6)]
  have := mul_le_mul_of_nonneg_right h4 (by norm_num : (0 : ℚ) ≤ 10 ^ 6)
  exact lt_of_le_of_lt this (by norm_num)

/-- Bit for bit, positions are not restored in general: 0.1 moved by 0.2 and
back is 0.10000000000000003. -/
theorem C81_move_back_drifts : ∃ (l : Lay.Layout Fl) (x y : Fl),
    (l.adjust x y).adjust (neg x) (neg y) ≠ l := by
  refine ⟨{ (Lay.Layout.dflt : Lay.Layout Fl) with
    elements := [.grText ⟨[], ⟨lit 1 1, zero, zero⟩, ⟨.front, .silkS⟩, ⟨Fp.Font.dflt, none⟩, none⟩] },
    lit 2 1, zero, ?_⟩
  intro h
  have := congrArg (fun l : Lay.Layout Fl => l.elements.flatMap boardPoints) h
  exact absurd this (by decide +kernel)

example : ∃ (l : Lay.Layout Fl) (x y : Fl), OnGrid 10 x ∧ OnGrid 10 y ∧ l.adjust x y ≠ l ∧
    ∀ e ∈ l.elements, ∀ p ∈ boardPoints e, OnGrid 10 p.1 ∧ OnGrid 10 p.2 := by
  refine ⟨{ (Lay.Layout.dflt : Lay.Layout Fl) with
    elements := [.grText ⟨[], ⟨lit 25 2, zero, zero⟩, ⟨.front, .silkS⟩, ⟨Fp.Font.dflt, none⟩, none⟩] },
    lit 5 1, zero, ⟨512, by decide +kernel, by decide +kernel⟩, ⟨0, by decide +kernel, by decide +kernel⟩, ?_, ?_⟩
  · intro h
    have := congrArg (fun l : Lay.Layout Fl => l.elements.flatMap boardPoints) h
    exact absurd this (by decide +kernel)
  · simp only [List.mem_singleton, forall_eq, boardPoints, atPair]
    exact ⟨⟨256, by decide +kernel, by decide +kernel⟩, ⟨0, by decide +kernel, by decide +kernel⟩⟩

/-! ### Rotating -/

/-- A multiple of `2^-43` below 1024 is a number of the format. -/
theorem Fl.angle_exact {q : ℚ} (h : ∃ z : Int, q = z * pow2 (-43)) (hq : |q| ≤ 1024) : round64 q = q := by
  obtain ⟨z, hz⟩ := h
  refine round64_of_isF64 ⟨z, -43, ?_, by omega, hz⟩
  rw [hz, abs_mul, abs_of_pos (pow2_pos _)] at hq
  have e : pow2 (-43) = 1 / 2 ^ 43 := by rw [pow2_eq]; norm_num
  rw [e, mul_one_div, div_le_iff₀ (by norm_num)] at hq
  have : ((|z| : Int) : ℚ) ≤ ((2 ^ 53 : Int) : ℚ) := by rw [Int.cast_abs]; norm_num at hq ⊢; exact hq
  exact_mod_cast this

theorem Fl.angle_360 : ∃ z : Int, (360 : ℚ) = z * pow2 (-43) := ⟨360 * 2 ^ 43, by decide +kernel⟩

theorem Fl.normal_iff (a : Fl) : Normal a ↔ 0 ≤ a.val ∧ a.val < 360 := by
  unfold Normal
  simp only [Flt.le, Flt.lt, decide_eq_true_eq, Fl.zero_val, Fl.c360]

theorem Fl.oneTurn_iff (a : Fl) : OneTurn a ↔ |a.val| ≤ 360 := by
  unfold OneTurn
  simp only [Flt.le, decide_eq_true_eq, Fl.neg_val, Fl.c360, abs_le]

/-- The angle the code computes. -/
theorem Fl.rotate_val (a : Fp.At Fl) (r : Fl) :
    (a.rotate r).rot.val =
      let s := round64 (a.rot.val + r.val)
      let s := if 360 ≤ s then round64 (s - 360) else s
      if s < 0 then round64 (s + 360) else s := by
  have h0 := Fl.zero_val
  have h1 := Fl.c360
  simp only [Fp.At.rotate]
  have ha : (Flt.add a.rot r).val = round64 (a.rot.val + r.val) := rfl
  have hle : Flt.le (lit 360 0) (Flt.add a.rot r) = decide (360 ≤ round64 (a.rot.val + r.val)) := by
    simp only [Flt.le, h1, ha]
  rw [hle]
  generalize Flt.add a.rot r = s at *
  rw [← ha]
  by_cases c : 360 ≤ s.val
  · simp only [c, decide_true, if_true]
    have hs : (Flt.sub s (lit 360 0)).val = round64 (s.val - 360) := by
      show round64 (s.val - (lit 360 0 : Fl).val) = _
      rw [h1]
    have hlt : Flt.lt (Flt.sub s (lit 360 0)) zero = decide (round64 (s.val - 360) < 0) := by
      simp only [Flt.lt, h0, hs]
    rw [hlt]
    by_cases c2 : round64 (s.val - 360) < 0
    · simp only [c2, decide_true, if_true]
      show round64 ((Flt.sub s (lit 360 0)).val + (lit 360 0 : Fl).val) = _
      rw [hs, h1]
    · simp only [c2, decide_false, Bool.false_eq_true, if_false]
      exact hs
  · simp only [c, decide_false, Bool.false_eq_true, if_false]
    have hlt : Flt.lt s zero = decide (s.val < 0) := by simp only [Flt.lt, h0]
    rw [hlt]
    by_cases c2 : s.val < 0
    · simp only [c2, decide_true, if_true]
      show round64 (s.val + (lit 360 0 : Fl).val) = _
      rw [h1]
    · simp only [c2, decide_false, Bool.false_eq_true, if_false]

/-- On the grid of 2^-43 degrees, the code's angle is the exact one. -/
theorem Fl.rotate_grid (a : Fp.At Fl) (r : Fl) (ha : Normal a.rot) (hr : OneTurn r)
    (ga : OnGrid 43 a.rot) (gr : OnGrid 43 r) :
    (a.rotate r).rot.val = (if 360 ≤ a.rot.val + r.val then a.rot.val + r.val - 360 else
      if a.rot.val + r.val < 0 then a.rot.val + r.val + 360 else a.rot.val + r.val) ∧
    Normal (a.rotate r).rot ∧ OnGrid 43 (a.rotate r).rot := by
  rw [Fl.normal_iff] at *
  rw [Fl.oneTurn_iff, abs_le] at hr
  obtain ⟨u, hu, eu⟩ := ga
  obtain ⟨v, hv, ev⟩ := gr
  obtain ⟨w, ew⟩ := Fl.angle_360
  have h1 : round64 (a.rot.val + r.val) = a.rot.val + r.val :=
    Fl.angle_exact ⟨u + v, by rw [eu, ev]; push_cast; ring⟩ (by rw [abs_le]; constructor <;> linarith)
  have h2 : 360 ≤ a.rot.val + r.val → round64 (a.rot.val + r.val - 360) = a.rot.val + r.val - 360 :=
    fun h => Fl.angle_exact ⟨u + v - w, by rw [ew, eu, ev]; push_cast; ring⟩
      (by rw [abs_le]; constructor <;> linarith)
  have h3 : a.rot.val + r.val < 0 → round64 (a.rot.val + r.val + 360) = a.rot.val + r.val + 360 :=
    fun h => Fl.angle_exact ⟨u + v + w, by rw [ew, eu, ev]; push_cast; ring⟩
      (by rw [abs_le]; constructor <;> linarith)
  have hv : (a.rotate r).rot.val = (if 360 ≤ a.rot.val + r.val then a.rot.val + r.val - 360 else
      if a.rot.val + r.val < 0 then a.rot.val + r.val + 360 else a.rot.val + r.val) := by
    rw [Fl.rotate_val]
    simp only [h1]
    by_cases c : 360 ≤ a.rot.val + r.val
    · have : ¬ a.rot.val + r.val - 360 < 0 := by linarith
      simp only [c, if_true, h2 c, this, if_false]
    · simp only [c, if_false]
      by_cases c2 : a.rot.val + r.val < 0
      · simp only [c2, if_true, h3 c2]
      · simp only [c2, if_false]
  have hn : 0 ≤ (a.rotate r).rot.val ∧ (a.rotate r).rot.val < 360 := by
    rw [hv]
    split
    · constructor <;> linarith
    · split <;> constructor <;> linarith
  refine ⟨hv, hn, ?_⟩
  have hz : ∃ z : Int, (a.rotate r).rot.val = z * pow2 (-43) := by
    rw [hv]
    split
    · exact ⟨u + v - w, by rw [ew, eu, ev]; push_cast; ring⟩
    · split
      · exact ⟨u + v + w, by rw [ew, eu, ev]; push_cast; ring⟩
      · exact ⟨u + v, by rw [eu, ev]; push_cast; ring⟩
  obtain ⟨z, hz⟩ := hz
  refine ⟨z, ?_, hz⟩
  have hq : |(a.rotate r).rot.val| ≤ 512 := by rw [abs_le]; constructor <;> linarith
  rw [hz, abs_mul, abs_of_pos (pow2_pos _)] at hq
  have e : pow2 (-43) = 1 / 2 ^ 43 := by rw [pow2_eq]; norm_num
  rw [e, mul_one_div, div_le_iff₀ (by norm_num)] at hq
  have : ((|z| : Int) : ℚ) ≤ ((2 ^ 52 : Int) : ℚ) := by rw [Int.cast_abs]; norm_num at hq ⊢; exact hq
  exact_mod_cast this

theorem Fl.rotate_back_grid (a : Fp.At Fl) (r : Fl) (ha : Normal a.rot) (hr : OneTurn r)
    (ga : OnGrid 43 a.rot) (gr : OnGrid 43 r) : (a.rotate r).rotate (neg r) = a := by
  obtain ⟨v1, n1, g1⟩ := Fl.rotate_grid a r ha hr ga gr
  have hr' : OneTurn (neg r) := by rw [Fl.oneTurn_iff] at *; rwa [Fl.neg_val, abs_neg]
  obtain ⟨v2, n2, -⟩ := Fl.rotate_grid (a.rotate r) (neg r) n1 hr' g1 gr.neg
  have hx : ((a.rotate r).rotate (neg r)).x = a.x := rfl
  have hy : ((a.rotate r).rotate (neg r)).y = a.y := rfl
  have hrot : ((a.rotate r).rotate (neg r)).rot = a.rot := by
    apply Fl.ext_val
    rw [Fl.normal_iff] at ha n2
    rw [v2, Fl.neg_val, v1] at *
    rw [Fl.oneTurn_iff, abs_le] at hr
    clear v1 v2
    split_ifs at * <;> linarith
  generalize (a.rotate r).rotate (neg r) = b at *
  cases a; cases b
  simp_all

/-- For angles that are multiples of 2^-43 degrees (whole degrees, halves,
quarters, ...), rotating by at most a full turn keeps every rotation between 0
and 360 (excluded), and rotating back restores the footprint, bit for bit. -/
theorem C81_rotate_on_grid (m : Fp.Module Fl) (r : Fl) (hr : OneTurn r) (gr : OnGrid 43 r)
    (hm : ∀ e ∈ m.elements, ∀ a, placement? e = some a → Normal a.rot ∧ OnGrid 43 a.rot) :
    (∀ e ∈ (m.rotate r).elements, ∀ a, placement? e = some a → Normal a.rot ∧ OnGrid 43 a.rot) ∧
    (m.rotate r).rotate (neg r) = m := by
  constructor
  · intro e he a ha
    obtain ⟨e', he', rfl⟩ := List.mem_map.1 he
    have := hm e' he'
    cases e' <;> simp_all [Fp.Elem.rotate, placement?]
    all_goals (subst ha; exact (Fl.rotate_grid _ r this.1 hr this.2 gr).2)
  · obtain ⟨n, es⟩ := m
    simp only [Fp.Module.rotate, Fp.Module.mk.injEq, true_and, List.map_map]
    simp only at hm
    conv => rhs; rw [← List.map_id es]
    apply List.map_congr_left
    intro e he
    have := hm e he
    cases e <;> simp_all [Fp.Elem.rotate, placement?, Fl.rotate_back_grid]

example : ∃ (m : Fp.Module Fl) (r : Fl), OneTurn r ∧ OnGrid 43 r ∧
    (∀ e ∈ m.elements, ∀ a, placement? e = some a → Normal a.rot ∧ OnGrid 43 a.rot) ∧
    (m.rotate r).elements.map (fun e => (placement? e).map fun a => toStr a.rot) = [some (str! "67.5")] := by
  refine ⟨⟨[], [.at_ ⟨lit 1 0, zero, lit 270 0⟩]⟩, lit 1575 1, ?_, ?_, ?_, by decide +kernel⟩
  · unfold OneTurn; decide +kernel
  · exact ⟨1575 * 2 ^ 43 / 10, by decide +kernel, by decide +kernel⟩
  · simp only [List.mem_singleton, forall_eq, placement?, Option.some.injEq]
    rintro _ rfl
    refine ⟨?_, 270 * 2 ^ 43, by decide +kernel, by decide +kernel⟩
    unfold Normal; decide +kernel

/-- Off the grid the range is only 0 to 360 included: a tiny negative rotation of
an unrotated footprint gives 360 degrees, which the code never reduces to 0. -/
theorem C81_rotate_reaches_360 : ∃ (a : Fp.At Fl) (r : Fl), Normal a.rot ∧ OneTurn r ∧
    ¬ Normal (a.rotate r).rot ∧ toStr (a.rotate r).rot = str! "360" := by
  refine ⟨⟨zero, zero, zero⟩, neg (lit 1 20), ?_, ?_, ?_, by decide +kernel⟩ <;>
    (try unfold Normal) <;> (try unfold OneTurn) <;> decide +kernel

/-- 0.1 degrees, rotated by 90 and back, is 0.09999999999999432. -/
theorem C81_rotate_back_drifts : ∃ (a : Fp.At Fl) (r : Fl), Normal a.rot ∧ OneTurn r ∧
    (a.rotate r).rotate (neg r) ≠ a ∧
    toStr ((a.rotate r).rotate (neg r)).rot = str! "0.09999999999999432" := by
  refine ⟨⟨zero, zero, lit 1 1⟩, lit 90 0, ?_, ?_, ?_, by decide +kernel⟩ <;>
    (try unfold Normal) <;> (try unfold OneTurn) <;> decide +kernel

/-- For all angles, the range 0 to 360 (included) is kept, and the result is the
rotation asked for, up to a full turn and 2^-42 degrees. -/
theorem C81_rotate_near (a : Fp.At Fl) (r : Fl) (ha : 0 ≤ a.rot.val ∧ a.rot.val ≤ 360)
    (hr : OneTurn r) :
    (0 ≤ (a.rotate r).rot.val ∧ (a.rotate r).rot.val ≤ 360) ∧
    ∃ k : Int, (k = -1 ∨ k = 0 ∨ k = 1) ∧
      |(a.rotate r).rot.val - (a.rot.val + r.val + 360 * k)| ≤ pow2 (-42) := by
  rw [Fl.oneTurn_iff, abs_le] at hr
  have f720 : IsF64 720 := ⟨720, 0, by norm_num, by norm_num, by decide +kernel⟩
  have f360 : IsF64 360 := ⟨360, 0, by norm_num, by norm_num, by decide +kernel⟩
  have e1 := round64_rel ((multiple_of_isF64 a.rot.isF64).add (multiple_of_isF64 r.isF64))
  have s720 : round64 (a.rot.val + r.val) ≤ 720 := round64_le f720 (by linarith)
  have s360 : -360 ≤ round64 (a.rot.val + r.val) := le_round64 (isF64_neg f360) (by linarith)
  have hs := multiple_of_isF64 (round64_isF64 (a.rot.val + r.val))
  have hab : |a.rot.val + r.val| ≤ 720 := by rw [abs_le]; constructor <;> linarith
  rw [Fl.rotate_val]
  have e42 : pow2 (-42) = 2048 * pow2 (-53) := by
    rw [show (-42 : Int) = 11 + -53 by norm_num, pow2_add]; rfl
  have hw := pow2_pos (-53)
  rw [e42]
  have R : ∀ {x : ℚ}, Multiple x → |round64 x - x| ≤ |x| * pow2 (-53) := round64_rel
  generalize pow2 (-53) = w at *
  generalize round64 (a.rot.val + r.val) = s at *
  generalize a.rot.val + r.val = t at *
  have e1' : |s - t| ≤ 720 * w := le_trans e1 (mul_le_mul_of_nonneg_right hab (le_of_lt hw))
  by_cases c : 360 ≤ s
  · have e2 := R (hs.add (multiple_of_isF64 f360).neg)
    rw [← sub_eq_add_neg] at e2
    have r0 : 0 ≤ round64 (s - 360) := le_round64 isF64_zero (by linarith)
    have r1 : round64 (s - 360) ≤ 360 := round64_le f360 (by linarith)
    simp only [c, if_true, not_lt.2 r0, if_false]
    refine ⟨⟨r0, r1⟩, -1, Or.inl rfl, ?_⟩
    have h5 : |s - 360| ≤ 360 := by rw [abs_le]; constructor <;> linarith
    generalize round64 (s - 360) = u at *
    have e2' : |u - (s - 360)| ≤ 360 * w := le_trans e2 (mul_le_mul_of_nonneg_right h5 (le_of_lt hw))
    rw [abs_le] at *
    push_cast
    constructor <;> linarith
  · simp only [c, if_false]
    by_cases c2 : s < 0
    · have e2 := R (hs.add (multiple_of_isF64 f360))
      have r0 : 0 ≤ round64 (s + 360) := le_round64 isF64_zero (by linarith)
      have r1 : round64 (s + 360) ≤ 360 := round64_le f360 (by linarith)
      simp only [c2, if_true]
      refine ⟨⟨r0, r1⟩, 1, Or.inr (Or.inr rfl), ?_⟩
      have h5 : |s + 360| ≤ 360 := by rw [abs_le]; constructor <;> linarith
      generalize round64 (s + 360) = u at *
      have e2' : |u - (s + 360)| ≤ 360 * w := le_trans e2 (mul_le_mul_of_nonneg_right h5 (le_of_lt hw))
      rw [abs_le] at *
      push_cast
      constructor <;> linarith
    · simp only [c2, if_false]
      refine ⟨⟨by linarith, by linarith⟩, 0, Or.inr (Or.inl rfl), ?_⟩
      rw [abs_le] at *
      push_cast
      constructor <;> linarith

/-! ### Flipping -/

theorem Fl.sub360 (r : Fl) : (Flt.sub (lit 360 0) r).val = round64 (360 - r.val) := by
  show round64 ((lit 360 0 : Fl).val - r.val) = _
  rw [Fl.c360]

/-- Between a quarter turn and a full turn, the difference to a full turn is exact. -/
theorem Fl.sub360_exact {q : ℚ} (h : IsF64 q) (h1 : 180 ≤ q) (h2 : q ≤ 360) :
    IsF64 (360 - q) := by
  have hq := round64_of_isF64 h
  have h0 : q ≠ 0 := by intro hc; rw [hc] at h1; norm_num at h1
  have h3 := (expo_spec h0).2
  rw [abs_of_nonneg (by linarith)] at h3
  have h4 : pow2 7 < pow2 (expo q + 1) := lt_of_le_of_lt (le_trans (by rw [show pow2 7 = 128 from rfl]; norm_num) h1) h3
  have h5 := pow2_lt h4
  have h6 : -45 ≤ ulpExp q := by unfold ulpExp; omega
  obtain ⟨n, hn⟩ := Int.le.dest h6
  have hz : ∃ z : Int, q = z * pow2 (-45) := by
    refine ⟨rne (q / pow2 (ulpExp q)) * 2 ^ n, ?_⟩
    have : pow2 (ulpExp q) = pow2 (-45) * pow2 n := by rw [← pow2_add, hn]
    conv => lhs; rw [← hq]
    unfold round64
    generalize rne (q / pow2 (ulpExp q)) = v
    rw [this, pow2_nat]
    push_cast
    ring
  obtain ⟨z, hz⟩ := hz
  have e : pow2 (-45) = 1 / 2 ^ 45 := by rw [pow2_eq]; norm_num
  refine ⟨360 * 2 ^ 45 - z, -45, ?_, by omega, ?_⟩
  · have hz' : (z : ℚ) = q * 2 ^ 45 := by rw [hz, e]; field_simp
    have a1 : ((180 * 2 ^ 45 : Int) : ℚ) ≤ (z : ℚ) := by rw [hz']; push_cast; linarith
    have a2 : (z : ℚ) ≤ ((360 * 2 ^ 45 : Int) : ℚ) := by rw [hz']; push_cast; linarith
    have a1' : (180 * 2 ^ 45 : Int) ≤ z := by exact_mod_cast a1
    have a2' : z ≤ (360 * 2 ^ 45 : Int) := by exact_mod_cast a2
    rw [abs_le]
    constructor <;> omega
  · rw [hz, e]; push_cast; ring

/-- The angle after one flip and after three flips is the same. -/
theorem Fl.flip_thrice (r : Fl) (h : 0 ≤ r.val ∧ r.val ≤ 360) :
    Flt.sub (lit 360 0) (Flt.sub (lit 360 0) (Flt.sub (lit 360 0) r)) = Flt.sub (lit 360 0) r ∧
    CloseTo (pow2 (-45)) (Flt.sub (lit 360 0) (Flt.sub (lit 360 0) r)) r := by
  have f360 : IsF64 360 := ⟨360, 0, by norm_num, by norm_num, by decide +kernel⟩
  have f180 : IsF64 180 := ⟨180, 0, by norm_num, by norm_num, by decide +kernel⟩
  by_cases c : 180 ≤ r.val
  · have h1 : round64 (360 - r.val) = 360 - r.val := round64_of_isF64 (Fl.sub360_exact r.isF64 c h.2)
    have h2 : Flt.sub (lit 360 0) (Flt.sub (lit 360 0) r) = r := by
      apply Fl.ext_val
      rw [Fl.sub360, Fl.sub360, h1, sub_sub_cancel, r.ok]
    rw [h2]
    refine ⟨rfl, ?_⟩
    unfold CloseTo
    rw [sub_self, abs_zero]
    exact le_of_lt (pow2_pos _)
  · have s1 : 180 ≤ (Flt.sub (lit 360 0) r).val := by rw [Fl.sub360]; exact le_round64 f180 (by linarith)
    have s2 : (Flt.sub (lit 360 0) r).val ≤ 360 := by rw [Fl.sub360]; exact round64_le f360 (by linarith)
    have e1 : |(Flt.sub (lit 360 0) r).val - (360 - r.val)| ≤ pow2 (-45) := by
      rw [Fl.sub360]
      refine le_trans (round64_err _) ?_
      have : ulpExp (360 - r.val) ≤ -44 := by
        unfold ulpExp
        have h0 : 360 - r.val ≠ 0 := by intro hc; linarith
        have := (expo_spec h0).1
        rw [abs_of_nonneg (by linarith)] at this
        have := pow2_lt (a := expo (360 - r.val)) (b := 9)
          (lt_of_le_of_lt this (by rw [show pow2 9 = 512 from rfl]; linarith))
        omega
      have h3 := pow2_mono this
      have e : pow2 (-44) = 2 * pow2 (-45) := by
        rw [show (-44 : Int) = 1 + -45 by norm_num, pow2_add, pow2_one]
      linarith
    have hs := (Flt.sub (lit 360 0) r).isF64
    have hok := (Flt.sub (lit 360 0) r).ok
    generalize Flt.sub (lit 360 0) r = s at *
    have h1 : round64 (360 - s.val) = 360 - s.val := round64_of_isF64 (Fl.sub360_exact hs s1 s2)
    constructor
    · apply Fl.ext_val
      rw [Fl.sub360, Fl.sub360, h1, sub_sub_cancel, hok]
    · unfold CloseTo
      rw [Fl.sub360, h1]
      rw [abs_le] at *
      constructor <;> linarith

theorem Fl.at_flip_thrice (a : Fp.At Fl) (h : 0 ≤ a.rot.val ∧ a.rot.val ≤ 360) :
    a.flip.flip.flip = a.flip := by
  simp only [Fp.At.flip, Fl.neg_neg, (Fl.flip_thrice a.rot h).1]

/-- Flipping drifts at most once: for rotations between 0 and 360 degrees, three
flips are one flip, bit for bit, for every footprint, whatever the justification
of its texts. -/
theorem C81_flip_thrice (m : Fp.Module Fl)
    (hm : ∀ e ∈ m.elements, ∀ a, placement? e = some a → 0 ≤ a.rot.val ∧ a.rot.val ≤ 360) :
    m.flip.flip.flip = m.flip := by
  obtain ⟨n, es⟩ := m
  simp only [Fp.Module.flip, Fp.Module.mk.injEq, true_and, List.map_map]
  apply List.map_congr_left
  intro e he
  have := hm e he
  have X : ∀ p : Fp.Xy Fl, p.flip.flip = p := by intro p; simp [Fp.Xy.flip, Fl.neg_neg]
  have L := @Fp.layer_flip_flip
  cases e with
  | text t =>
    obtain ⟨n, v, a, l, ⟨f, j⟩, hd⟩ := t
    have h3 := Fl.at_flip_thrice a (this a rfl)
    clear this
    cases j <;> simp [Fp.Elem.flip, Fp.FpText.flip, Fp.Effects.flip, h3, L]
  | pad p =>
    have := this p.at_ rfl
    simp [Fp.Elem.flip, Fp.Pad.flip, Fl.at_flip_thrice _ this, Function.comp_def, L]
  | at_ p =>
    have := this p rfl
    simp [Fp.Elem.flip, Fl.at_flip_thrice _ this]
  | poly p => simp [Fp.Elem.flip, Fp.FpPoly.flip, Function.comp_def, L, X]
  | line p => simp [Fp.Elem.flip, Fp.FpLine.flip, L, X]
  | circle p => simp [Fp.Elem.flip, Fp.FpCircle.flip, L, X]
  | arc p => simp [Fp.Elem.flip, Fp.FpArc.flip, L, X]
  | layer p => simp [Fp.Elem.flip, L]
  | _ => rfl

/-- Flipping twice keeps the position of every element with a placement, bit for
bit, and its rotation up to 2^-45 degrees; rotations from 180 to 360 degrees and
those on the grid are kept bit for bit. -/
theorem C81_flip_twice_near (a : Fp.At Fl) (h : 0 ≤ a.rot.val ∧ a.rot.val ≤ 360) :
    (a.flip.flip.x = a.x ∧ a.flip.flip.y = a.y) ∧
    CloseTo (pow2 (-45)) a.flip.flip.rot a.rot ∧
    (180 ≤ a.rot.val ∨ OnGrid 43 a.rot → a.flip.flip = a) := by
  have hy : a.flip.flip.y = a.y := Fl.neg_neg a.y
  refine ⟨⟨rfl, hy⟩, (Fl.flip_thrice a.rot h).2, ?_⟩
  have f360 : IsF64 360 := ⟨360, 0, by norm_num, by norm_num, by decide +kernel⟩
  intro hc
  have h1 : round64 (360 - a.rot.val) = 360 - a.rot.val := by
    rcases hc with hc | ⟨u, hu, eu⟩
    · exact round64_of_isF64 (Fl.sub360_exact a.rot.isF64 hc h.2)
    · obtain ⟨w, ew⟩ := Fl.angle_360
      exact Fl.angle_exact ⟨w - u, by rw [ew, eu]; push_cast; ring⟩
        (by rw [abs_le]; constructor <;> linarith)
  have hr : a.flip.flip.rot = a.rot := by
    apply Fl.ext_val
    show (Flt.sub (lit 360 0) (Flt.sub (lit 360 0) a.rot)).val = _
    rw [Fl.sub360, Fl.sub360, h1, sub_sub_cancel, a.rot.ok]
  have hx : a.flip.flip.x = a.x := rfl
  generalize a.flip.flip = b at *
  cases a; cases b
  simp_all

/-- 0.1 degrees, flipped twice, is 0.10000000000002274. -/
theorem C81_flip_twice_drifts : ∃ a : Fp.At Fl, Normal a.rot ∧ a.flip.flip ≠ a ∧
    toStr a.flip.flip.rot = str! "0.10000000000002274" := by
  refine ⟨⟨zero, zero, lit 1 1⟩, ?_, ?_, by decide +kernel⟩
  · unfold Normal; decide +kernel
  · decide +kernel

example : ∃ m : Fp.Module Fl, m.flip.flip ≠ m ∧
    ∀ e ∈ m.elements, ∀ a, placement? e = some a → 0 ≤ a.rot.val ∧ a.rot.val ≤ 360 := by
  refine ⟨⟨[], [.at_ ⟨zero, zero, lit 1 1⟩]⟩, by decide +kernel, ?_⟩
  simp only [List.mem_singleton, forall_eq, placement?, Option.some.injEq]
  rintro _ rfl
  constructor <;> decide +kernel

/-! ### What needs no exact arithmetic holds as it is -/

example (s : Sch.Schematic Fl) (h : FitsSchematic s) :
    Sch.parseStr s.show = .ok { s with filename := none } := C01_roundtrip s h

example (l : Lib.SymbolLib Fl) (h : FitsLib l) (hb : ¬ HasBold l) :
    ∃ t, l.show = .ok t ∧ Lib.parseStr t = .ok l := C14_roundtrip l h hb

example (q : Str → Bool) (hq : QuotesWhenNeeded q) (m : Fp.Module Fl) (h : GoodModule m) :
    Fp.parse (Fp.toText q 0 m ++ []) = .ok m := C19_footprint_roundtrip q hq 0 m h [] (fun _ hc => by cases hc)

example (q : Str → Bool) (hq : QuotesWhenNeeded q) (l : Lay.Layout Fl) (h : SavableLayout l)
    (hc : CleanLayout l) : Lay.parse (Lay.toText q 0 l ++ []) = .ok l :=
  C35_layout_roundtrip q hq 0 l h hc [] (fun _ hc => by cases hc)

end Verif
