import Verif.Spec.Footprint
import Verif.Lemmas.Exact
import Verif.Basic.Nm
/-!
# C24: rotating a footprint
-/

namespace Verif
open Flt Fp Spec

variable {F : Type} [Flt F]

/-- A rotation of at most one full turn, either way. -/
def Spec.OneTurn (r : F) : Prop := le (neg (lit 360 0)) r = true ∧ le r (lit 360 0) = true

/-- The code's way to bring an angle back into range. -/
theorem Fp.rotate_cases [ExactLaws F] (a : At F) (r : F) (ha : Normal a.rot) (hr : OneTurn r) :
    Normal (a.rotate r).rot ∧
    ((a.rotate r).rot = add a.rot r ∨ (a.rotate r).rot = sub (add a.rot r) (lit 360 0) ∨
      (a.rotate r).rot = add (add a.rot r) (lit 360 0)) := by
  obtain ⟨h0, h1⟩ := ha
  obtain ⟨r0, r1⟩ := hr
  have c0 : lt (zero : F) (lit 360 0) = true := ExactLaws.lit_pos 360 (by decide)
  simp only [At.rotate]
  by_cases hc : le (lit 360 0) (add a.rot r) = true
  · have n0 : le zero (sub (add a.rot r) (lit 360 0)) = true := by
      rw [Exact.le_sub_iff, Exact.zero_add]; exact hc
    simp only [hc, if_true, Exact.not_lt_of_le n0, Bool.false_eq_true, if_false]
    refine ⟨⟨n0, ?_⟩, by simp⟩
    rw [Exact.sub_lt_iff]
    exact Exact.lt_of_lt_of_le (by rw [Exact.lt_add_iff]; exact h1) (Exact.add_le_add_left _ r1)
  · have hc' : lt (add a.rot r) (lit 360 0) = true := by
      rw [OrdLaws.lt_eq]; simpa using hc
    simp only [hc, Bool.false_eq_true, if_false]
    by_cases hn : lt (add a.rot r) zero = true
    · simp only [hn, if_true]
      refine ⟨⟨?_, ?_⟩, by simp⟩
      · have : le (neg (lit 360 0)) (add a.rot r) = true := by
          refine OrdLaws.le_trans _ _ _ r0 ?_
          rw [ExactLaws.add_comm]; exact MonoLaws.add_nonneg _ _ h0
        have := MonoLaws.add_mono _ _ (lit 360 0) this
        rwa [Exact.neg_add] at this
      · have := Exact.lt_add_iff (add a.rot r) zero (lit 360 0)
        rw [hn, Exact.zero_add] at this
        exact this
    · simp only [hn, Bool.false_eq_true, if_false]
      refine ⟨⟨Flt.le_of_not_lt (by simpa using hn), hc'⟩, by simp⟩

/-- Two normal angles that agree up to a full turn are the same. -/
theorem Fp.normal_unique [ExactLaws F] {a b : F} (ha : Normal a) (hb : Normal b)
    (h : a = b ∨ add a (lit 360 0) = b ∨ a = add b (lit 360 0)) : a = b := by
  rcases h with h | h | h
  · exact h
  · exfalso
    have h1 : le (lit 360 0) b = true := by
      rw [← h, ExactLaws.add_comm]; exact MonoLaws.add_nonneg _ _ ha.1
    rw [Exact.not_le_of_lt hb.2] at h1; exact absurd h1 (by decide)
  · exfalso
    have h1 : le (lit 360 0) a = true := by
      rw [h, ExactLaws.add_comm]; exact MonoLaws.add_nonneg _ _ hb.1
    rw [Exact.not_le_of_lt ha.2] at h1; exact absurd h1 (by decide)

theorem Fp.neg_oneTurn [ExactLaws F] {r : F} (h : OneTurn r) : OneTurn (neg r) := by
  have key : ∀ a b : F, le a b = true → le (neg b) (neg a) = true := by
    intro a b h
    have := MonoLaws.add_mono _ _ (add (neg a) (neg b)) h
    rw [← ExactLaws.add_assoc, ExactLaws.add_neg, Exact.zero_add,
      ExactLaws.add_comm (neg a), ← ExactLaws.add_assoc, ExactLaws.add_neg, Exact.zero_add] at this
    exact this
  refine ⟨key _ _ h.2, ?_⟩
  have := key _ _ h.1
  rwa [Exact.neg_neg] at this

theorem Fp.at_rotate_back [ExactLaws F] (a : At F) (r : F) (ha : Normal a.rot) (hr : OneTurn r) :
    (a.rotate r).rotate (neg r) = a := by
  obtain ⟨n1, c1⟩ := Fp.rotate_cases a r ha hr
  obtain ⟨n2, c2⟩ := Fp.rotate_cases (a.rotate r) (neg r) n1 (Fp.neg_oneTurn hr)
  have hx : ((a.rotate r).rotate (neg r)).x = a.x := rfl
  have hy : ((a.rotate r).rotate (neg r)).y = a.y := rfl
  have hrot : ((a.rotate r).rotate (neg r)).rot = a.rot := by
    generalize ((a.rotate r).rotate (neg r)).rot = z at *
    generalize (a.rotate r).rot = y at *
    have A := @ExactLaws.add_assoc F _ _
    have C := @ExactLaws.add_comm F _ _
    have c0 : lt (zero : F) (lit 360 0) = true := ExactLaws.lit_pos 360 (by decide)
    generalize hcc : (lit 360 0 : F) = c at *
    have e1 : ∀ u : F, add (add (add u r) c) (neg r) = add u c := by
      intro u; rw [A, A, C c, ← A r, ExactLaws.add_neg, Exact.zero_add]
    have e2 : ∀ u : F, add (add (add u r) (neg c)) (neg r) = add u (neg c) := by
      intro u; rw [A, A, C (neg c), ← A r, ExactLaws.add_neg, Exact.zero_add]
    have nz : Normal z := n2
    have two : ∀ u : F, add (add u c) c = z → Normal u → False := by
      intro u h hu
      have h1 : le c z = true := by
        rw [← h, C]; refine MonoLaws.add_nonneg _ _ ?_
        exact OrdLaws.le_trans _ _ _ hu.1 (MonoLaws.add_nonneg _ _ (Flt.le_of_lt c0))
      have := nz.2
      rw [hcc] at this
      rw [Exact.not_le_of_lt this] at h1; exact absurd h1 (by decide)
    have two' : ∀ u : F, add (add u (neg c)) (neg c) = z → Normal u → False := by
      intro u h hu
      have h1 : u = add (add z c) c := by rw [← h, Exact.neg_add_cancel_right, Exact.neg_add_cancel_right]
      have h2 : le c u = true := by
        rw [h1, C]; refine MonoLaws.add_nonneg _ _ ?_
        exact OrdLaws.le_trans _ _ _ nz.1 (MonoLaws.add_nonneg _ _ (Flt.le_of_lt c0))
      have := hu.2
      rw [hcc] at this
      rw [Exact.not_le_of_lt this] at h2; exact absurd h2 (by decide)
    rcases c1 with c1 | c1 | c1 <;> rcases c2 with c2 | c2 | c2 <;>
      simp only [c1, ExactLaws.sub_eq, e1, e2, Exact.add_neg_cancel_right] at c2
    · exact c2
    · refine Fp.normal_unique nz ha (Or.inr (Or.inl ?_))
      rw [hcc, c2, Exact.neg_add_cancel_right]
    · refine Fp.normal_unique nz ha (Or.inr (Or.inr ?_))
      rw [hcc, c2]
    · refine Fp.normal_unique nz ha (Or.inr (Or.inl ?_))
      rw [hcc, c2, Exact.neg_add_cancel_right]
    · exact (two' _ c2.symm ha).elim
    · rwa [Exact.neg_add_cancel_right] at c2
    · refine Fp.normal_unique nz ha (Or.inr (Or.inr ?_))
      rw [hcc, c2]
    · exact c2
    · exact (two _ c2.symm ha).elim
  generalize (a.rotate r).rotate (neg r) = b at *
  cases a; cases b
  simp_all

/-- Rotating by at most a full turn keeps every rotation between 0 (included)
and 360 (excluded), and it is the rotation asked for up to a full turn. -/
theorem C24_rotate_normal [ExactLaws F] (m : Module F) (r : F) (hr : OneTurn r)
    (hm : ∀ e ∈ m.elements, ∀ a, placement? e = some a → Normal a.rot) :
    (∀ e ∈ (m.rotate r).elements, ∀ a, placement? e = some a → Normal a.rot) ∧
    ∀ (i : Nat) (e : Elem F) (a : At F), m.elements[i]? = some e → placement? e = some a →
      ∃ e' a', (m.rotate r).elements[i]? = some e' ∧ placement? e' = some a' ∧
        (a'.rot = add a.rot r ∨ a'.rot = sub (add a.rot r) (lit 360 0) ∨
          a'.rot = add (add a.rot r) (lit 360 0)) := by
  constructor
  · intro e he a ha
    obtain ⟨e', he', rfl⟩ := List.mem_map.1 he
    have := hm e' he'
    cases e' <;> simp_all [Elem.rotate, placement?]
    all_goals (subst ha; exact (Fp.rotate_cases _ r this hr).1)
  · intro i e a he ha
    have hn := hm e (List.mem_of_getElem? he) a ha
    refine ⟨e.rotate r, a.rotate r, by simp [Module.rotate, he], ?_, (Fp.rotate_cases a r hn hr).2⟩
    cases e <;> simp_all [Elem.rotate, placement?]

/-- Rotating there and back restores the footprint. -/
theorem C24_rotate_back [ExactLaws F] (m : Module F) (r : F) (hr : OneTurn r)
    (hm : ∀ e ∈ m.elements, ∀ a, placement? e = some a → Normal a.rot) :
    (m.rotate r).rotate (neg r) = m := by
  obtain ⟨n, es⟩ := m
  simp only [Module.rotate, Module.mk.injEq, true_and, List.map_map]
  simp only at hm
  induction es with
  | nil => rfl
  | cons e es ih =>
    rw [List.forall_mem_cons] at hm
    rw [List.map_cons, ih hm.2]
    congr 1
    have := hm.1
    cases e <;> simp_all [Elem.rotate, placement?, Fp.at_rotate_back]

example : ∃ (m : Module Nm) (r : Nm), OneTurn r ∧
    (∀ e ∈ m.elements, ∀ a, placement? e = some a → Normal a.rot) ∧ m.rotate r ≠ m := by
  refine ⟨⟨[], [.at_ ⟨⟨1⟩, ⟨2⟩, ⟨270000000⟩⟩]⟩, ⟨180000000⟩, by unfold OneTurn; decide, ?_, by decide⟩
  simp only [List.mem_singleton, forall_eq, placement?, Option.some.injEq]
  rintro _ rfl
  unfold Normal
  decide

/-- Rotation changes nothing but rotations: no position, size, net, layer, order
or anything else, for any angle. -/
theorem C24_rotate_only (m : Module F) (r : F) :
    (m.rotate r).name = m.name ∧
    (m.rotate r).elements.map eraseRotation = m.elements.map eraseRotation := by
  refine ⟨rfl, ?_⟩
  simp only [Module.rotate, List.map_map]
  apply List.map_congr_left
  intro e _
  cases e <;> rfl

end Verif
