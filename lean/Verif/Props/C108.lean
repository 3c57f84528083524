import Verif.Lemmas.Drift
import Verif.Props.C64
import Verif.Props.C105
import Verif.Props.C107
/-!
# C108: a moved board is moved exactly, for an editor that computes in nanometres

Coordinates are `f64`s, so adding an offset rounds, and the saved numbers need not be the sums of the
numbers before (`C105_sums_not_plain`).  To the nanometre they are.
-/

namespace Verif
open Flt Spec Files Prog

/-- A number of up to a metre is among the numbers of C105. -/
def Spec.Metre.coord (c : Metre) : Coord := ⟨c.1, by have := abs_le.1 c.2; omega, by have := abs_le.1 c.2; omega⟩

theorem moveAll_savable (moves : List (Metre × Metre)) (l : Lay.Layout F64) (h : SavableLayout l) (hc : CleanLayout l) :
    SavableLayout (moveAll Metre.near moves l) ∧ CleanLayout (moveAll Metre.near moves l) := by
  refine C60_edits_keep_savable (moves.map fun d => .move d.1.near d.2.near) ?_ l _ h hc ?_
  · intro e he
    obtain ⟨d, _, rfl⟩ := List.mem_map.1 he
    trivial
  · clear h hc
    induction moves generalizing l with
    | nil => rfl
    | cons d ds ih => simp only [List.map_cons, runBoard, BoardEdit.run]; exact ih _

theorem near_savable (l : Lay.Layout Metre) (h : SavableLayout (l.conv Metre.exact)) (hc : CleanLayout l) :
    SavableLayout (l.conv Metre.near) ∧ CleanLayout (l.conv Metre.near) := by
  have e1 : l.conv Metre.exact = (l.conv Metre.coord).conv Coord.exact := (Lay.Layout.conv_conv Metre.coord Coord.exact l).symm
  have e2 : l.conv Metre.near = (l.conv Metre.coord).conv Coord.near := (Lay.Layout.conv_conv Metre.coord Coord.near l).symm
  rw [e2]
  rw [e1] at h
  exact ⟨Coord.alike.savable Coord.exact_injective h, Alike.clean _ (Alike.clean _ hc)⟩

/-- A board in whole nanometres, moved up to a thousand times by whole nanometres and saved: the saved
file means, to the nanometre, the exactly moved board. -/
theorem C108_moved (q : Str → Bool) (hq : QuotesWhenNeeded q) (level : Int) (l : Lay.Layout Metre)
    (h : SavableLayout (l.conv Metre.exact)) (hc : CleanLayout l) (moves : List (Metre × Metre)) (hk : moves.length ≤ 1000) :
    ∃ r : Lay.Layout Number, Lay.parse (Lay.toText q level (moveAll Metre.near moves (l.conv Metre.near))) = .ok r ∧
      r.conv Number.nm = moveAll Metre.exact moves (l.conv Metre.exact) := by
  obtain ⟨h1, h2⟩ := near_savable l h hc
  obtain ⟨h3, h4⟩ := moveAll_savable moves _ h1 h2
  have hr := C35_layout_roundtrip q hq level _ h3 h4 [] Sexp.Text.blank_nil
  rw [List.append_nil, C107_layout] at hr
  rcases hp : (Lay.parse (Lay.toText q level (moveAll Metre.near moves (l.conv Metre.near))) : Res (Lay.Layout Number)) with
    r | _ | _ | _
  · rw [hp] at hr
    exact ⟨r, rfl, moveAll_nm l moves hk r (Res.ok.inj hr)⟩
  all_goals rw [hp] at hr; cases hr

/-- Moves in whole nanometres add up. -/
theorem C108_sum (l : Lay.Layout Nm) (moves : List (Metre × Metre)) :
    moveAll Metre.exact moves l = l.adjust ⟨(moves.map fun d => d.1.n).sum⟩ ⟨(moves.map fun d => d.2.n).sum⟩ := by
  induction moves generalizing l with
  | nil => exact (C43_adjust_zero l).symm
  | cons d ms ih =>
    have e : moveAll Metre.exact (d :: ms) l = moveAll Metre.exact ms (l.adjust d.1.exact d.2.exact) := rfl
    rw [e, ih, (C43_adjust_add _ _ _ _ _).1, List.map_cons, List.map_cons, List.sum_cons, List.sum_cons]
    rfl

/-- 100 millimetres. -/
def Spec.Metre.step : Metre := ⟨100000000, by decide⟩

/-- No distance. -/
def Spec.Metre.none : Metre := ⟨0, by decide⟩

theorem step_near : Metre.step.near = lit 100 0 ∧ Metre.none.near = zero := by
  constructor <;> refine congrArg F64.of ?_ <;> simp [Metre.value, Metre.step, Metre.none, Fp64.pow10] <;> norm_num

/-- The program `adjust_layout`, run up to a thousand times on its own output: the last output means, to
the nanometre, the board moved by 100 millimetres for each run. -/
theorem C108_program (q : Str → Bool) (hq : QuotesWhenNeeded q) (name : Str) (n : Nat) (hn : n ≤ 1000) (d : Disk)
    (l : Lay.Layout Metre) (h : SavableLayout (l.conv Metre.exact)) (hc : CleanLayout l)
    (hd : readLayout d name = .ok (l.conv Metre.number)) :
    ∃ ds : Nat → Disk, ds 0 = d ∧
      (∀ i, i < n → ∃ r, adjustLayout F64 q (ds i) [name] = .ok r ∧ ds (i + 1) = redirect r name (ds i)) ∧
      ∃ r : Lay.Layout Number, readLayout (ds n) name = .ok r ∧
        r.conv Number.nm = (l.conv Metre.exact).adjust ⟨100000000 * n⟩ ⟨0⟩ := by
  obtain ⟨h1, h2⟩ := near_savable l h hc
  have hd' : readLayout d name = .ok (l.conv Metre.near) := by
    obtain ⟨t, ht, hp⟩ := ((C47_typed_readers d name).2.2.1 _).1 hd
    refine ((C47_typed_readers d name).2.2.1 _).2 ⟨t, ht, ?_⟩
    rw [C107_layout, hp]
    exact congrArg Res.ok (Lay.Layout.conv_conv _ _ _)
  obtain ⟨ds, d0, dr, dn⟩ := C64_adjust_repeated q hq name n d _ h1 h2 hd'
  refine ⟨ds, d0, dr, ?_⟩
  have it : ∀ (n : Nat) (l : Lay.Layout F64), (fun l : Lay.Layout F64 => l.adjust (lit 100 0) zero)^[n] l =
      moveAll Metre.near (List.replicate n (Metre.step, Metre.none)) l := by
    intro n
    induction n with
    | zero => intro l; rfl
    | succ n ih =>
      intro l
      rw [Function.iterate_succ, Function.comp, ih, List.replicate_succ, ← step_near.1, ← step_near.2]
      rfl
  rw [it] at dn
  obtain ⟨t, ht, hp⟩ := ((C47_typed_readers (ds n) name).2.2.1 _).1 dn
  rw [C107_layout] at hp
  rcases hp' : (Lay.parse t : Res (Lay.Layout Number)) with r | _ | _ | _
  · rw [hp'] at hp
    refine ⟨r, ((C47_typed_readers (ds n) name).2.2.1 _).2 ⟨t, ht, hp'⟩, ?_⟩
    rw [moveAll_nm l _ (by rw [List.length_replicate]; exact hn) r (Res.ok.inj hp), C108_sum]
    congr 2
    · simp [Metre.step, mul_comm]
    · simp [Metre.none]
  all_goals rw [hp'] at hp; cases hp

/-! ## Sample -/

/-- A number of nanometres, if it is small enough. -/
def Spec.Metre.clip (x : Nm) : Metre :=
  if h : |x.n| ≤ 1000000000 then ⟨x.n, h⟩ else .none

example : SavableLayout ((Spec.sampleLayout.conv Metre.clip).conv Metre.exact) ∧ CleanLayout (Spec.sampleLayout.conv Metre.clip) := by
  have e : (Spec.sampleLayout.conv Metre.clip).conv Metre.exact = Spec.sampleLayout := rfl
  exact ⟨by rw [e]; exact Spec.sampleLayout_savable, Alike.clean Metre.clip Spec.sampleLayout_clean⟩

/-- The numbers themselves are not the sums: 0.1 moved by 0.2. -/
example : toStr (add (Metre.near ⟨100000, by decide⟩) (Metre.near ⟨200000, by decide⟩)) = str! "0.30000000000000004" ∧
    (Number.fin (30000000000000004 / 10 ^ 17)).nm = ⟨300000⟩ := by
  decide +kernel

end Verif
