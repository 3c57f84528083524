import Verif.Spec.Nanometres
import Verif.Lemmas.NumberTexts
import Verif.Lemmas.ConvertPairs
import Verif.Lemmas.MoveConvert
import Verif.Lemmas.Coords
import Verif.Lemmas.Near
/-!
# How far moved boards drift

After `k` moves of up to a metre each coordinate is off by at most `2 k + 1` units of `2^-32`
millimetres, which is less than half a nanometre for a thousand moves.
-/

namespace Verif
open Flt Spec Fp64

/-- Within an error of a number of nanometres. -/
def Off (e : ℚ) (x : F64) (c : Nm) : Prop := ∃ y h, x = .fin y h ∧ |y.val - (c.n : ℚ) / 10 ^ 6| ≤ e

/-- The unit of the error. -/
def unit32 : ℚ := 1 / 4294967296

theorem round_unit {q : ℚ} (h : |q| ≤ 2 ^ 20) : |round64 q - q| ≤ unit32 := by
  have h1 := round64_abs q
  have h2 : |q| * pow2 (-53) ≤ 2 ^ 20 * pow2 (-53) := mul_le_mul_of_nonneg_right h (le_of_lt (pow2_pos _))
  have h3 : pow2 (-1075) ≤ pow2 (-53) := pow2_mono (by norm_num)
  have h4 : pow2 (-53) = 1 / 9007199254740992 := by rw [pow2_eq]; norm_num
  rw [h4] at h1 h2 h3
  unfold unit32
  norm_num at h1 h2 h3 ⊢
  linarith

theorem of_small {q : ℚ} (h : |q| ≤ 2 ^ 20) : ∃ hb, F64.of q = .fin (Fl.of q) hb := by
  have hb : |(Fl.of q).val| < pow2 1024 := by
    have h1 := round_unit h
    have h2 : |(Fl.of q).val| ≤ 2 ^ 20 + 1 := by
      rw [val_of]
      have := abs_le.1 h1
      have := abs_le.1 h
      unfold unit32 at *
      rw [abs_le]
      constructor <;> linarith
    have h3 : pow2 21 < pow2 1024 := Coord.pow2_strict (by norm_num)
    have h4 : pow2 21 = 2097152 := by rw [pow2_eq]; norm_num
    refine lt_of_le_of_lt h2 (lt_trans ?_ h3)
    rw [h4]
    norm_num
  exact ⟨hb, of_within hb⟩

theorem off_near (c : Metre) : Off unit32 c.near c.exact := by
  have hc : |c.value| ≤ 2 ^ 20 := by
    obtain ⟨n, h⟩ := c
    have h1 := abs_le.1 h
    have h2 : (n : ℚ) ≤ 1000000000 := by exact_mod_cast h1.2
    have h3 : (-1000000000 : ℚ) ≤ n := by exact_mod_cast h1.1
    unfold Metre.value
    rw [abs_le]
    constructor
    · rw [le_div_iff₀ (by norm_num)]; norm_num; linarith
    · rw [div_le_iff₀ (by norm_num)]; norm_num; linarith
  obtain ⟨hb, e⟩ := of_small hc
  refine ⟨_, hb, e, ?_⟩
  rw [val_of]
  exact round_unit hc

theorem off_add {a b : ℚ} {x d : F64} {c m : Nm} (hx : Off a x c) (hd : Off b d m) (h : |c.n + m.n| ≤ 1001000000000)
    (hab : a + b ≤ 1) : Off (a + b + unit32) (add x d) (add c m) := by
  obtain ⟨y, hy, rfl, ey⟩ := hx
  obtain ⟨z, hz, rfl, ez⟩ := hd
  have h1 := abs_le.1 ey
  have h2 := abs_le.1 ez
  have h3 := abs_le.1 h
  have h4 : (c.n : ℚ) + m.n ≤ 1001000000000 := by exact_mod_cast h3.2
  have h5 : (-1001000000000 : ℚ) ≤ c.n + m.n := by exact_mod_cast h3.1
  have hs : |y.val + z.val| ≤ 2 ^ 20 := by
    rw [abs_le]
    norm_num at h1 h2 ⊢
    constructor <;> linarith
  obtain ⟨hb, e⟩ := of_small hs
  refine ⟨_, hb, e, ?_⟩
  have h6 := abs_le.1 (round_unit hs)
  rw [val_of]
  show |_ - ((c.n + m.n : Int) : ℚ) / 10 ^ 6| ≤ _
  push_cast
  rw [abs_le, add_div]
  constructor <;> linarith

theorem off_nm {a : ℚ} {n : Number} {c : Nm} (h : Off a n.near c) (hc : |c.n| ≤ 1001000000000)
    (ha : a ≤ 2001 * unit32) : n.nm = c := by
  obtain ⟨y, hy, e, ey⟩ := h
  cases n with
  | nan => exact nomatch e
  | inf s => exact nomatch e
  | fin v =>
    have hv : y = Fl.of v := by
      by_cases hb : |(Fl.of v).val| < pow2 1024
      · have := (of_within hb).symm.trans e
        exact (F64.fin.inj this).symm
      · exact nomatch (of_beyond hb).symm.trans e
    subst hv
    rw [val_of] at ey
    have h1 := abs_le.1 ey
    have h3 := abs_le.1 hc
    have h4 : (c.n : ℚ) ≤ 1001000000000 := by exact_mod_cast h3.2
    have h5 : (-1001000000000 : ℚ) ≤ c.n := by exact_mod_cast h3.1
    have hu : unit32 = 1 / 4294967296 := rfl
    have e20 : pow2 20 = 2 ^ 20 := by rw [pow2_eq]; norm_num
    have hs : |v| ≤ 2 ^ 20 := by
      have hp := Coord.isF64_pow2 20 (by norm_num)
      rw [abs_le]
      constructor
      · by_contra hlt
        have := round64_le (isF64_neg hp) (show v ≤ -pow2 20 by rw [e20]; linarith)
        rw [e20] at this
        norm_num at h1 this
        linarith
      · by_contra hlt
        have := le_round64 hp (show pow2 20 ≤ v by rw [e20]; linarith)
        rw [e20] at this
        norm_num at h1 this
        linarith
    have h6 := abs_le.1 (round_unit hs)
    unfold Number.nm
    obtain ⟨k⟩ := c
    refine congrArg Nm.mk ?_
    dsimp only at *
    rw [Int.floor_eq_iff]
    norm_num at h1 h6 ⊢
    constructor <;> linarith

theorem unit32_pos : 0 < unit32 := by unfold unit32; norm_num

/-- A coordinate after some moves: what it is and what it should be. -/
structure Tracked (k : Nat) where
  is : F64
  should : Nm
  off : Off ((2 * k + 1) * unit32) is should
  small : |should.n| ≤ 1000000000 * (k + 1)

/-- A coordinate that is not moved. -/
def Tracked.stay {k : Nat} (p : Tracked k) : Tracked (k + 1) where
  is := p.is
  should := p.should
  off := by
    obtain ⟨y, hy, e, ey⟩ := p.off
    refine ⟨y, hy, e, le_trans ey ?_⟩
    have := unit32_pos
    push_cast
    linarith
  small := by
    have := p.small
    push_cast
    omega

/-- A coordinate that is moved. -/
def Tracked.move {k : Nat} (hk : k < 1000) (d : Metre) (p : Tracked k) : Tracked (k + 1) :=
  have hb : |p.should.n + d.exact.n| ≤ 1000000000 * ((k : Int) + 1 + 1) := by
    have h1 := abs_le.1 p.small
    have h2 := abs_le.1 d.2
    rw [abs_le]
    show _ ≤ p.should.n + d.1 ∧ p.should.n + d.1 ≤ _
    constructor <;> linarith
  { is := add p.is d.near
    should := add p.should d.exact
    off := by
      have hk' : ((k : Nat) : ℚ) ≤ 999 := by exact_mod_cast (by omega : k ≤ 999)
      have := off_add p.off (off_near d) (le_trans hb (by omega)) (by unfold unit32; linarith)
      have e : (2 * (k : ℚ) + 1) * unit32 + unit32 + unit32 = (2 * ((k + 1 : Nat) : ℚ) + 1) * unit32 := by
        push_cast
        ring
      rwa [e] at this
    small := by
      push_cast
      exact hb }

/-- Moving a board `k` times: both boards are images of one board of tracked coordinates. -/
theorem moveAll_tracked (l : Lay.Layout Metre) : ∀ moves : List (Metre × Metre), moves.length ≤ 1000 →
    ∃ z : Lay.Layout (Tracked moves.length), z.conv Tracked.is = moveAll Metre.near moves (l.conv Metre.near) ∧
      z.conv Tracked.should = moveAll Metre.exact moves (l.conv Metre.exact) := by
  intro moves
  induction moves using List.reverseRecOn with
  | nil =>
    intro _
    refine ⟨l.conv fun c => ⟨c.near, c.exact, ?_, ?_⟩, Lay.Layout.conv_conv _ _ _, Lay.Layout.conv_conv _ _ _⟩
    · have := off_near c
      simpa using this
    · have : |c.exact.n| ≤ 1000000000 := c.2
      simpa using this
  | append_singleton moves d ih =>
    intro hk
    rw [List.length_append, List.length_singleton] at hk
    obtain ⟨z, h1, h2⟩ := ih (by omega)
    have hk' : moves.length < 1000 := by omega
    have e : (moves ++ [d]).length = moves.length + 1 := by simp
    rw [e]
    refine ⟨z.spread Tracked.stay (Tracked.move hk' d.1) (Tracked.move hk' d.2), ?_, ?_⟩
    · refine (Lay.Layout.spread_conv (f := Tracked.stay) (fx := Tracked.move hk' d.1) (fy := Tracked.move hk' d.2)
        (h := Tracked.is) (X := d.1.near) (Y := d.2.near) (fun _ => rfl) (fun _ => rfl)
        (fun _ => rfl) z).trans ?_
      rw [h1]
      simp only [moveAll, List.foldl_append, List.foldl_cons, List.foldl_nil]
    · refine (Lay.Layout.spread_conv (f := Tracked.stay) (fx := Tracked.move hk' d.1) (fy := Tracked.move hk' d.2)
        (h := Tracked.should) (X := d.1.exact) (Y := d.2.exact) (fun _ => rfl) (fun _ => rfl)
        (fun _ => rfl) z).trans ?_
      rw [h2]
      simp only [moveAll, List.foldl_append, List.foldl_cons, List.foldl_nil]

/-- Whatever is read as the moved board means, in nanometres, the exactly moved board. -/
theorem moveAll_nm (l : Lay.Layout Metre) (moves : List (Metre × Metre)) (hk : moves.length ≤ 1000) (r : Lay.Layout Number)
    (hr : r.conv Number.near = moveAll Metre.near moves (l.conv Metre.near)) :
    r.conv Number.nm = moveAll Metre.exact moves (l.conv Metre.exact) := by
  obtain ⟨z, h1, h2⟩ := moveAll_tracked l moves hk
  rw [← h2]
  refine Lay.Layout.pairs (f := Number.near) (g := Tracked.is) ?_ (hr.trans h1.symm)
  intro n p e
  have hk' : ((moves.length : Nat) : ℚ) ≤ 1000 := by exact_mod_cast hk
  refine off_nm (a := (2 * (moves.length : ℚ) + 1) * unit32) (e ▸ p.off) (le_trans p.small (by omega)) ?_
  have := unit32_pos
  exact mul_le_mul_of_nonneg_right (by linarith) (le_of_lt this)

end Verif
