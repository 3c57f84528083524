import Verif.Basic.Fl
/-!
# All of f64

`F64` adds to the finite numbers of `Verif.Basic.Fl` the largest exponent, the two
infinities and NaN.  The payloads of NaN and the sign of zero are not modelled:
nothing in the code looks at them (`Display` of the Rust versions the project was
written for prints `0` for `-0.0`).
-/

namespace Verif

open Fp64

/-- An `f64`. -/
inductive F64 where
  | nan
  /-- an infinity, `true` for the negative one -/
  | inf (neg : Bool)
  | fin (a : Fl) (h : |a.val| < pow2 1024)
  deriving DecidableEq

namespace F64

/-- The number nearest to a rational number; an infinity beyond the largest one. -/
def of (q : ℚ) : F64 :=
  if h : |(Fl.of q).val| < pow2 1024 then .fin (Fl.of q) h else .inf (decide (q < 0))

/-- A letter in lower case. -/
def lower (c : Char) : Char :=
  if 'A'.toNat ≤ c.toNat ∧ c.toNat ≤ 'Z'.toNat then Char.ofNat (c.toNat + 32) else c

/-- `Display`. -/
def toStr : F64 → Str
  | .nan => str! "NaN"
  | .inf true => str! "-inf"
  | .inf false => str! "inf"
  | .fin a _ => Fl.toStr a

/-- `FromStr`: a decimal number, or one of the words `inf`, `infinity` and `nan`
in any mixture of capital and small letters, after an optional sign. -/
def ofStr (s : Str) : Option F64 :=
  let neg := (splitSign s).1
  let body := (splitSign s).2
  if body.map lower = str! "nan" then some .nan
  else if body.map lower = str! "inf" ∨ body.map lower = str! "infinity" then some (.inf neg)
  else (readMag body).map fun v => of (if neg then -v else v)

/-- Addition. -/
def add : F64 → F64 → F64
  | .nan, _ => .nan
  | _, .nan => .nan
  | .inf a, .inf b => if a = b then .inf a else .nan
  | .inf a, .fin _ _ => .inf a
  | .fin _ _, .inf b => .inf b
  | .fin a _, .fin b _ => of (a.val + b.val)

/-- Change of sign. -/
def neg : F64 → F64
  | .nan => .nan
  | .inf a => .inf !a
  | .fin a _ => of (-a.val)

/-- Multiplication. -/
def mul : F64 → F64 → F64
  | .nan, _ => .nan
  | _, .nan => .nan
  | .inf a, .inf b => .inf (a != b)
  | .inf a, .fin b _ => if b.val = 0 then .nan else .inf (a != decide (b.val < 0))
  | .fin a _, .inf b => if a.val = 0 then .nan else .inf (b != decide (a.val < 0))
  | .fin a _, .fin b _ => of (a.val * b.val)

/-- `<`; nothing is less than NaN or greater. -/
def lt : F64 → F64 → Bool
  | .nan, _ => false
  | _, .nan => false
  | .inf a, .inf b => a && !b
  | .inf a, .fin _ _ => a
  | .fin _ _, .inf b => !b
  | .fin a _, .fin b _ => decide (a.val < b.val)

/-- `==`; NaN is not equal to itself. -/
def feq : F64 → F64 → Bool
  | .nan, _ => false
  | _, .nan => false
  | .inf a, .inf b => a == b
  | .fin a _, .fin b _ => decide (a.val = b.val)
  | _, _ => false

/-- `<=`. -/
def le (a b : F64) : Bool := lt a b || feq a b

instance : Flt F64 where
  lit m k := of (m * pow10 (-(k : Int)))
  ofInt i := of i
  add := add
  sub a b := add a (neg b)
  mul := mul
  neg := neg
  abs
    | .nan => .nan
    | .inf _ => .inf false
    | .fin a _ => of |a.val|
  sqrt
    | .nan => .nan
    | .inf true => .nan
    | .inf false => .inf false
    | .fin a _ => if a.val < 0 then .nan else of (sqrtApprox a.val)
  half
    | .nan => .nan
    | .inf a => .inf a
    | .fin a _ => of (a.val / 2)
  feq := feq
  lt := lt
  le := le
  fmin
    | .nan, b => b
    | a, .nan => a
    | a, b => if le a b then a else b
  fmax
    | .nan, b => b
    | a, .nan => a
    | a, b => if le a b then b else a
  eps := of (pow2 (-52))
  toStr := toStr
  ofStr := ofStr

theorem of_fin {q : ℚ} {a : Fl} (h : round64 q = a.val) (hb : |a.val| < pow2 1024) : of q = .fin a hb := by
  have : Fl.of q = a := Fl.ext_val h
  subst this
  exact dif_pos hb

theorem of_val (a : Fl) (h : |a.val| < pow2 1024) : of a.val = .fin a h := of_fin a.ok h

theorem fin_ext {a b : Fl} {h h'} (e : a.val = b.val) : (fin a h) = fin b h' := by
  have := Fl.ext_val e; subst this; rfl

theorem lower_digit {c : Char} (h : isDig c = true ∨ c = '.') : lower c = c := by
  rcases h with h | rfl
  · have := isDig_iff c h
    simp only [List.mem_cons, List.not_mem_nil, or_false] at this
    rcases this with rfl | rfl | rfl | rfl | rfl | rfl | rfl | rfl | rfl | rfl <;> decide
  · decide

theorem showMag_word (x : ℚ) (w : Str) (hw : w.head?.any Char.isAlpha = true) :
    (showMag x).map lower ≠ w := by
  have hc := showMag_chars x
  rcases hs : showMag x with _ | ⟨c, t⟩
  · exact absurd hs (showMag_ne_nil x)
  · rw [hs] at hc
    have h1 := hc c (List.mem_cons_self ..)
    rintro rfl
    simp only [List.map_cons, List.head?_cons, Option.any_some, lower_digit h1] at hw
    rcases h1 with h1 | rfl
    · have := isDig_iff c h1
      simp only [List.mem_cons, List.not_mem_nil, or_false] at this
      rcases this with rfl | rfl | rfl | rfl | rfl | rfl | rfl | rfl | rfl | rfl <;> exact absurd hw (by decide)
    · exact absurd hw (by decide)

theorem ofStr_toStr (a : F64) : ofStr (toStr a) = some a := by
  have key : ∀ x, (showMag x).map lower ≠ str! "nan" ∧ (showMag x).map lower ≠ str! "inf" ∧
      (showMag x).map lower ≠ str! "infinity" := fun x =>
    ⟨showMag_word x _ (by decide), showMag_word x _ (by decide), showMag_word x _ (by decide)⟩
  match a with
  | .nan => decide
  | .inf true => decide
  | .inf false => decide
  | .fin a hb =>
    simp only [toStr, Fl.toStr]
    split
    · rename_i h
      obtain ⟨v, h1, h2⟩ := readMag_showMag (isF64_neg a.isF64) (by linarith)
      have hs : splitSign ('-' :: showMag (-a.val)) = (true, showMag (-a.val)) := rfl
      simp only [ofStr, hs, key, or_self, if_false, h1, Option.map_some, Option.some.injEq, if_true]
      exact of_fin (by rw [round64_neg, h2, neg_neg]) hb
    · rename_i h
      obtain ⟨v, h1, h2⟩ := readMag_showMag a.isF64 (not_lt.1 h)
      simp only [ofStr, splitSign_showMag, key, or_self, if_false, h1, Option.map_some, Option.some.injEq,
        Bool.false_eq_true]
      exact of_fin h2 hb

instance : Flt.TextLaws F64 where
  ofStr_toStr := ofStr_toStr
  toStr_ne_nil a := by
    match a with
    | .nan => decide
    | .inf true => decide
    | .inf false => decide
    | .fin a _ => exact Flt.TextLaws.toStr_ne_nil a
  toStr_chars a := by
    match a with
    | .nan => decide
    | .inf true => decide
    | .inf false => decide
    | .fin a _ => exact Flt.TextLaws.toStr_chars a

theorem zero_eq : (Flt.zero : F64) = .fin (Fl.of 0) (by
    show |round64 0| < _
    rw [round64_zero, abs_zero]; exact pow2_pos _) := by
  refine of_fin ?_ _
  show round64 (((0 : Int) : ℚ) * pow10 (-((0 : Nat) : Int))) = round64 0
  simp

instance : Flt.ZeroLaws F64 where
  feq_zero a := by
    rw [zero_eq]
    cases a with
    | nan => exact ⟨fun h => (by cases h), fun h => (by cases h)⟩
    | inf b => exact ⟨fun h => (by cases h), fun h => (by cases h)⟩
    | fin a h =>
      refine ⟨fun e => fin_ext (of_decide_eq_true e), fun e => ?_⟩
      cases e
      exact decide_eq_true rfl

/-! Operations on finite numbers with a result below the largest one are those of
`Fl`. -/

theorem of_of {q : ℚ} (h : |(Fl.of q).val| < pow2 1024) : of q = .fin (Fl.of q) h := dif_pos h

theorem add_fin (a b : Fl) (ha hb) (h : |(Flt.add a b).val| < pow2 1024) :
    Flt.add (fin a ha) (fin b hb) = fin (Flt.add a b) h := of_of h

theorem mul_fin (a b : Fl) (ha hb) (h : |(Flt.mul a b).val| < pow2 1024) :
    Flt.mul (fin a ha) (fin b hb) = fin (Flt.mul a b) h := of_of h

theorem neg_val (a : Fl) : (Flt.neg a).val = -a.val := by
  show round64 (-a.val) = _
  rw [round64_neg, a.ok]

theorem neg_fin (a : Fl) (ha) : Flt.neg (fin a ha) = fin (Flt.neg a) (by rwa [neg_val, abs_neg]) := of_of _

theorem sub_fin (a b : Fl) (ha hb) (h : |(Flt.sub a b).val| < pow2 1024) :
    Flt.sub (fin a ha) (fin b hb) = fin (Flt.sub a b) h := by
  show Flt.add (fin a ha) (Flt.neg (fin b hb)) = _
  have e : Flt.add a (Flt.neg b) = Flt.sub a b := Fl.ext_val (by
    show round64 (a.val + (Flt.neg b).val) = round64 (a.val - b.val)
    rw [neg_val, sub_eq_add_neg])
  rw [neg_fin, add_fin _ _ _ _ (by rw [e]; exact h)]
  exact fin_ext (by rw [e])

theorem half_fin (a : Fl) (ha) (h : |(Flt.half a).val| < pow2 1024) :
    Flt.half (fin a ha) = fin (Flt.half a) h := of_of h

theorem lt_fin (a b : Fl) (ha hb) : Flt.lt (fin a ha) (fin b hb) = Flt.lt a b := rfl

theorem feq_fin (a b : Fl) (ha hb) : Flt.feq (fin a ha) (fin b hb) = Flt.feq a b := rfl

theorem le_fin (a b : Fl) (ha hb) : Flt.le (fin a ha) (fin b hb) = Flt.le a b := by
  show (decide (a.val < b.val) || decide (a.val = b.val)) = decide (a.val ≤ b.val)
  rw [← Bool.decide_or]
  exact decide_eq_decide.2 le_iff_lt_or_eq.symm

/-! What NaN does to the operations. -/

@[simp] theorem nan_sub (a : F64) : Flt.sub .nan a = .nan := rfl

@[simp] theorem sub_nan (a : F64) : Flt.sub a .nan = .nan := by cases a <;> rfl

@[simp] theorem nan_add (a : F64) : Flt.add .nan a = .nan := rfl

@[simp] theorem add_nan (a : F64) : Flt.add a .nan = .nan := by cases a <;> rfl

@[simp] theorem abs_nan : Flt.abs (.nan : F64) = .nan := rfl

@[simp] theorem neg_nan : Flt.neg (.nan : F64) = .nan := rfl

@[simp] theorem lt_nan (a : F64) : Flt.lt a .nan = false := by cases a <;> rfl

@[simp] theorem nan_lt (a : F64) : Flt.lt .nan a = false := rfl

@[simp] theorem min_nan (a : F64) : Flt.fmin a .nan = a := by cases a <;> rfl

@[simp] theorem nan_min (a : F64) : Flt.fmin .nan a = a := rfl

@[simp] theorem max_nan (a : F64) : Flt.fmax a .nan = a := by cases a <;> rfl

@[simp] theorem nan_max (a : F64) : Flt.fmax .nan a = a := rfl

/-- Exactly NaN is not equal to itself. -/
theorem feq_self (a : F64) : Flt.feq a a = true ↔ a ≠ .nan := by
  cases a with
  | nan => exact ⟨fun h => (by cases h), fun h => absurd rfl h⟩
  | inf b => simp [Flt.feq, feq]
  | fin a h => simp [Flt.feq, feq]

end F64

end Verif
