import Verif.Spec.Form
import Verif.Model.Layout.Codec
import Verif.Lemmas.Numerals
import Verif.Lemmas.Num
/-!
# Checking that what is written has the documented form
-/

namespace Verif.Spec.Form
open Verif Flt Sx

set_option linter.unusedSectionVars false

variable {F : Type} [Flt F]

theorem fit_lst {n : Str} {ps : List Form} {l : List Sexp} (h : (seqs ps).Fits F l) :
    (lst n ps).Fits F [node n l] := ⟨l, rfl, h⟩

theorem fit_pair {n : Str} {f : Form} {v : Sexp} (h : f.Fits F [v]) :
    (lst n [f]).Fits F [pair n v] := ⟨[v], rfl, [v], [], rfl, h, rfl⟩

theorem fit_nil : (seqs []).Fits F [] := rfl

theorem fit_cons {a : Form} {ps : List Form} {x : Sexp} {l : List Sexp} (h : a.Fits F [x])
    (hl : (seqs ps).Fits F l) : (seqs (a :: ps)).Fits F (x :: l) := ⟨[x], l, rfl, h, hl⟩

theorem fit_app {a : Form} {ps : List Form} {x l : List Sexp} (h : a.Fits F x)
    (hl : (seqs ps).Fits F l) : (seqs (a :: ps)).Fits F (x ++ l) := ⟨x, l, rfl, h, hl⟩

theorem fit_last {a : Form} {x : List Sexp} (h : a.Fits F x) : (seqs [a]).Fits F x :=
  ⟨x, [], (List.append_nil x).symm, h, rfl⟩

theorem fit_none {a : Form} : (opt a).Fits F [] := Or.inl rfl

theorem fit_some {a : Form} {l : List Sexp} (h : a.Fits F l) : (opt a).Fits F l := Or.inr h

theorem fit_if {a : Form} {c : Prop} [Decidable c] {x : Sexp} (h : c → a.Fits F [x]) :
    (opt a).Fits F (if c then [x] else []) := by
  split
  · rename_i hc; exact fit_some (h hc)
  · exact fit_none

theorem fit_opt {α : Type} {a : Form} {l : List Sexp} (o : Option α) (h0 : o = none → l = [])
    (h : ∀ v, o = some v → a.Fits F l) : (opt a).Fits F l := by
  cases o with
  | none => rw [h0 rfl]; exact fit_none
  | some v => exact fit_some (h v rfl)

theorem fit_optPair {α : Type} {n : Str} {a : Form} {o : Option α} {f : α → Sexp}
    (h : ∀ v, o = some v → a.Fits F [f v]) : (opt (lst n [a])).Fits F (Fp.optPair n f o) := by
  cases o with
  | none => exact fit_none
  | some v => exact fit_some (fit_pair (h v rfl))

theorem fit_map {α : Type} {a : Form} {f : α → Sexp} {l : List α} (h : ∀ x ∈ l, a.Fits F [f x]) :
    (many a).Fits F (l.map f) := by
  refine ⟨l.map fun x => [f x], ?_, ?_⟩
  · clear h
    induction l with
    | nil => rfl
    | cons x l ih => simp [← ih]
  · intro p hp
    obtain ⟨x, hx, rfl⟩ := List.mem_map.1 hp
    exact h x hx

theorem fit_many {a : Form} {l : List Sexp} (h : ∀ x ∈ l, a.Fits F [x]) : (many a).Fits F l := by
  simpa using fit_map (f := id) h

theorem fit_name (s : Str) : name.Fits F [.str s] := ⟨s, rfl⟩

theorem fit_word (s : Str) : (word s).Fits F [.str s] := rfl

theorem fit_number [TextLaws F] (x : F) : number.Fits F [ofF x] := ⟨_, rfl, x, TextLaws.ofStr_toStr x⟩

theorem fit_whole {i : Int} (h : inI64 i) : whole.Fits F [ofI i] :=
  ⟨_, rfl, i, (i64FromStr_iff _ _).1 (i64FromStr_showInt i h)⟩

theorem fit_natural (n : Nat) : natural.Fits F [.str (showNat n)] :=
  ⟨_, rfl, n, (readBase_iff _ _).1 (readBase_showBase (by omega) (by omega) n)⟩

theorem hexDigit : ∀ d < 16, digitChar d ∈ str! "0123456789ABCDEF" := by decide

theorem fit_hex (i : Int) : hex.Fits F [.str (showHexI64 i)] := by
  have key : ∀ n, showBase 16 n ≠ [] ∧ ∀ c ∈ showBase 16 n, c ∈ str! "0123456789ABCDEF" := by
    intro n
    refine ⟨showBase_ne_nil _ _, fun c hc => ?_⟩
    obtain ⟨d, hd, rfl⟩ := showBase_digits (b := 16) (by omega) n c hc
    exact hexDigit d hd
  refine ⟨_, rfl, ?_⟩
  unfold showHexI64
  split <;> exact key _

theorem fit_row {ps : List Form} {l : List Sexp} (h : (seqs ps).Fits F l) :
    (row (seqs ps)).Fits F [.list l] := ⟨l, rfl, h⟩

/-- Membership in a choice. -/
theorem fit_oneOf {ps : List Form} {a : Form} {l : List Sexp} (ha : a ∈ ps) (h : a.Fits F l) :
    (oneOf ps).Fits F l := by
  induction ps with
  | nil => simp at ha
  | cons b ps ih =>
    cases ps with
    | nil => simp only [List.mem_singleton] at ha; subst ha; exact h
    | cons c ps =>
      rcases List.mem_cons.1 ha with rfl | ha
      · exact Or.inl h
      · exact Or.inr (ih ha)

end Verif.Spec.Form
