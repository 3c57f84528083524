import Verif.Model.Sexp
import Verif.Lemmas.Num
import Verif.Spec.Sexp
/-!
# Reading what was written: numbers, atoms, lists
-/

namespace Verif.Sx
open Verif Flt

variable {F : Type} [Flt F]

@[simp] theorem string_str (s : Str) : string (.str s) = .ok s := rfl
@[simp] theorem string_list (l : List Sexp) : string (.list l) = .err .sexp := rfl
@[simp] theorem string_node (n : Str) (l : List Sexp) : string (node n l) = .err .sexp := rfl

@[simp] theorem flt_ofF [TextLaws F] (x : F) : flt (ofF x) = .ok x := by
  simp [flt, ofF, TextLaws.ofStr_toStr]

@[simp] theorem flt_list (l : List Sexp) : (flt (.list l) : Res F) = .err .sexp := rfl
@[simp] theorem flt_node (n : Str) (l : List Sexp) : (flt (node n l) : Res F) = .err .sexp := rfl

@[simp] theorem string_ofF (x : F) : string (ofF x) = .ok (toStr x) := rfl

theorem int_ofI (i : Int) (h : inI64 i) : int (ofI i) = .ok i := by
  simp [int, ofI, i64FromStr_showInt i h]

@[simp] theorem iter_node (n : Str) (l : List Sexp) : iter n (node n l) = .ok l := by
  simp [iter, node]

theorem iter_node_ne {n m : Str} (h : m ≠ n) (l : List Sexp) : iter n (node m l) = .err .sexp := by
  simp [iter, node, h]

@[simp] theorem listName_node (n : Str) (l : List Sexp) : listName (node n l) = .ok n := rfl
@[simp] theorem listName_pair (n : Str) (v : Sexp) : listName (pair n v) = .ok n := rfl

theorem pair_eq (n : Str) (v : Sexp) : pair n v = node n [v] := rfl

@[simp] theorem namedValue_pair (n : Str) (v : Sexp) : namedValue n (pair n v) = .ok v := by
  simp [namedValue, pair]

@[simp] theorem inList_pair {α : Type} (n : Str) (dec : Sexp → Res α) (v : Sexp) :
    inList n dec (pair n v) = dec v := by
  simp [inList]

@[simp] theorem eat_cons {α : Type} (dec : Sexp → Res α) (x : Sexp) (r : List Sexp) :
    eat dec (x :: r) = dec x >>= fun a => .ok (a, r) := rfl

@[simp] theorem maybe_nil {α : Type} (dec : Sexp → Res α) : maybe dec [] = .ok (none, []) := rfl

theorem maybe_ok {α : Type} {dec : Sexp → Res α} {x : Sexp} {a : α} (h : dec x = .ok a)
    (r : List Sexp) : maybe dec (x :: r) = .ok (some a, r) := by
  simp [maybe, h]

theorem maybe_err {α : Type} {dec : Sexp → Res α} {x : Sexp} {e : Err} (h : dec x = .err e)
    (r : List Sexp) : maybe dec (x :: r) = .ok (none, x :: r) := by
  simp [maybe, h]

@[simp] theorem close_nil {α : Type} (a : α) : close [] a = .ok a := rfl
@[simp] theorem close_cons {α : Type} (x : Sexp) (r : List Sexp) (a : α) :
    close (x :: r) a = .err .sexp := rfl

theorem literal_ne {n s : Str} (h : s ≠ n) : literal n (.str s) = .err .sexp := by
  simp [literal, h]
@[simp] theorem literal_self (n : Str) : literal n (.str n) = .ok n := by simp [literal]
@[simp] theorem literal_node (n m : Str) (l : List Sexp) : literal n (node m l) = .err .sexp := rfl

theorem vec_map {α β : Type} (dec : Sexp → Res α) (f : β → Sexp) (g : β → α) (l : List β)
    (h : ∀ b ∈ l, dec (f b) = .ok (g b)) : vec dec (l.map f) = .ok (l.map g) := by
  induction l with
  | nil => rfl
  | cons b l ih =>
    rw [List.forall_mem_cons] at h
    simp [vec, h.1, ih h.2]

theorem vec_append {α : Type} (dec : Sexp → Res α) (a b : List Sexp) (x y : List α)
    (ha : vec dec a = .ok x) (hb : vec dec b = .ok y) : vec dec (a ++ b) = .ok (x ++ y) := by
  induction a generalizing x with
  | nil => simp only [vec, Res.ok.injEq] at ha; subst ha; simpa using hb
  | cons s a ih =>
    simp only [vec, Res.bind_eq_ok, Res.ok.injEq] at ha
    obtain ⟨u, hu, l, hl, rfl⟩ := ha
    simp [vec, hu, ih l hl]

/-! ## Atoms that need no care -/

/-- An atom that survives under every quoting policy. -/
def Plain (s : Str) : Prop := Spec.BareSafe s ∧ '\\' ∉ s

instance (s : Str) : Decidable (Plain s) := inferInstanceAs (Decidable (_ ∧ _))

theorem clean_of_noSlash {s : Str} (h : '\\' ∉ s) : Spec.Clean s := by
  unfold Spec.Clean
  induction s with
  | nil => rfl
  | cons c s ih =>
    rw [List.mem_cons, not_or] at h
    rw [Spec.pairedAfter, if_neg (Ne.symm h.1)]
    split
    · simpa using ih h.2
    · exact ih h.2

theorem clean_append {a b : Str} (h : '\\' ∉ a) (hb : Spec.Clean b) : Spec.Clean (a ++ b) := by
  unfold Spec.Clean at *
  induction a with
  | nil => exact hb
  | cons c a ih =>
    rw [List.mem_cons, not_or] at h
    rw [List.cons_append, Spec.pairedAfter, if_neg (Ne.symm h.1)]
    split
    · simpa using ih h.2
    · exact ih h.2

theorem okAtom_plain {s : Str} (h : Plain s) (q : Str → Bool) : Spec.OkAtom q s := by
  unfold Spec.OkAtom
  split
  · exact clean_of_noSlash h.2
  · exact h.1

theorem plain_of_chars {s : Str} (h0 : s ≠ []) (cs : Str) (hcs : Plain cs) (h : ∀ c ∈ s, c ∈ cs) :
    Plain s :=
  ⟨⟨h0, fun c hc => hcs.1.2 c (h c hc)⟩, fun hc => hcs.2 (h _ hc)⟩

theorem plain_toStr [TextLaws F] (x : F) : Plain (toStr x) :=
  plain_of_chars (TextLaws.toStr_ne_nil x) textChars (by decide) (TextLaws.toStr_chars x)

theorem plain_showInt (i : Int) : Plain (showInt i) :=
  plain_of_chars (showInt_ne_nil i) intChars (by decide) (showInt_chars i)

open Spec

theorem okTree_ofF [TextLaws F] (q : Str → Bool) (x : F) : OkTree q (ofF x) :=
  okAtom_plain (plain_toStr x) q

theorem okTree_ofI (q : Str → Bool) (i : Int) : OkTree q (ofI i) :=
  okAtom_plain (plain_showInt i) q

theorem okTree_node {q : Str → Bool} {n : Str} (hn : Plain n) {l : List Sexp} (hl : OkTrees q l) :
    OkTree q (node n l) :=
  ⟨okAtom_plain hn q, hl⟩

theorem okTree_pair {q : Str → Bool} {n : Str} (hn : Plain n) {v : Sexp} (hv : OkTree q v) :
    OkTree q (pair n v) :=
  ⟨okAtom_plain hn q, hv, trivial⟩

theorem okTrees_iff {q : Str → Bool} {l : List Sexp} : OkTrees q l ↔ ∀ x ∈ l, OkTree q x := by
  induction l with
  | nil => simp [OkTrees]
  | cons x l ih => simp [OkTrees, ih]

theorem okTrees_append {q : Str → Bool} {a b : List Sexp} (ha : OkTrees q a) (hb : OkTrees q b) :
    OkTrees q (a ++ b) := by
  rw [okTrees_iff] at *
  intro x hx
  rcases List.mem_append.1 hx with h | h
  · exact ha x h
  · exact hb x h

theorem okTree_str {q : Str → Bool} {s : Str} (h : OkAtom q s) : OkTree q (.str s) := h

end Verif.Sx
