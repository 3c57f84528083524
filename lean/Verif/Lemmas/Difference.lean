import Verif.Spec.Difference
import Verif.Model.Formatter
/-!
# Lemmas about lines and about texts that differ in some places
-/

namespace Verif
open Spec

theorem Diff.lines_ne_nil (s : Str) : fileLines s ≠ [] := by
  cases s with
  | nil => simp [fileLines]
  | cons c s =>
    rw [fileLines]
    by_cases h : c = '\n'
    · simp [h]
    · rw [if_neg h]; cases fileLines s <;> simp

theorem Diff.lines_break (a b : Str) : fileLines (a ++ '\n' :: b) = fileLines a ++ fileLines b := by
  induction a with
  | nil => simp [fileLines]
  | cons c a ih =>
    rw [List.cons_append, fileLines, fileLines]
    by_cases h : c = '\n'
    · simp [h, ih]
    · rw [if_neg h, if_neg h, ih]
      cases ha : fileLines a with
      | nil => exact absurd ha (lines_ne_nil a)
      | cons l ls => simp

/-- Text without line breaks belongs to the first line. -/
theorem Diff.lines_word (a b : Str) (h : '\n' ∉ a) :
    ∃ l ls, fileLines b = l :: ls ∧ fileLines (a ++ b) = (a ++ l) :: ls := by
  induction a with
  | nil =>
    cases hb : fileLines b with
    | nil => exact absurd hb (lines_ne_nil b)
    | cons l ls => exact ⟨l, ls, rfl, by simpa using hb⟩
  | cons c a ih =>
    simp only [List.mem_cons, not_or] at h
    obtain ⟨l, ls, h1, h2⟩ := ih h.2
    refine ⟨l, ls, h1, ?_⟩
    rw [List.cons_append, fileLines, if_neg (fun e => h.1 e.symm), h2]
    rfl

theorem Diff.refl (P Q : Str → Prop) (a : Str) : DifferOnly P Q a a :=
  List.forall₂_same.2 fun _ _ => .inl rfl

theorem Diff.break {P Q : Str → Prop} {a a' b b' : Str} (h : DifferOnly P Q a a') (h' : DifferOnly P Q b b') :
    DifferOnly P Q (a ++ '\n' :: b) (a' ++ '\n' :: b') := by
  unfold DifferOnly
  rw [lines_break, lines_break]
  exact List.rel_append h h'

theorem Diff.line {P Q : Str → Prop} {a a' b b' : Str} (ha : '\n' ∉ a) (ha' : '\n' ∉ a') (h : a = a' ∨ (P a ∧ Q a'))
    (h' : DifferOnly P Q b b') : DifferOnly P Q (a ++ '\n' :: b) (a' ++ '\n' :: b') := by
  refine Diff.break ?_ h'
  obtain ⟨l, ls, h1, h2⟩ := lines_word a [] ha
  obtain ⟨m, ms, h3, h4⟩ := lines_word a' [] ha'
  simp only [fileLines, List.cons.injEq] at h1 h3
  obtain ⟨rfl, rfl⟩ := h1
  obtain ⟨rfl, rfl⟩ := h3
  simp only [List.append_nil] at h2 h4
  unfold DifferOnly
  rw [h2, h4]
  exact .cons h .nil

/-- The beginning of the text, up to any place, is the same. -/
theorem Diff.prefix {P Q : Str → Prop} (a : Str) {b b' : Str} (h : DifferOnly P Q b b') :
    DifferOnly P Q (a ++ '\n' :: b) (a ++ '\n' :: b') := Diff.break (Diff.refl P Q a) h

theorem Diff.mono {P Q P' Q' : Str → Prop} {a b : Str} (hp : ∀ x, P x → P' x) (hq : ∀ x, Q x → Q' x)
    (h : DifferOnly P Q a b) : DifferOnly P' Q' a b :=
  List.Forall₂.imp (fun _ _ h => h.imp id fun ⟨h1, h2⟩ => ⟨hp _ h1, hq _ h2⟩) h

theorem Diff.lines {P Q : Str → Prop} {ls ls' : List Str} {b b' : Str}
    (h : List.Forall₂ (fun a a' => a = a' ∨ ('\n' ∉ a ∧ '\n' ∉ a' ∧ P a ∧ Q a')) ls ls')
    (h' : DifferOnly P Q b b') : DifferOnly P Q (unlines ls ++ b) (unlines ls' ++ b') := by
  induction h with
  | nil => exact h'
  | @cons a a' ls ls' h hs ih =>
    simp only [unlines, List.append_assoc, List.cons_append]
    rcases h with rfl | ⟨h1, h2, h3⟩
    · exact Diff.prefix a ih
    · exact Diff.line h1 h2 (.inr h3) ih

theorem Diff.trans {P Q : Str → Prop} {a b c : Str} (h : DifferOnly P Q a b) (h' : DifferOnly P Q b c) :
    DifferOnly P Q a c := by
  unfold DifferOnly at *
  generalize fileLines a = x at *
  generalize fileLines b = y at *
  generalize fileLines c = z at *
  induction h generalizing z with
  | nil => cases h'; exact .nil
  | cons h hs ih =>
    cases h' with
    | cons h' hs' =>
      refine .cons ?_ (ih _ hs')
      rcases h with rfl | h
      · exact h'
      · rcases h' with rfl | h'
        · exact .inr h
        · exact .inr ⟨h.1, h'.2⟩

/-- Two texts that are the same but for some pieces. -/
inductive Diff.Mended (S : Str → Str → Prop) : Str → Str → Prop
  | nil : Mended S [] []
  | cons (c : Char) {t u : Str} : Mended S t u → Mended S (c :: t) (c :: u)
  | swap {x y t u : Str} : S x y → Mended S t u → Mended S (x ++ t) (y ++ u)

theorem Diff.Mended.refl (S : Str → Str → Prop) (t : Str) : Mended S t t := by
  induction t with
  | nil => exact .nil
  | cons c t ih => exact .cons c ih

theorem Diff.Mended.append {S : Str → Str → Prop} {t u t' u' : Str} (h : Mended S t u) (h' : Mended S t' u') :
    Mended S (t ++ t') (u ++ u') := by
  induction h with
  | nil => exact h'
  | cons c _ ih => exact .cons c ih
  | swap hs _ ih => rw [List.append_assoc, List.append_assoc]; exact .swap hs ih

/-- The lines of such texts differ only if they have such a piece. -/
theorem Diff.Mended.differ {S : Str → Str → Prop} (hs : ∀ x y, S x y → '\n' ∉ x ∧ '\n' ∉ y) {t u : Str}
    (h : Mended S t u) :
    DifferOnly (fun l => ∃ x y, S x y ∧ x <:+: l) (fun l => ∃ x y, S x y ∧ y <:+: l) t u := by
  induction h with
  | nil => exact Diff.refl _ _ _
  | @cons c t u _ ih =>
    unfold DifferOnly at ih ⊢
    rw [fileLines, fileLines]
    by_cases hc : c = '\n'
    · rw [if_pos hc, if_pos hc]; exact .cons (.inl rfl) ih
    · rw [if_neg hc, if_neg hc]
      cases ht : fileLines t with
      | nil => exact absurd ht (lines_ne_nil t)
      | cons l ls =>
        cases hu : fileLines u with
        | nil => exact absurd hu (lines_ne_nil u)
        | cons m ms =>
          rw [ht, hu] at ih
          cases ih with
          | cons h hr =>
            refine .cons ?_ hr
            rcases h with rfl | ⟨⟨x, y, h1, h2⟩, x', y', h3, h4⟩
            · exact .inl rfl
            · exact .inr ⟨⟨x, y, h1, h2.trans (List.suffix_cons _ _).isInfix⟩, x', y', h3,
                h4.trans (List.suffix_cons _ _).isInfix⟩
  | @swap x y t u hxy _ ih =>
    obtain ⟨l, ls, h1, h2⟩ := lines_word x t (hs x y hxy).1
    obtain ⟨m, ms, h3, h4⟩ := lines_word y u (hs x y hxy).2
    unfold DifferOnly at ih ⊢
    rw [h1, h3] at ih
    rw [h2, h4]
    cases ih with
    | cons _ hr =>
      exact .cons (.inr ⟨⟨x, y, hxy, (List.prefix_append x l).isInfix⟩, x, y, hxy, (List.prefix_append y m).isInfix⟩) hr

mutual
/-- Two trees that differ only in some atoms (`R`) and in the atoms of some lists (`H` tells their
first words). -/
inductive Diff.Retouch (R : Str → Str → Prop) (H : Str → Prop) : Sexp → Sexp → Prop
  | same (t : Sexp) : Retouch R H t t
  | atom {a b : Str} : R a b → Retouch R H (.str a) (.str b)
  | leaf {h : Str} (xs ys : List Str) : H h → (∀ x ∈ xs, '\n' ∉ x) → (∀ y ∈ ys, '\n' ∉ y) →
      Retouch R H (.list (.str h :: xs.map .str)) (.list (.str h :: ys.map .str))
  | node {h : Str} {xs ys : List Sexp} : RetouchL R H xs ys →
      Retouch R H (.list (.str h :: xs)) (.list (.str h :: ys))
/-- Two sequences of such trees. -/
inductive Diff.RetouchL (R : Str → Str → Prop) (H : Str → Prop) : List Sexp → List Sexp → Prop
  | nil : RetouchL R H [] []
  | cons {x y : Sexp} {xs ys : List Sexp} : Retouch R H x y → RetouchL R H xs ys →
      RetouchL R H (x :: xs) (y :: ys)
end

/-- The pieces in which the texts of such trees differ. -/
inductive Diff.Piece (q : Str → Bool) (R : Str → Str → Prop) (H : Str → Prop) : Str → Str → Prop
  | atom {a b : Str} : R a b → Piece q R H (Fm.atomText q a) (Fm.atomText q b)
  | leaf {h : Str} (xs ys : List Str) : H h → (∀ x ∈ xs, '\n' ∉ x) → (∀ y ∈ ys, '\n' ∉ y) →
      Piece q R H (str! "(" ++ Fm.atomText q h ++ xs.flatMap (str! " " ++ Fm.atomText q ·))
        (str! "(" ++ Fm.atomText q h ++ ys.flatMap (str! " " ++ Fm.atomText q ·))

theorem Diff.element_atom (st : Fm.St) (x : Str) : Fm.element st (.str x) = str! " " := by
  unfold Fm.element; split <;> rfl

theorem Diff.serRest_atoms (q : Str → Bool) (st : Fm.St) (xs : List Str) :
    Fm.serRest q st (xs.map .str) = (xs.flatMap (str! " " ++ Fm.atomText q ·), st) := by
  induction xs with
  | nil => rfl
  | cons x xs ih =>
    simp only [List.map_cons, Fm.serRest, Fm.ser, ih, element_atom, List.flatMap_cons]

theorem Diff.openList_text (st : Fm.St) (v : Option Sexp) : ∃ w, (Fm.openList st v).1 = w ++ str! "(" :=
  ⟨_, rfl⟩

theorem Diff.element_congr {R : Str → Str → Prop} {H : Str → Prop} {x y : Sexp} (h : Retouch R H x y) (st : Fm.St) :
    Fm.element st x = Fm.element st y := by
  cases h with
  | same => rfl
  | atom _ => rw [element_atom, element_atom]
  | leaf xs ys _ _ _ => rfl
  | node _ => rfl

mutual
theorem Diff.ser_mended {q : Str → Bool} {R : Str → Str → Prop} {H : Str → Prop} {x y : Sexp}
    (h : Retouch R H x y) (st : Fm.St) :
    (Fm.ser q st x).2 = (Fm.ser q st y).2 ∧ Mended (Piece q R H) (Fm.ser q st x).1 (Fm.ser q st y).1 := by
  cases h with
  | same => exact ⟨rfl, .refl _ _⟩
  | atom h => exact ⟨rfl, by simpa [Fm.ser] using Mended.swap (Piece.atom h) .nil⟩
  | @leaf h xs ys hh hx hy =>
    simp only [Fm.ser, serRest_atoms]
    obtain ⟨w, hw⟩ := openList_text st (some (.str h))
    rw [hw]
    refine ⟨trivial, ?_⟩
    have := Mended.append (Mended.refl _ w) (Mended.append (Mended.swap (Piece.leaf (q := q) (R := R) xs ys hh hx hy) .nil)
      (Mended.refl _ (Fm.closeList (Fm.openList st (some (.str h))).2).1))
    simpa using this
  | @node h xs ys hl =>
    simp only [Fm.ser]
    obtain ⟨h1, h2⟩ := Diff.serRest_mended (q := q) hl (Fm.openList st (some (.str h))).2
    rw [h1]
    exact ⟨rfl, .append (.append (.refl _ _) h2) (.refl _ _)⟩
theorem Diff.serRest_mended {q : Str → Bool} {R : Str → Str → Prop} {H : Str → Prop} {xs ys : List Sexp}
    (h : RetouchL R H xs ys) (st : Fm.St) :
    (Fm.serRest q st xs).2 = (Fm.serRest q st ys).2 ∧
      Mended (Piece q R H) (Fm.serRest q st xs).1 (Fm.serRest q st ys).1 := by
  cases h with
  | nil => exact ⟨rfl, .refl _ _⟩
  | @cons x y xs ys h hs =>
    simp only [Fm.serRest]
    obtain ⟨h1, h2⟩ := Diff.ser_mended (q := q) h st
    rw [← h1]
    obtain ⟨h3, h4⟩ := Diff.serRest_mended (q := q) hs (Fm.ser q st x).2
    refine ⟨h3, ?_⟩
    rw [element_congr h]
    exact .append (.append (.refl _ _) h2) h4
end

theorem Diff.escape_noLf {s : Str} (h : '\n' ∉ s) : '\n' ∉ Fm.escapeQuotes s := by
  induction s with
  | nil => simp [Fm.escapeQuotes]
  | cons c s ih =>
    simp only [List.mem_cons, not_or] at h
    have := ih h.2
    unfold Fm.escapeQuotes at this ⊢
    rw [List.flatMap_cons, List.mem_append, not_or]
    refine ⟨?_, this⟩
    by_cases hc : c = '"'
    · simp [hc]
    · simpa [hc] using h.1

theorem Diff.atomText_noLf (q : Str → Bool) {s : Str} (h : '\n' ∉ s) : '\n' ∉ Fm.atomText q s := by
  unfold Fm.atomText
  split
  · simp [escape_noLf h]
  · exact h

theorem Diff.piece_noLf {q : Str → Bool} {R : Str → Str → Prop} {H : Str → Prop}
    (hR : ∀ a b, R a b → '\n' ∉ a ∧ '\n' ∉ b) (hH : ∀ h, H h → '\n' ∉ h) (x y : Str) (h : Piece q R H x y) :
    '\n' ∉ x ∧ '\n' ∉ y := by
  cases h with
  | atom h => exact ⟨atomText_noLf q (hR _ _ h).1, atomText_noLf q (hR _ _ h).2⟩
  | @leaf h xs ys hh hx hy =>
    have key : ∀ l : List Str, (∀ x ∈ l, '\n' ∉ x) →
        '\n' ∉ str! "(" ++ Fm.atomText q h ++ l.flatMap (str! " " ++ Fm.atomText q ·) := by
      intro l hl
      simp only [List.mem_append, not_or, List.mem_flatMap, not_exists, not_and]
      exact ⟨⟨by decide, atomText_noLf q (hH h hh)⟩, fun x hx => ⟨by decide, atomText_noLf q (hl x hx)⟩⟩
    exact ⟨key xs hx, key ys hy⟩

/-- The texts of such trees differ only in lines with such pieces. -/
theorem Diff.toText_differ {q : Str → Bool} {R : Str → Str → Prop} {H : Str → Prop}
    (hR : ∀ a b, R a b → '\n' ∉ a ∧ '\n' ∉ b) (hH : ∀ h, H h → '\n' ∉ h) {x y : Sexp} (h : Retouch R H x y)
    (level : Int) (e : Str) :
    DifferOnly
      (fun l => (∃ a b, R a b ∧ Fm.atomText q a <:+: l) ∨ ∃ w, H w ∧ (str! "(" ++ Fm.atomText q w) <:+: l)
      (fun l => (∃ a b, R a b ∧ Fm.atomText q b <:+: l) ∨ ∃ w, H w ∧ (str! "(" ++ Fm.atomText q w) <:+: l)
      (Fm.toText q level x ++ e) (Fm.toText q level y ++ e) := by
  have := Mended.differ (piece_noLf (q := q) hR hH) (.append (Diff.ser_mended (q := q) h (Fm.St.new level)).2 (.refl _ e))
  refine Diff.mono ?_ ?_ this
  · rintro l ⟨x, y, hp, hx⟩
    cases hp with
    | atom h => exact .inl ⟨_, _, h, hx⟩
    | @leaf h xs ys hh _ _ => exact .inr ⟨h, hh, (List.prefix_append _ _).isInfix.trans hx⟩
  · rintro l ⟨x, y, hp, hx⟩
    cases hp with
    | atom h => exact .inl ⟨_, _, h, hx⟩
    | @leaf h xs ys hh _ _ => exact .inr ⟨h, hh, (List.prefix_append _ _).isInfix.trans hx⟩

theorem Diff.RetouchL.refl {R : Str → Str → Prop} {H : Str → Prop} (l : List Sexp) : RetouchL R H l l := by
  induction l with
  | nil => exact .nil
  | cons x l ih => exact .cons (.same x) ih

theorem Diff.RetouchL.append {R : Str → Str → Prop} {H : Str → Prop} {a b c d : List Sexp}
    (h : RetouchL R H a b) (h' : RetouchL R H c d) : RetouchL R H (a ++ c) (b ++ d) := by
  induction a generalizing b with
  | nil => cases h; exact h'
  | cons x a ih =>
    cases h with
    | cons h hs => exact .cons h (ih hs)

theorem Diff.RetouchL.map {α : Type} {R : Str → Str → Prop} {H : Str → Prop} (f g : α → Sexp) (l : List α)
    (h : ∀ x ∈ l, Retouch R H (f x) (g x)) : RetouchL R H (l.map f) (l.map g) := by
  induction l with
  | nil => exact .nil
  | cons x l ih => exact .cons (h x List.mem_cons_self) (ih fun y hy => h y (List.mem_cons_of_mem _ hy))

theorem Diff.RetouchL.one {R : Str → Str → Prop} {H : Str → Prop} {x y : Sexp} (h : Retouch R H x y) :
    RetouchL R H [x] [y] := .cons h .nil

theorem Diff.Retouch.node' {R : Str → Str → Prop} {H : Str → Prop} {n : Str} {xs ys : List Sexp} (h : RetouchL R H xs ys) :
    Retouch R H (Sx.node n xs) (Sx.node n ys) := .node h

theorem Diff.Retouch.pair {R : Str → Str → Prop} {H : Str → Prop} {n : Str} {x y : Sexp} (h : Retouch R H x y) :
    Retouch R H (Sx.pair n x) (Sx.pair n y) := .node (.cons h .nil)

end Verif
