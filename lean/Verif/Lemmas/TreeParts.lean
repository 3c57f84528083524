import Verif.Spec.FootprintGrammar
import Verif.Lemmas.TreeGrammar
import Verif.Props.C75
/-!
# Lemmas: reading the parts of trees
-/

set_option linter.unusedSimpArgs false

namespace Verif
open Spec Sx

variable {F : Type} [Flt F]

/-! ## General -/

namespace Tree

theorem iter_iff (n : Str) (e : Sexp) (r : List Sexp) : iter n e = .ok r ↔ e = .list (.str n :: r) := by
  unfold iter
  split
  · split
    · rename_i h; subst h; simp
    · rename_i h; simp; intro h1; exact absurd h1 h
  · rename_i h
    constructor
    · intro h'; cases h'
    · rintro rfl; exact absurd rfl (h n r)

theorem listName_iff (e : Sexp) (n : Str) : listName e = .ok n ↔ ∃ r, e = .list (.str n :: r) := by
  unfold listName
  split
  · simp
  · rename_i h
    constructor
    · intro h'; cases h'
    · rintro ⟨r, rfl⟩; exact absurd rfl (h n r)

theorem eat_iff {α : Type} (dec : Sexp → Res α) (l : List Sexp) (a : α) (r : List Sexp) :
    eat dec l = .ok (a, r) ↔ ∃ x, l = x :: r ∧ dec x = .ok a := by
  cases l with
  | nil => simp [eat]
  | cons x l =>
    rw [eat]
    constructor
    · intro h
      obtain ⟨b, hb, h⟩ := Res.bind_eq_ok.1 h
      cases h
      exact ⟨x, rfl, hb⟩
    · rintro ⟨y, e, h⟩
      cases e
      rw [h]
      rfl

theorem close_iff {α : Type} (l : List Sexp) (a b : α) : close l a = .ok b ↔ l = [] ∧ a = b := by
  cases l <;> simp [close]

theorem string_iff (e : Sexp) (s : Str) : string e = .ok s ↔ e = .str s := by
  cases e <;> simp [string]

theorem num_iff (e : Sexp) (x : F) : flt e = .ok x ↔ NumTree e x := by
  unfold NumTree FloatWord
  cases e with
  | str w =>
    rw [flt]
    cases h : (Flt.ofStr w : Option F) with
    | none => simp [h]
    | some y => simp [h]
  | list l => simp [flt]
  | empty => simp [flt]

theorem int_iff (e : Sexp) (x : Int) : int e = .ok x ↔ IntTree e x := by
  unfold IntTree
  cases e with
  | str w =>
    rw [int]
    simp only [Sexp.str.injEq, exists_eq_left', ← i64FromStr_iff]
    cases h : i64FromStr w with
    | none => simp [h]
    | some y => simp [h]
  | list l => simp [int]
  | empty => simp [int]

theorem namedValue_iff (n : Str) (e v : Sexp) : namedValue n e = .ok v ↔ e = .list [.str n, v] := by
  unfold namedValue
  split
  · split
    · rename_i h; subst h; simp
    · rename_i h; simp; intro h1; exact absurd h1 h
  · rename_i h
    constructor
    · intro h'; cases h'
    · rintro rfl; exact absurd rfl (h n v)

theorem inList_iff {α : Type} {dec : Sexp → Res α} {P : Sexp → α → Prop} (hd : ∀ x a, dec x = .ok a ↔ P x a) (n : Str)
    (e : Sexp) (a : α) : inList n dec e = .ok a ↔ Named n P e a := by
  unfold inList Named
  simp only [Res.bind_eq_ok, namedValue_iff, hd]

theorem literal_iff (n : Str) (e : Sexp) (s : Str) : literal n e = .ok s ↔ e = .str n ∧ s = n := by
  unfold literal
  split
  · split
    · rename_i h; subst h; simp [eq_comm]
    · rename_i h; simp [h]
  · rename_i h
    constructor
    · intro h'; cases h'
    · rintro ⟨rfl, _⟩; exact absurd rfl (h n)

theorem vec_iff {α : Type} {dec : Sexp → Res α} {P : Sexp → α → Prop} (hd : ∀ x a, dec x = .ok a ↔ P x a)
    (l : List Sexp) (as : List α) : vec dec l = .ok as ↔ Many P l as := by
  induction l generalizing as with
  | nil =>
    constructor
    · intro h; cases h; exact .nil
    · intro h; cases h; rfl
  | cons x l ih =>
    rw [vec]
    simp only [Res.bind_eq_ok, hd, ih]
    constructor
    · rintro ⟨a, h1, as', h2, h⟩; cases h; exact .cons h1 h2
    · intro h; cases h with | cons h1 h2 => exact ⟨_, h1, _, h2, rfl⟩

theorem maybe_split {α : Type} {dec : Sexp → Res α} {P : Sexp → α → Prop} (hd : ∀ x a, dec x = .ok a ↔ P x a)
    {l : List Sexp} {o : Option α} {r : List Sexp} (h : maybe dec l = .ok (o, r)) : ∃ a, l = a ++ r ∧ Opt P a o := by
  cases l with
  | nil => cases h; exact ⟨[], rfl, .inl ⟨rfl, rfl⟩⟩
  | cons x l =>
    rw [maybe] at h
    cases hx : dec x with
    | ok a =>
      rw [hx] at h
      cases h
      exact ⟨[x], rfl, .inr ⟨x, a, rfl, (hd x a).1 hx, rfl⟩⟩
    | err e => rw [hx] at h; cases h; exact ⟨[], rfl, .inl ⟨rfl, rfl⟩⟩
    | panic => rw [hx] at h; cases h
    | diverge => rw [hx] at h; cases h

/-- The next tree, if any, is not one of these. -/
def Free {α : Type} (P : Sexp → α → Prop) (rest : List Sexp) : Prop := ∀ x r, rest = x :: r → ∀ b, ¬ P x b

theorem maybe_take {α : Type} {dec : Sexp → Res α} {P : Sexp → α → Prop} (hd : ∀ x a, dec x = .ok a ↔ P x a)
    (hc : ∀ e, (dec e).Calm) {a rest : List Sexp} {o : Option α} (h : Opt P a o) (hn : Free P rest) :
    maybe dec (a ++ rest) = .ok (o, rest) := by
  rcases h with ⟨rfl, rfl⟩ | ⟨x, b, rfl, hx, rfl⟩
  · cases rest with
    | nil => rfl
    | cons x r =>
      rw [List.nil_append, maybe]
      cases hx : dec x with
      | ok b => exact absurd ((hd x b).1 hx) (hn x r rfl b)
      | err e => rfl
      | panic => exact absurd hx (hc x).1
      | diverge => exact absurd hx (hc x).2
  · rw [List.cons_append, List.nil_append, maybe, (hd x b).2 hx]

theorem maybe_take' {α : Type} {dec : Sexp → Res α} {P : Sexp → α → Prop} (hd : ∀ x a, dec x = .ok a ↔ P x a)
    (hc : ∀ e, (dec e).Calm) {a rest : List Sexp} {o : Option α} (h : Opt P a o) (hn : a = [] → Free P rest) :
    maybe dec (a ++ rest) = .ok (o, rest) := by
  rcases h with ⟨rfl, rfl⟩ | ⟨x, b, rfl, hx, rfl⟩
  · exact maybe_take hd hc (.inl ⟨rfl, rfl⟩) (hn rfl)
  · rw [List.cons_append, List.nil_append, maybe, (hd x b).2 hx]

theorem maybe_nil {α : Type} {dec : Sexp → Res α} {l r : List Sexp} (hd : ∀ e, (dec e).Calm) (h : maybe dec l = .ok (none, r)) :
    l = r ∧ ∀ x s, r = x :: s → ∀ b, dec x ≠ .ok b := by
  cases l with
  | nil => cases h; exact ⟨rfl, by intro x s e; cases e⟩
  | cons x l =>
    rw [maybe] at h
    cases hx : dec x with
    | ok a => rw [hx] at h; cases h
    | err e => rw [hx] at h; cases h; refine ⟨rfl, ?_⟩; intro y s e b hb; cases e; rw [hx] at hb; cases hb
    | panic => rw [hx] at h; cases h
    | diverge => rw [hx] at h; cases h

/-- The name at the head of a list. -/
def headOf : Sexp → Option Str
  | .list (.str n :: _) => some n
  | _ => none

/-- The next tree, if any, has one of these heads. -/
def Heads (hs : List (Option Str)) (rest : List Sexp) : Prop := ∀ x r, rest = x :: r → headOf x ∈ hs

theorem heads_nil : Heads [] [] := by intro x r h; cases h

theorem heads_opt {α : Type} {P : Sexp → α → Prop} {ps hs : List (Option Str)} (hp : ∀ x a, P x a → headOf x ∈ ps)
    {l rest : List Sexp} {o : Option α} (h : Opt P l o) (hr : Heads hs rest) : Heads (ps ++ hs) (l ++ rest) := by
  rcases h with ⟨rfl, rfl⟩ | ⟨x, b, rfl, hx, rfl⟩
  · intro x r e
    exact List.mem_append_right _ (hr x r e)
  · intro y r e
    cases e
    exact List.mem_append_left _ (hp _ _ hx)

theorem heads_last {α : Type} {P : Sexp → α → Prop} {ps : List (Option Str)} (hp : ∀ x a, P x a → headOf x ∈ ps)
    {l : List Sexp} {o : Option α} (h : Opt P l o) : Heads ps l := by
  have := heads_opt hp h heads_nil
  simpa using this

theorem heads_many {α : Type} {P : Sexp → α → Prop} {ps : List (Option Str)} (hp : ∀ x a, P x a → headOf x ∈ ps)
    {l : List Sexp} {o : List α} (h : Many P l o) : Heads ps l := by
  cases h with
  | nil => intro x r e; cases e
  | cons hx h => intro x r e; cases e; exact hp _ _ hx

theorem heads_word (w : Str) (b : Bool) {hs : List (Option Str)} {rest : List Sexp} (hr : Heads hs rest) :
    Heads (none :: hs) ((if b then [.str w] else []) ++ rest) := by
  cases b
  · intro x r e; exact List.mem_cons_of_mem _ (hr x r e)
  · intro x r e; cases e; exact List.mem_cons_self

theorem free_of_heads {α : Type} {P : Sexp → α → Prop} {ps hs : List (Option Str)} (hp : ∀ x a, P x a → headOf x ∈ ps)
    {rest : List Sexp} (hr : Heads hs rest) (h : ∀ p ∈ ps, p ∉ hs) : Free P rest := by
  intro x r e b hb
  exact h _ (hp x b hb) (hr x r e)

theorem free_nil {α : Type} (P : Sexp → α → Prop) : Free P [] := by intro x r e; cases e

theorem opt_word (w : Str) (b : Bool) (l : List Sexp) :
    l = (if b then [.str w] else []) ↔ ∃ o : Option Str, Opt (fun e s => e = .str w ∧ s = w) l o ∧ b = o.isSome := by
  constructor
  · rintro rfl
    cases b
    · exact ⟨none, .inl ⟨rfl, rfl⟩, rfl⟩
    · exact ⟨some w, .inr ⟨_, _, rfl, ⟨rfl, rfl⟩, rfl⟩, rfl⟩
  · rintro ⟨o, ⟨rfl, rfl⟩ | ⟨x, a, rfl, ⟨rfl, rfl⟩, rfl⟩, rfl⟩ <;> rfl

theorem word_head (w : Str) : ∀ x (a : Str), (x = Sexp.str w ∧ a = w) → headOf x ∈ [none] := by
  rintro x a ⟨rfl, rfl⟩; simp [headOf]

theorem num_head (x : Sexp) (a : F) (h : NumTree x a) : headOf x ∈ [none] := by
  obtain ⟨w, rfl, _⟩ := h; simp [headOf]

theorem named_head {α : Type} (P : Sexp → α → Prop) (n : Str) (x : Sexp) (a : α) (h : Named n P x a) :
    headOf x ∈ [some n] := by
  obtain ⟨v, rfl, _⟩ := h; simp [headOf]

theorem firstValue_iff {α : Type} {dec : Sexp → Res α} {P : Sexp → α → Prop} (hd : ∀ x a, dec x = .ok a ↔ P x a)
    (n : Str) (r : List Sexp) (a : α) : Fp.firstValue dec (.list (.str n :: r)) = .ok a ↔
      FirstValue n P (.list (.str n :: r)) a := by
  unfold Fp.firstValue FirstValue
  simp only [listName, Res.bind_ok, iter, if_true]
  constructor
  · intro h
    obtain ⟨⟨b, r'⟩, h1, h⟩ := Res.bind_eq_ok.1 h
    cases h
    obtain ⟨x, rfl, hx⟩ := (eat_iff ..).1 h1
    exact ⟨x, r', rfl, (hd ..).1 hx⟩
  · rintro ⟨v, rest, e, hv⟩
    cases e
    rw [eat, (hd ..).2 hv]
    rfl

/-! ## Hexadecimal numbers -/

theorem hexDigit_iff (c : Char) (d : Nat) : (digitVal? c = some d ∧ d < 16) ↔ HexDigit c d := by
  constructor
  · rintro ⟨h, hd⟩
    unfold digitVal? at h
    have hc : c.toNat = 48 + d ∧ d < 10 ∨ c.toNat = 55 + d ∧ 10 ≤ d ∨ c.toNat = 87 + d ∧ 10 ≤ d := by
      dsimp only at h
      split at h
      · cases h; omega
      · split at h
        · cases h; omega
        · split at h
          · cases h; omega
          · cases h
    have hof : c = Char.ofNat c.toNat := (Char.ofNat_toNat c).symm
    rcases hc with ⟨hc, h10⟩ | ⟨hc, h10⟩ | ⟨hc, h10⟩
    · rw [hc] at hof
      subst hof
      have : ∀ d < 10, HexDigit (Char.ofNat (48 + d)) d := by unfold HexDigit; decide
      exact this d h10
    · rw [hc] at hof
      subst hof
      have : ∀ d < 16, 10 ≤ d → HexDigit (Char.ofNat (55 + d)) d := by unfold HexDigit; decide
      exact this d hd h10
    · rw [hc] at hof
      subst hof
      have : ∀ d < 16, 10 ≤ d → HexDigit (Char.ofNat (87 + d)) d := by unfold HexDigit; decide
      exact this d hd h10
  · intro h
    have hd : d < 16 := by
      rcases h with h | h <;> exact (List.getElem?_eq_some_iff.1 h).1
    refine ⟨?_, hd⟩
    have h2 : ∀ d < 16, ((str! "0123456789ABCDEF")[d]?).bind digitVal? = some d ∧
      ((str! "0123456789abcdef")[d]?).bind digitVal? = some d := by decide
    have := h2 d hd
    rcases h with h | h
    · rw [h] at this; exact this.1
    · have := this.2; rw [h] at this; exact this

theorem readBase16_append (w : Str) (c : Char) (hw : w ≠ []) : readBase 16 (w ++ [c]) =
    (readBase 16 w).bind fun n => (digitVal? c).bind fun d => if d < 16 then some (n * 16 + d) else none := by
  unfold readBase
  rw [if_neg (by simp), if_neg (by simpa using hw), readDigits_append]

theorem readBase16_iff (w : Str) (n : Nat) : readBase 16 w = some n ↔ Hexadecimal w n := by
  constructor
  · generalize hk : w.length = k
    intro h
    induction k generalizing w n with
    | zero =>
      rw [List.length_eq_zero_iff] at hk
      subst hk
      cases h
    | succ k ih =>
      rcases List.eq_nil_or_concat w with rfl | ⟨v, c, rfl⟩
      · cases hk
      · rw [List.concat_eq_append] at h hk ⊢
        by_cases hv : v = []
        · subst hv
          have h1 : readBase 16 [c] = (digitVal? c).bind fun d => if d < 16 then some d else none := by
            unfold readBase readDigits
            simp only [List.isEmpty_cons, Bool.false_eq_true, if_false]
            cases digitVal? c <;> simp [readDigits]
          rw [List.nil_append, h1] at h
          obtain ⟨d, hd, h⟩ := Option.bind_eq_some_iff.1 h
          split at h
          · cases h
            exact .one ((hexDigit_iff c n).1 ⟨hd, by assumption⟩)
          · cases h
        · rw [readBase16_append v c hv] at h
          obtain ⟨m, hm, h⟩ := Option.bind_eq_some_iff.1 h
          obtain ⟨d, hd, h⟩ := Option.bind_eq_some_iff.1 h
          split at h
          · cases h
            rw [Nat.mul_comm]
            exact .more (ih v m (by simpa using hk) hm) ((hexDigit_iff c d).1 ⟨hd, by assumption⟩)
          · cases h
  · intro h
    induction h with
    | @one c d h =>
      obtain ⟨h1, h2⟩ := (hexDigit_iff c d).2 h
      simp [readBase, readDigits, h1, h2]
    | @more w n c d hw h ih =>
      obtain ⟨h1, h2⟩ := (hexDigit_iff c d).2 h
      have hne : w ≠ [] := by
        rintro rfl
        cases ih
      rw [readBase16_append w c hne, ih]
      simp [h1, h2, Nat.mul_comm]

theorem hex_head {w : Str} {n : Nat} (h : Hexadecimal w n) : ∃ c v, w = c :: v ∧ c ≠ '+' ∧ c ≠ '-' := by
  induction h with
  | @one c d h =>
    refine ⟨c, [], rfl, ?_⟩
    have := (hexDigit_iff c d).2 h
    constructor <;> (rintro rfl; have := this.1; revert this; simp [digitVal?])
  | more _ _ ih =>
    obtain ⟨c, v, rfl, hc⟩ := ih
    exact ⟨c, _, rfl, hc⟩

theorem hexWord_iff (w : Str) (i : Int) : readI64 16 w = some i ↔ HexWord w i := by
  unfold readI64 HexWord
  have chk : ∀ (o : Option Nat) (f : Nat → Int), (o.bind fun n => if inI64 (f n) then some (f n) else none) = some i ↔
      inI64 i ∧ ∃ n, o = some n ∧ i = f n := by
    intro o f
    cases o with
    | none => simp
    | some n =>
      simp only [Option.bind_some, Option.some.injEq]
      constructor
      · intro h
        split at h
        · cases h; exact ⟨by assumption, n, rfl, rfl⟩
        · cases h
      · rintro ⟨h, m, rfl, rfl⟩
        rw [if_pos h]
  split
  · rename_i cs
    rw [chk _ fun n => -(Int.ofNat n)]
    constructor
    · rintro ⟨h, n, hn, rfl⟩
      exact ⟨h.1, h.2, cs, n, (readBase16_iff _ _).1 hn, .inr (.inr ⟨rfl, rfl⟩)⟩
    · rintro ⟨h1, h2, v, n, hv, h | h | h⟩
      · obtain ⟨c, v', rfl, hc⟩ := hex_head hv
        exact absurd (List.cons.inj h.1).1.symm hc.2
      · cases h.1
      · obtain ⟨e, rfl⟩ := h
        cases e
        exact ⟨⟨h1, h2⟩, n, (readBase16_iff _ _).2 hv, rfl⟩
  · rename_i cs
    rw [chk _ fun n => Int.ofNat n]
    constructor
    · rintro ⟨h, n, hn, rfl⟩
      exact ⟨h.1, h.2, cs, n, (readBase16_iff _ _).1 hn, .inr (.inl ⟨rfl, rfl⟩)⟩
    · rintro ⟨h1, h2, v, n, hv, h | h | h⟩
      · obtain ⟨c, v', rfl, hc⟩ := hex_head hv
        exact absurd (List.cons.inj h.1).1.symm hc.1
      · obtain ⟨e, rfl⟩ := h
        cases e
        exact ⟨⟨h1, h2⟩, n, (readBase16_iff _ _).2 hv, rfl⟩
      · cases h.1
  · rename_i hn hp
    rw [chk _ fun n => Int.ofNat n]
    constructor
    · rintro ⟨h, n, hn, rfl⟩
      exact ⟨h.1, h.2, w, n, (readBase16_iff _ _).1 hn, .inl ⟨rfl, rfl⟩⟩
    · rintro ⟨h1, h2, v, n, hv, h | h | h⟩
      · obtain ⟨rfl, rfl⟩ := h
        exact ⟨⟨h1, h2⟩, n, (readBase16_iff _ _).2 hv, rfl⟩
      · exact absurd h.1 (hp v)
      · exact absurd h.1 (hn v)

end Tree
end Verif
