import Verif.Model.TreeMsg
import Verif.Spec.TreeBlame
import Verif.Lemmas.LayBoardGrammar
/-!
# Lemmas: the messages about footprints and boards
-/

set_option linter.unusedSimpArgs false

namespace Verif
open Spec Sx Tree Flt

variable {F : Type} [Flt F]

namespace Answer

@[simp] theorem bind_ok {α β : Type} (a : α) (f : α → Answer β) : (ok a >>= f) = f a := rfl
@[simp] theorem bind_own {α β : Type} (m : Str) (f : α → Answer β) : (own m >>= f) = own m := rfl
@[simp] theorem bind_lib {α β : Type} (k : Err) (f : α → Answer β) : (lib k >>= f) = lib k := rfl
@[simp] theorem bind_panic {α β : Type} (f : α → Answer β) : ((panic : Answer α) >>= f) = panic := rfl
@[simp] theorem bind_diverge {α β : Type} (f : α → Answer β) : ((diverge : Answer α) >>= f) = diverge := rfl

theorem bind_eq_own {α β : Type} {x : Answer α} {f : α → Answer β} {m : Str} :
    (x >>= f) = own m ↔ x = own m ∨ ∃ a, x = ok a ∧ f a = own m := by
  cases x <;> simp

theorem map_eq {α β : Type} (f : α → β) (x : Answer α) : f <$> x = (x >>= fun a => ok (f a)) := by
  cases x <;> rfl

theorem map_eq_own {α β : Type} (f : α → β) (x : Answer α) (m : Str) : f <$> x = own m ↔ x = own m := by
  rw [map_eq, bind_eq_own]
  simp

@[simp] theorem forget_ok {α : Type} (a : α) : forget (ok a) = .ok a := rfl
@[simp] theorem forget_own {α : Type} (m : Str) : forget (own m : Answer α) = .err .sexp := rfl
@[simp] theorem forget_panic {α : Type} : forget (panic : Answer α) = .panic := rfl

@[simp] theorem forget_bind {α β : Type} (x : Answer α) (f : α → Answer β) :
    forget (x >>= f) = (forget x >>= fun a => forget (f a)) := by
  cases x <;> rfl

@[simp] theorem forget_lift {α : Type} (x : Res α) : forget (lift x) = x := by cases x <;> rfl

@[simp] theorem forget_map {α β : Type} (f : α → β) (x : Answer α) : forget (f <$> x) = f <$> forget x := by
  cases x <;> rfl

theorem forget_ite {α : Type} {c : Prop} [Decidable c] (a b : Answer α) :
    forget (if c then a else b) = if c then forget a else forget b := by
  split <;> rfl

theorem eq_ok {α : Type} {x : Answer α} {a : α} : x = ok a ↔ forget x = .ok a := by
  cases x <;> simp [forget]

theorem lift_own {α : Type} (x : Res α) (m : Str) : ¬ lift x = own m := by
  cases x <;> simp [lift]

theorem lift_eq_ok {α : Type} {x : Res α} {a : α} : lift x = ok a ↔ x = .ok a := by
  cases x <;> simp [lift]

theorem lift_bind_own {α β : Type} {x : Res α} {f : α → Answer β} {m : Str} :
    (lift x >>= f) = own m ↔ ∃ a, x = .ok a ∧ f a = own m := by
  cases x <;> simp [lift]

end Answer

open Answer

namespace Sx.Msg

@[simp] theorem forget_eat {α : Type} (dec : Sexp → Answer α) (l : List Sexp) :
    (eat dec l).forget = Sx.eat (fun e => (dec e).forget) l := by
  cases l with
  | nil => rfl
  | cons x l => simp [eat, Sx.eat]

@[simp] theorem forget_vec {α : Type} (dec : Sexp → Answer α) (l : List Sexp) :
    (vec dec l).forget = Sx.vec (fun e => (dec e).forget) l := by
  induction l with
  | nil => rfl
  | cons x l ih => simp [vec, Sx.vec, ih]

@[simp] theorem forget_inList {α : Type} (n : Str) (dec : Sexp → Answer α) (e : Sexp) :
    (inList n dec e).forget = Sx.inList n (fun e => (dec e).forget) e := by
  simp [inList, Sx.inList]

theorem vec_own {α : Type} {dec : Sexp → Answer α} {P : Sexp → Prop} {Q : Sexp → Str → Prop}
    (hP : ∀ x, (∃ a, dec x = .ok a) ↔ P x) (hQ : ∀ x m, dec x = .own m ↔ Q x m) (l : List Sexp) (m : Str) :
    vec dec l = .own m ↔ FirstFault P Q l m := by
  induction l with
  | nil =>
    constructor
    · intro h; cases h
    · rintro ⟨pre, x, post, h, _⟩; cases pre <;> cases h
  | cons x l ih =>
    rw [vec, bind_eq_own]
    simp only [bind_eq_own, ih]
    constructor
    · rintro (h | ⟨a, ha, h | ⟨b, _, h⟩⟩)
      · exact ⟨[], x, l, rfl, by simp, (hQ ..).1 h⟩
      · obtain ⟨pre, y, post, rfl, hp, hy⟩ := h
        refine ⟨x :: pre, y, post, rfl, ?_, hy⟩
        intro z hz
        rcases List.mem_cons.1 hz with rfl | hz
        · exact (hP _).1 ⟨a, ha⟩
        · exact hp z hz
      · cases h
    · rintro ⟨pre, y, post, h, hp, hy⟩
      cases pre with
      | nil => cases h; exact .inl ((hQ ..).2 hy)
      | cons z pre =>
        cases h
        obtain ⟨a, ha⟩ := (hP _).2 (hp x List.mem_cons_self)
        exact .inr ⟨a, ha, .inl ⟨pre, y, post, rfl, fun z hz => hp z (List.mem_cons_of_mem _ hz), hy⟩⟩

theorem inList_own {α : Type} {dec : Sexp → Answer α} {Q : Sexp → Str → Prop} (hQ : ∀ x m, dec x = .own m ↔ Q x m) (n : Str)
    (e : Sexp) (m : Str) : inList n dec e = .own m ↔ ∃ v, e = .list [.str n, v] ∧ Q v m := by
  rw [inList, lift_bind_own]
  simp only [namedValue_iff, hQ]

/-! ## Spots -/

theorem eat_spot {α β : Type} {dec : Sexp → Answer α} {P : Sexp → Prop} {Q : Sexp → Str → Prop}
    {k : α × List Sexp → Answer β} {ss : List Spot} {m : Str}
    (hP : ∀ x, (∃ a, dec x = .ok a) ↔ P x) (hQ : ∀ x m, dec x = .own m ↔ Q x m)
    (hk : ∀ a r, k (a, r) = .own m ↔ Blame ss r m) (l : List Sexp) :
    (eat dec l >>= k) = .own m ↔ Blame (.need P Q :: ss) l m := by
  cases l with
  | nil =>
    constructor
    · intro h; cases h
    · intro h; cases h
  | cons x l =>
    rw [eat, bind_eq_own]
    simp only [bind_eq_own]
    constructor
    · rintro ((h | ⟨a, ha, h⟩) | ⟨⟨a, r⟩, ha, h⟩)
      · exact .here ((hQ ..).1 h)
      · cases h
      · rw [eq_ok] at ha
        simp only [forget_bind, Res.bind_eq_ok] at ha
        obtain ⟨b, hb, ha⟩ := ha
        cases ha
        exact .next ((hP _).1 ⟨a, eq_ok.2 hb⟩) ((hk ..).1 h)
    · intro h
      cases h with
      | here h => exact .inl (.inl ((hQ ..).2 h))
      | next hx h =>
        obtain ⟨a, ha⟩ := (hP _).2 hx
        refine .inr ⟨(a, l), ?_, (hk ..).2 h⟩
        rw [ha]
        rfl

theorem eat_lift_spot {α β : Type} {dec : Sexp → Res α} {P : Sexp → α → Prop} {k : α × List Sexp → Answer β}
    {ss : List Spot} {m : Str} (hP : ∀ x a, dec x = .ok a ↔ P x a)
    (hk : ∀ a r, k (a, r) = .own m ↔ Blame ss r m) (l : List Sexp) :
    (lift (Sx.eat dec l) >>= k) = .own m ↔ Blame (.need (Reads P) Silent :: ss) l m := by
  rw [lift_bind_own]
  constructor
  · rintro ⟨⟨a, r⟩, h, h2⟩
    obtain ⟨x, rfl, hx⟩ := (eat_iff ..).1 h
    exact .next ⟨a, (hP ..).1 hx⟩ ((hk ..).1 h2)
  · intro h
    cases h with
    | here h => exact h.elim
    | next hx h =>
      obtain ⟨a, ha⟩ := hx
      exact ⟨(a, _), (eat_iff ..).2 ⟨_, rfl, (hP ..).2 ha⟩, (hk ..).2 h⟩

theorem maybe_spot' {α β : Type} {dec : Sexp → Res α} {P : Sexp → Prop} {k : Option α × List Sexp → Answer β}
    {ss : List Spot} {m : Str} (hP : ∀ x, (∃ a, dec x = .ok a) ↔ P x) (hc : ∀ e, (dec e).Calm)
    (hk : ∀ a r, k (a, r) = .own m ↔ Blame ss r m) (l : List Sexp) :
    (lift (maybe dec l) >>= k) = .own m ↔ Blame (.may P :: ss) l m := by
  rw [lift_bind_own]
  cases l with
  | nil =>
    constructor
    · rintro ⟨⟨a, r⟩, h, h2⟩
      cases h
      exact .absent (by intro x r h; cases h) ((hk ..).1 h2)
    · intro h
      cases h with
      | absent hx h => exact ⟨_, rfl, (hk ..).2 h⟩
  | cons x l =>
    rw [maybe]
    cases hx : dec x with
    | ok a =>
      have hp : P x := (hP _).1 ⟨a, hx⟩
      constructor
      · rintro ⟨⟨b, r⟩, h, h2⟩
        cases h
        exact .taken hp ((hk ..).1 h2)
      · intro h
        cases h with
        | taken _ h => exact ⟨_, rfl, (hk ..).2 h⟩
        | absent hn h => exact absurd hp (hn _ _ rfl)
    | err e =>
      have hp : ¬ P x := by
        intro h
        obtain ⟨a, ha⟩ := (hP _).2 h
        rw [hx] at ha
        cases ha
      constructor
      · rintro ⟨⟨b, r⟩, h, h2⟩
        cases h
        exact .absent (by intro y r h; cases h; exact hp) ((hk ..).1 h2)
      · intro h
        cases h with
        | taken hn h => exact absurd hn hp
        | absent _ h => exact ⟨_, rfl, (hk ..).2 h⟩
    | panic => exact absurd hx (hc x).1
    | diverge => exact absurd hx (hc x).2

theorem maybe_spot {α β : Type} {dec : Sexp → Res α} {P : Sexp → α → Prop} {k : Option α × List Sexp → Answer β}
    {ss : List Spot} {m : Str} (hP : ∀ x a, dec x = .ok a ↔ P x a) (hc : ∀ e, (dec e).Calm)
    (hk : ∀ a r, k (a, r) = .own m ↔ Blame ss r m) (l : List Sexp) :
    (lift (maybe dec l) >>= k) = .own m ↔ Blame (.may (Reads P) :: ss) l m :=
  maybe_spot' (fun x => by simp only [hP, Reads]) hc hk l

/-- No spot is left for a message. -/
theorem blame_nil (l : List Sexp) (m : Str) : ¬ Blame [] l m := by intro h; cases h

theorem blame_rest (R : List Sexp → Str → Prop) (l : List Sexp) (m : Str) : Blame [.rest R] l m ↔ R l m :=
  ⟨fun h => by cases h; assumption, fun h => .rest h⟩

theorem within_iff {α : Type} {n : Str} {e : Sexp} {k : List Sexp → Answer α} {ss : List Spot} {m : Str}
    (hk : ∀ r, k r = .own m ↔ Blame ss r m) : (lift (iter n e) >>= k) = .own m ↔ PartOf n ss e m := by
  rw [lift_bind_own, PartOf]
  simp only [iter_iff, hk]

/-- A continuation without messages. -/
def Quiet {α : Type} (x : Answer α) : Prop := ∀ m, ¬ x = .own m

theorem quiet_lift {α : Type} (x : Res α) : Quiet (lift x) := fun m => lift_own x m

theorem quiet_ok {α : Type} (a : α) : Quiet (.ok a) := by intro m h; cases h

theorem quiet_bind {α β : Type} {x : Res α} {k : α → Answer β} (h : ∀ a, Quiet (k a)) : Quiet (lift x >>= k) := by
  intro m hm
  obtain ⟨a, _, ha⟩ := lift_bind_own.1 hm
  exact h a m ha

theorem quiet_done {α : Type} {x : Answer α} (h : Quiet x) (l : List Sexp) (m : Str) : x = .own m ↔ Blame [] l m :=
  ⟨fun e => absurd e (h m), fun e => absurd e (blame_nil l m)⟩

end Sx.Msg

end Verif
