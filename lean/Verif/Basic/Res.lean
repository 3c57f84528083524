/-!
# Outcomes of modelled Rust functions

`Res α` is the outcome of a call: a value, an error value (`Result::Err`), a
panic (index out of bounds, `unwrap` on `None`, `unreachable!`), or
non-termination (the recursion budget of a modelled unbounded recursion ran
out).
-/

namespace Verif

/-- The kinds of `KicadError` (src/error.rs 12-25).  Simplification: the
message text carried by each kind is dropped. -/
inductive Err where
  | parse | other | io | envVar | shellExpand | sexp
  deriving DecidableEq, Repr

/-- Outcome of a call (`Result<_, KicadError>`, src/error.rs 12-25). -/
inductive Res (α : Type) where
  | ok (a : α)
  | err (e : Err)
  | panic
  | diverge
  deriving Repr, DecidableEq

namespace Res

/-- The `?` operator: errors, panics and non-termination propagate. -/
@[inline] def bind {α β : Type} (x : Res α) (f : α → Res β) : Res β :=
  match x with
  | ok a => f a
  | err e => err e
  | panic => panic
  | diverge => diverge

instance : Monad Res where
  pure := Res.ok
  bind := Res.bind

@[simp] theorem pure_def {α : Type} (a : α) : (pure a : Res α) = ok a := rfl
@[simp] theorem bind_ok {α β : Type} (a : α) (f : α → Res β) : (ok a >>= f) = f a := rfl
@[simp] theorem bind_err {α β : Type} (e : Err) (f : α → Res β) : (err e >>= f) = err e := rfl
@[simp] theorem bind_panic {α β : Type} (f : α → Res β) : ((panic : Res α) >>= f) = panic := rfl
@[simp] theorem bind_diverge {α β : Type} (f : α → Res β) :
    ((diverge : Res α) >>= f) = diverge := rfl

theorem bind_assoc {α β γ : Type} (x : Res α) (f : α → Res β) (g : β → Res γ) :
    (x >>= f) >>= g = x >>= fun a => f a >>= g := by
  cases x <;> rfl

theorem bind_eq_ok {α β : Type} {x : Res α} {f : α → Res β} {b : β} :
    (x >>= f) = ok b ↔ ∃ a, x = ok a ∧ f a = ok b := by
  cases x <;> simp

theorem bind_eq_panic {α β : Type} {x : Res α} {f : α → Res β} :
    (x >>= f) = panic ↔ x = panic ∨ ∃ a, x = ok a ∧ f a = panic := by
  cases x <;> simp

theorem bind_eq_diverge {α β : Type} {x : Res α} {f : α → Res β} :
    (x >>= f) = diverge ↔ x = diverge ∨ ∃ a, x = ok a ∧ f a = diverge := by
  cases x <;> simp

/-- Map over the value. -/
def map {α β : Type} (f : α → β) : Res α → Res β
  | ok a => ok (f a)
  | err e => err e
  | panic => panic
  | diverge => diverge

@[simp] theorem map_ok {α β : Type} (f : α → β) (a : α) : (ok a).map f = ok (f a) := rfl

@[simp] theorem functor_map_ok {α β : Type} (f : α → β) (a : α) :
    (f <$> (ok a : Res α)) = ok (f a) := rfl

/-- A call returned normally, with a value or an error value. -/
def returns {α : Type} : Res α → Prop
  | ok _ => True
  | err _ => True
  | panic => False
  | diverge => False

end Res

end Verif
