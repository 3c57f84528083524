import Verif.Model.SymbolLib
import Verif.Basic.Nm
/-!
# C17: finding and renaming symbols
-/

namespace Verif
open Lib Flt

variable {F : Type}

theorem Lib.find_go (f : Symbol F → Bool) (x : List (Symbol F)) :
    (∀ s, SymbolLib.find.go f x = some s ↔
      ∃ pre post, x = pre ++ s :: post ∧ f s = true ∧ ∀ y ∈ pre, f y = false) ∧
    (SymbolLib.find.go f x = none ↔ ∀ y ∈ x, f y = false) := by
  induction x with
  | nil => simp [SymbolLib.find.go]
  | cons a x ih =>
    rw [SymbolLib.find.go]
    by_cases ha : f a = true
    · rw [if_pos ha]
      constructor
      · intro s
        constructor
        · intro h
          cases h
          exact ⟨[], x, rfl, ha, by simp⟩
        · rintro ⟨pre, post, e, hs, hp⟩
          cases pre with
          | nil => cases e; rfl
          | cons b pre =>
            cases e
            rw [List.forall_mem_cons] at hp
            rw [ha] at hp
            cases hp.1
      · simp [ha]
    · rw [if_neg ha]
      have ha' : f a = false := by simpa using ha
      constructor
      · intro s
        rw [ih.1]
        constructor
        · rintro ⟨pre, post, e, hs, hp⟩
          exact ⟨a :: pre, post, by rw [e]; rfl, hs, by rw [List.forall_mem_cons]; exact ⟨ha', hp⟩⟩
        · rintro ⟨pre, post, e, hs, hp⟩
          cases pre with
          | nil => cases e; exact absurd hs ha
          | cons b pre =>
            cases e
            exact ⟨pre, post, rfl, hs, fun y hy => hp y (List.mem_cons_of_mem _ hy)⟩
      · rw [ih.2, List.forall_mem_cons]
        simp [ha']

/-- `find` returns a symbol exactly if it satisfies the predicate and no earlier symbol does. -/
theorem C17_find_first (l : SymbolLib F) (f : Symbol F → Bool) (s : Symbol F) :
    l.find f = some s ↔ ∃ pre post, l.symbols = pre ++ s :: post ∧ f s = true ∧ ∀ y ∈ pre, f y = false :=
  (find_go f l.symbols).1 s

/-- `find` returns nothing exactly if no symbol satisfies the predicate. -/
theorem C17_find_none (l : SymbolLib F) (f : Symbol F → Bool) :
    l.find f = none ↔ ∀ s ∈ l.symbols, f s = false := (find_go f l.symbols).2

/-- Renaming succeeds exactly for symbols that have a name and at least two fields; else it panics. -/
theorem C17_set_name_panics_iff (s : Symbol F) (n : Str) :
    s.setName n = .panic ↔ s.name = [] ∨ s.fields.length < 2 := by
  obtain ⟨name, ref, a, b, c, d, e, g, fields, al, dr⟩ := s
  cases name with
  | nil => simp [Symbol.setName, Sch.charAt]
  | cons ch name =>
    match fields with
    | [] => simp [Symbol.setName, Sch.charAt]
    | [_] => simp [Symbol.setName, Sch.charAt]
    | f0 :: f1 :: fs => simp [Symbol.setName, Sch.charAt]

/-- Renaming: the new name is `n`, behind a `~` exactly if the old name had one; the value of the second
field is `n`; and nothing else changes. -/
theorem C17_set_name (s s' : Symbol F) (n : Str) (h : s.setName n = .ok s') :
    s'.name = (if s.name.head? = some '~' then '~' :: n else n) ∧
    s'.fields.length = s.fields.length ∧
    (∀ f, s.fields[1]? = some f → s'.fields[1]? = some { f with value := n }) ∧
    (∀ i, i ≠ 1 → s'.fields[i]? = s.fields[i]?) ∧
    s'.reference = s.reference ∧ s'.textOffset = s.textOffset ∧ s'.drawPinnumber = s.drawPinnumber ∧
    s'.drawPinname = s.drawPinname ∧ s'.unitCount = s.unitCount ∧ s'.unitLocked = s.unitLocked ∧
    s'.isPower = s.isPower ∧ s'.aliases = s.aliases ∧ s'.draw = s.draw := by
  obtain ⟨name, ref, a, b, c, d, e, g, fields, al, dr⟩ := s
  cases name with
  | nil => simp [Symbol.setName, Sch.charAt] at h
  | cons ch name =>
    match fields with
    | [] => simp [Symbol.setName, Sch.charAt] at h
    | [_] => simp [Symbol.setName, Sch.charAt] at h
    | f0 :: f1 :: fs =>
      simp only [Symbol.setName, Sch.charAt, List.getElem?_cons_zero, Res.bind_ok] at h
      cases h
      refine ⟨by simp, by simp, by simp, ?_, rfl, rfl, rfl, rfl, rfl, rfl, rfl, rfl, rfl⟩
      intro i hi
      match i, hi with
      | 0, _ => rfl
      | i + 2, _ => rfl

/-- Only the last of two renamings counts. -/
theorem C17_set_name_twice (s s' : Symbol F) (n m : Str) (hn : n ≠ []) (hh : n.head? ≠ some '~')
    (h : s.setName n = .ok s') : s'.setName m = s.setName m := by
  obtain ⟨name, ref, a, b, c, d, e, g, fields, al, dr⟩ := s
  cases name with
  | nil => simp [Symbol.setName, Sch.charAt] at h
  | cons ch name =>
    match fields with
    | [] => simp [Symbol.setName, Sch.charAt] at h
    | [_] => simp [Symbol.setName, Sch.charAt] at h
    | f0 :: f1 :: fs =>
      simp only [Symbol.setName, Sch.charAt, List.getElem?_cons_zero, Res.bind_ok] at h
      cases h
      cases n with
      | nil => exact absurd rfl hn
      | cons x n =>
        have hx : ¬ x = '~' := by simpa using hh
        by_cases hc : ch = '~' <;> simp [Symbol.setName, Sch.charAt, hc, hx]

/-- Two fields of a sample symbol, the reference and the value field. -/
def Spec.refField : Lib.Field Nm :=
  ⟨0, str! "U", Flt.zero, Flt.zero, 50, .horizontal, true, .center, .center, false, false, str! "Reference"⟩

/-- The value field. -/
def Spec.valueField : Lib.Field Nm := { Spec.refField with i := 1, value := str! "OLD", name := str! "Value" }

/-- A symbol whose name is hidden. -/
def Spec.hiddenSymbol : Symbol Nm :=
  { (Symbol.new (str! "~OLD") (str! "U") : Symbol Nm) with fields := [Spec.refField, Spec.valueField] }

example : ∃ s, Spec.hiddenSymbol.setName (str! "NEW") = .ok s ∧ s.name = str! "~NEW" ∧
    (s.fields.map fun f => f.value) = [str! "U", str! "NEW"] := ⟨_, rfl, by decide, by decide⟩

/-- The code changes the second field, not the field numbered 1: when the fields are stored in another
order, the value field keeps its old value. -/
theorem C17_by_position : ∃ (s s' : Symbol Nm), s.setName (str! "NEW") = .ok s' ∧
    (∃ f ∈ s.fields, f.i = 1) ∧ ∀ f ∈ s'.fields, f.i = 1 → f.value = str! "OLD" :=
  ⟨{ Spec.hiddenSymbol with fields := [Spec.valueField, Spec.refField] }, _, rfl, by decide, by decide⟩

/-- The symbols that count as basic are the four with these names. -/
theorem C17_basic_iff (s : Symbol F) : s.isBasic = true ↔ s.name ∈ [str! "L", str! "R", str! "C", str! "D"] := by
  simp [Symbol.isBasic]

example : (Symbol.new (str! "C") (str! "C") : Symbol Nm).isBasic = true ∧
    (Symbol.new (str! "CAP") (str! "C") : Symbol Nm).isBasic = false := by decide

/-- A new symbol is one unlocked unit that is no power symbol, and it has nothing in it. -/
theorem C17_new [Flt F] (n r : Str) : ∃ s : Symbol F, s = Symbol.new n r ∧ s.name = n ∧ s.reference = r ∧ s.unitCount = 1 ∧
    s.unitLocked = false ∧ s.isPower = false ∧ s.drawPinname = false ∧ s.drawPinnumber = false ∧
    s.textOffset = Flt.zero ∧ s.fields = [] ∧ s.aliases = [] ∧ s.draw = [] ∧ s.pins = [] ∧
    s.isPowerSym = false ∧ (s.isGraphics = true ↔ ∃ t, r = '#' :: t) := by
  refine ⟨_, rfl, rfl, rfl, rfl, rfl, rfl, rfl, rfl, rfl, rfl, rfl, rfl, rfl, ?_, ?_⟩
  · simp [Symbol.isPowerSym, Symbol.new, Symbol.pins]
  · cases r with
    | nil => simp [Symbol.isGraphics, Symbol.new, Symbol.pins, startsWith]
    | cons c r =>
      simp only [Symbol.isGraphics, Symbol.new, Symbol.pins, startsWith, List.filterMap_nil, List.isEmpty_nil,
        Bool.and_true, List.isPrefixOf, beq_iff_eq, List.cons.injEq, exists_and_left, exists_eq', and_true]
      exact ⟨fun h => h.symm, fun h => h.symm⟩

end Verif
