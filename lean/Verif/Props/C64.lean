import Verif.Lemmas.ProgOut
import Verif.Props.C55
import Verif.Props.C58
import Verif.Props.C60
import Verif.Props.C48
import Verif.Props.C43
/-!
# C64: the programs that print layouts and footprints
-/

set_option linter.unusedSectionVars false

namespace Verif
open Flt Files Spec Res Prog

variable {F : Type} [Flt F]

theorem Prog.blank_newline : Blank (str! "\n") := by
  intro c hc
  simp only [List.mem_singleton] at hc
  subst hc; rfl

/-- Sending the output of a program to a file. -/
def Spec.redirect (r : Run) (name : Str) (d : Disk) : Disk :=
  { d with read := fun p => if p = name then some r.out else d.read p }

variable [TextLaws F] [ZeroLaws F]

theorem Prog.dumpLayout_ok (q : Str → Bool) (d : Disk) (name : Str) (rest : List Str) (l : Lay.Layout F)
    (h : readLayout d name = .ok l) :
    dumpLayout F q d (name :: rest) = .ok ⟨Lay.toText q 0 l ++ str! "\n", [(.info, name)]⟩ := by
  simp only [dumpLayout_eq, firstArg, bind_ok, h, Prog.unwrap, println]

theorem Prog.adjustLayout_ok (q : Str → Bool) (d : Disk) (name : Str) (rest : List Str) (l : Lay.Layout F)
    (h : readLayout d name = .ok l) :
    adjustLayout F q d (name :: rest) =
      .ok ⟨Lay.toText q 0 (l.adjust (lit 100 0) zero) ++ str! "\n", [(.info, name)]⟩ := by
  simp only [adjustLayout_eq, firstArg, bind_ok, h, Prog.unwrap, println, zero]

/-- `dump_layout` prints a file that reads back as the layout it was given. -/
theorem C64_dump_layout (q : Str → Bool) (hq : QuotesWhenNeeded q) (d : Disk) (name out : Str)
    (rest : List Str) (l : Lay.Layout F) (hl : SavableLayout l) (hc : CleanLayout l)
    (h : readLayout d name = .ok l) :
    ∃ r, dumpLayout F q d (name :: rest) = .ok r ∧ readLayout (redirect r out d) out = .ok l := by
  refine ⟨_, Prog.dumpLayout_ok q d name rest l h, ?_⟩
  exact ((C47_typed_readers _ out).2.2.1 l).2
    ⟨_, if_pos rfl, C35_layout_roundtrip q hq 0 l hl hc _ Prog.blank_newline⟩

/-- `adjust_layout` prints a file that reads back as the same layout with every
board point 100 to the right and nothing else changed. -/
theorem C64_adjust_layout (q : Str → Bool) (hq : QuotesWhenNeeded q) (d : Disk) (name out : Str)
    (rest : List Str) (l : Lay.Layout F) (hl : SavableLayout l) (hc : CleanLayout l)
    (h : readLayout d name = .ok l) :
    ∃ r l', adjustLayout F q d (name :: rest) = .ok r ∧ readLayout (redirect r out d) out = .ok l' ∧
      { l' with elements := l.elements } = l ∧
      l'.elements.map eraseBoardPoints = l.elements.map eraseBoardPoints ∧
      l'.elements.flatMap boardPoints =
        (l.elements.flatMap boardPoints).map fun p => (add p.1 (lit 100 0), add p.2 zero) := by
  obtain ⟨h1, h2⟩ := C60_edits_keep_savable [.move (lit 100 0) zero] (by simp [BoardEdit.Fits]) l
    (l.adjust (lit 100 0) zero) hl hc rfl
  refine ⟨_, l.adjust (lit 100 0) zero, Prog.adjustLayout_ok q d name rest l h, ?_, rfl, ?_, ?_⟩
  · exact ((C47_typed_readers _ out).2.2.1 _).2
      ⟨_, if_pos rfl, C35_layout_roundtrip q hq 0 _ h1 h2 _ Prog.blank_newline⟩
  · rw [(C43_adjust_layout l _ _).1, List.map_map]
    exact List.map_congr_left fun e _ => (C43_moves_points _ _ e).2.1
  · rw [(C43_adjust_layout l _ _).1, List.flatMap_map, List.map_flatMap]
    congr 1
    funext e
    exact (C43_moves_points _ _ e).1

/-- Running `adjust_layout` over and over, each time on the output of the run
before, moves the layout by 100 each time. -/
theorem C64_adjust_repeated (q : Str → Bool) (hq : QuotesWhenNeeded q) (name : Str) (n : Nat) (d : Disk)
    (l : Lay.Layout F) (hl : SavableLayout l) (hc : CleanLayout l) (h : readLayout d name = .ok l) :
    ∃ ds : Nat → Disk, ds 0 = d ∧
      (∀ i, i < n → ∃ r, adjustLayout F q (ds i) [name] = .ok r ∧ ds (i + 1) = redirect r name (ds i)) ∧
      readLayout (ds n) name = .ok ((fun l => l.adjust (lit 100 0) zero)^[n] l) := by
  induction n generalizing d l with
  | zero => exact ⟨fun _ => d, rfl, by simp, h⟩
  | succ n ih =>
    obtain ⟨h1, h2⟩ := C60_edits_keep_savable [.move (lit 100 0) zero] (by simp [BoardEdit.Fits]) l
      (l.adjust (lit 100 0) zero) hl hc rfl
    have hr := Prog.adjustLayout_ok q d name [] l h
    obtain ⟨ds, e0, e1, e2⟩ := ih (redirect _ name d) _ h1 h2
      (((C47_typed_readers (redirect ⟨_, [(.info, name)]⟩ name d) name).2.2.1 _).2
        ⟨_, if_pos rfl, C35_layout_roundtrip q hq 0 _ h1 h2 _ Prog.blank_newline⟩)
    refine ⟨fun i => match i with | 0 => d | i + 1 => ds i, rfl, ?_, ?_⟩
    · intro i hi
      cases i with
      | zero => exact ⟨_, hr, e0⟩
      | succ i => exact e1 i (by omega)
    · exact e2

/-- `dump_footprint` prints the name of the footprint on a line of its own and then
the footprint: what follows the first line reads back as the footprint. -/
theorem C64_dump_footprint (q : Str → Bool) (hq : QuotesWhenNeeded q) (d : Disk) (name : Str)
    (rest : List Str) (m : Fp.Module F) (hm : GoodModule m) (h : readModule d name = .ok m) :
    ∃ t, dumpFootprint F q d (name :: rest) = .ok ⟨m.name ++ str! "\n" ++ t, []⟩ ∧ Fp.parse t = .ok m := by
  refine ⟨Fp.toText q 0 m ++ str! "\n", ?_, C19_footprint_roundtrip q hq 0 m hm _ Prog.blank_newline⟩
  simp only [dumpFootprint_eq, firstArg, bind_ok, h, Prog.unwrap, println]

/-- The whole output of `dump_footprint` is not a footprint file, because of the line
with the name: it is rejected when read (if the name is visible and does not start
with a parenthesis). -/
theorem C64_dump_footprint_not_a_file (q : Str → Bool) (d : Disk) (name : Str) (rest : List Str) (r : Run)
    (m : Fp.Module F) (h : readModule d name = .ok m) (c : Char) (cs w : Str) (hb : Blank w)
    (hn : m.name = w ++ c :: cs) (hc : isSexpSpace c = false) (hp : c ≠ '(')
    (hr : dumpFootprint F q d (name :: rest) = .ok r) :
    ∃ e, (Fp.parse r.out : Res (Fp.Module F)) = .err e := by
  have h' : dumpFootprint F q d (name :: rest) =
      .ok ⟨m.name ++ str! "\n" ++ (Fp.toText q 0 m ++ str! "\n"), []⟩ := by
    simp only [dumpFootprint_eq, firstArg, bind_ok, h, Prog.unwrap, println]
  rw [h', Res.ok.injEq] at hr
  subst hr
  refine (C58_rejects_no_paren _ ?_).1
  intro w' r' hb' heq
  simp only [hn, List.append_assoc, List.cons_append] at heq
  -- the first visible character is both `c` and the parenthesis
  clear hn h' h
  induction w generalizing w' with
  | nil =>
    cases w' with
    | nil => simp at heq; exact hp heq.1
    | cons a w' =>
      simp at heq
      have := hb' a (List.mem_cons_self ..)
      rw [← heq.1, hc] at this
      cases this
  | cons b w ih =>
    cases w' with
    | nil =>
      simp at heq
      have := hb b (List.mem_cons_self ..)
      rw [heq.1] at this
      exact absurd this (by decide)
    | cons a w' =>
      simp at heq
      exact ih (fun x hx => hb x (List.mem_cons_of_mem _ hx)) w'
        (fun x hx => hb' x (List.mem_cons_of_mem _ hx)) heq.2

/-- The three programs panic (instead of printing) exactly when there is no argument
or the file cannot be read as a layout or footprint, and they always end. -/
theorem C64_panics (q : Str → Bool) (d : Disk) (args : List Str) :
    (dumpLayout F q d args ≠ .diverge ∧ adjustLayout F q d args ≠ .diverge ∧ dumpFootprint F q d args ≠ .diverge) ∧
    (dumpLayout F q d args = .panic ↔ ∀ name rest l, args = name :: rest → readLayout (F := F) d name ≠ .ok l) ∧
    (adjustLayout F q d args = .panic ↔ ∀ name rest l, args = name :: rest → readLayout (F := F) d name ≠ .ok l) ∧
    (dumpFootprint F q d args = .panic ↔ ∀ name rest m, args = name :: rest → readModule (F := F) d name ≠ .ok m) := by
  cases args with
  | nil => simp [dumpLayout_eq, adjustLayout_eq, dumpFootprint_eq, firstArg]
  | cons name rest =>
    have h1 : (readKicadFile d name .layout : Res (KicadFile F)) ≠ .diverge := C48_ends d name .layout
    have h2 : (readKicadFile d name .module_ : Res (KicadFile F)) ≠ .diverge := C48_ends d name .module_
    have hl : (readLayout d name : Res (Lay.Layout F)) ≠ .diverge := by
      intro h
      rcases Res.bind_eq_diverge.1 h with h | ⟨f, _, h⟩
      · exact h1 h
      · cases f <;> cases h
    have hm : (readModule d name : Res (Fp.Module F)) ≠ .diverge := by
      intro h
      rcases Res.bind_eq_diverge.1 h with h | ⟨f, _, h⟩
      · exact h2 h
      · cases f <;> cases h
    simp only [dumpLayout_eq, adjustLayout_eq, dumpFootprint_eq, firstArg, bind_ok, List.cons.injEq]
    refine ⟨⟨?_, ?_, ?_⟩, ?_, ?_, ?_⟩
    · cases h : (readLayout d name : Res (Lay.Layout F)) <;> simp_all [Prog.unwrap]
    · cases h : (readLayout d name : Res (Lay.Layout F)) <;> simp_all [Prog.unwrap]
    · cases h : (readModule d name : Res (Fp.Module F)) <;> simp_all [Prog.unwrap]
    · cases h : (readLayout d name : Res (Lay.Layout F)) <;> simp_all [Prog.unwrap]
      all_goals (rintro _ _ _ rfl rfl hx; rw [h] at hx; cases hx)
    · cases h : (readLayout d name : Res (Lay.Layout F)) <;> simp_all [Prog.unwrap]
      all_goals (rintro _ _ _ rfl rfl hx; rw [h] at hx; cases hx)
    · cases h : (readModule d name : Res (Fp.Module F)) <;> simp_all [Prog.unwrap]
      all_goals (rintro _ _ _ rfl rfl hx; rw [h] at hx; cases hx)

/-- A disk with a footprint and a layout. -/
def Spec.boardDisk : Disk :=
  { read := fun p => if p = str! "m" then some (Fp.toText Fm.stdQuote 0 sampleModule)
      else if p = str! "l" then some (Lay.toText Fm.stdQuote 0 sampleLayout) else none, }

theorem Spec.boardDisk_layout : readLayout boardDisk (str! "l") = .ok sampleLayout := by
  refine ((C47_typed_readers _ _).2.2.1 _).2 ⟨_, rfl, ?_⟩
  have := C35_layout_roundtrip _ stdQuote_quotes 0 _ sampleLayout_savable sampleLayout_clean [] Sexp.Text.blank_nil
  rwa [List.append_nil] at this

theorem Spec.boardDisk_module : readModule boardDisk (str! "m") = .ok sampleModule := by
  refine ((C47_typed_readers _ _).1 _).2 ⟨_, rfl, ?_⟩
  have := C19_footprint_roundtrip _ stdQuote_quotes 0 _ sampleModule_good [] Sexp.Text.blank_nil
  rwa [List.append_nil] at this

example : ∃ r l', adjustLayout Nm Fm.stdQuote boardDisk [str! "l"] = .ok r ∧
    readLayout (redirect r (str! "x") boardDisk) (str! "x") = .ok l' ∧
    l'.elements.map eraseBoardPoints = sampleLayout.elements.map eraseBoardPoints := by
  obtain ⟨r, l', h1, h2, _, h3, _⟩ := C64_adjust_layout _ stdQuote_quotes boardDisk (str! "l") (str! "x") [] _
    sampleLayout_savable sampleLayout_clean boardDisk_layout
  exact ⟨r, l', h1, h2, h3⟩
example : ∃ t, dumpFootprint Nm Fm.stdQuote boardDisk [str! "m"] = .ok ⟨sampleModule.name ++ str! "\n" ++ t, []⟩ ∧
    Fp.parse t = .ok sampleModule :=
  C64_dump_footprint _ stdQuote_quotes _ _ _ _ sampleModule_good boardDisk_module
example : ∃ c cs, sampleModule.name = [] ++ c :: cs ∧ isSexpSpace c = false ∧ c ≠ '(' :=
  ⟨_, _, rfl, by decide, by decide⟩

end Verif
