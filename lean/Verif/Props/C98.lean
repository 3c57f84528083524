import Verif.Props.C89
import Verif.Props.C96
import Verif.Basic.Nm
/-!
# C98: the two ways of opening a file agree

Schematics and symbol libraries can be opened with `read_schematic` and `read_symbol_lib`,
which try other kinds of file first, or with `parse_file` of their own modules, which do
not.  Programs use either.
-/

namespace Verif
open Files Spec

variable {F : Type} [Flt F]

/-- A text that is accepted as one kind is rejected by the reader of another with the error
kind of that reader. -/
theorem Files.accepted_elsewhere (name text : Str) (k k' : FileKind) (h : Accepts F name text k) (hk : k' ≠ k) :
    RejectsWith F name text (rejection k') k' := by
  obtain ⟨e, he⟩ := others_reject (F := F) name text k k' (live_mark name text k (accepts_live name text k h)) hk
  have := C89_parsers name text e k' he
  rwa [this] at he

/-- The footprint reader and the board reader return. -/
theorem Files.tree_returns (text : Str) :
    ((∃ m, (Fp.parse text : Res (Fp.Module F)) = .ok m) ∨ ∃ e, (Fp.parse text : Res (Fp.Module F)) = .err e) ∧
    ((∃ m, (Lay.parse text : Res (Lay.Layout F)) = .ok m) ∨ ∃ e, (Lay.parse text : Res (Lay.Layout F)) = .err e) := by
  constructor
  · by_cases h : ∃ e, RejectsWith F [] text e .module_
    · exact .inr h
    · rcases kinds_end [] text _ h with h | h
      · exact .inl h
      · rcases panics_only _ _ _ h with h | h <;> cases h
  · by_cases h : ∃ e, RejectsWith F [] text e .layout
    · exact .inr h
    · rcases kinds_end [] text _ h with h | h
      · exact .inl h
      · rcases panics_only _ _ _ h with h | h <;> cases h

/-- `read_schematic` and `schematic::parse_file` do the same with every file: the same
schematic, the same kind of error, a panic in the same cases. -/
theorem C98_schematics (d : Disk) (w : Sch.World) (hw : w.read = d.read) (name : Str) :
    (readSchematic d name : Res (Sch.Schematic F)) = Sch.parseFile w name := by
  unfold readSchematic readKicadFile readFile Sch.parseFile
  rw [hw]
  cases d.read name with
  | none => rfl
  | some s =>
    simp only [Res.bind_ok]
    rcases (tree_returns (F := F) s).1 with ⟨m, hm⟩ | ⟨e, he⟩
    · have := accepted_elsewhere (F := F) name s .module_ .schematic ⟨m, hm⟩ (by decide)
      simp only [RejectsWith] at this
      rw [recognise, hm, this]
      rfl
    · rw [recognise, he]
      cases (Sch.parse (some name) s : Res (Sch.Schematic F)) <;> rfl

/-- `read_symbol_lib` and `symbol_lib::parse_file` do the same with every file that does not
make the schematic reader panic. -/
theorem C98_libraries (d : Disk) (name : Str)
    (h : ∀ s, d.read name = some s → ¬ Panics F name s .schematic) :
    (readSymbolLib d name : Res (Lib.SymbolLib F)) = parseLibFile d (some name) := by
  unfold readSymbolLib readKicadFile readFile parseLibFile
  simp only
  unfold readFile
  cases hd : d.read name with
  | none => rfl
  | some s =>
    simp only [Res.bind_ok]
    have hs := h s hd
    have acc : ∀ k, k ≠ .symbolLib → Accepts F name s k → (Lib.parseStr s : Res (Lib.SymbolLib F)) = .err .other :=
      fun k hk ha => accepted_elsewhere (F := F) name s k .symbolLib ha hk.symm
    rcases (tree_returns (F := F) s).1 with ⟨m, hm⟩ | ⟨e, he⟩
    · rw [recognise, hm, acc .module_ (by decide) ⟨m, hm⟩]
      rfl
    rw [recognise, he]
    cases hsch : (Sch.parse (some name) s : Res (Sch.Schematic F)) with
    | ok v =>
      rw [acc .schematic (by decide) ⟨v, hsch⟩]
      rfl
    | panic => exact absurd hsch hs
    | diverge => exact absurd hsch (Sch.parse_ends _ _)
    | err e =>
      rcases (tree_returns (F := F) s).2 with ⟨m, hm⟩ | ⟨e, he⟩
      · rw [hm, acc .layout (by decide) ⟨m, hm⟩]
        rfl
      · rw [he]
        cases (Lib.parseStr s : Res (Lib.SymbolLib F)) <;> rfl

/-- Otherwise `read_symbol_lib` panics although the file is no library, where
`symbol_lib::parse_file` reports an error. -/
theorem C98_libraries_panic (d : Disk) (name s : Str) (hd : d.read name = some s) (h : Panics F name s .schematic) :
    (readSymbolLib d name : Res (Lib.SymbolLib F)) = .panic ∧
    (parseLibFile d (some name) : Res (Lib.SymbolLib F)) = .err .other := by
  have hm := live_mark name s .schematic (panics_live name s .schematic h)
  have hrej : ∀ k, k ≠ .schematic → RejectsWith F name s (rejection k) k := by
    intro k hk
    obtain ⟨e, he⟩ := others_reject (F := F) name s .schematic k hm hk
    have := C89_parsers name s e k he
    rwa [this] at he
  have h0 := hrej .module_ (by decide)
  have h3 := hrej .symbolLib (by decide)
  simp only [RejectsWith, Panics] at h0 h3 h
  constructor
  · unfold readSymbolLib readKicadFile readFile
    rw [hd]
    simp only [Res.bind_ok]
    rw [recognise, h0, h]
    rfl
  · unfold parseLibFile
    simp only
    unfold readFile
    rw [hd]
    exact h3

/-- `read_module` does the same as reading the file and parsing its text as a footprint. -/
theorem C98_modules (d : Disk) (name : Str) :
    (readModule d name : Res (Fp.Module F)) = readFile d name >>= fun s => Fp.parse s := by
  unfold readModule readKicadFile
  cases readFile d name with
  | ok s =>
    simp only [Res.bind_ok]
    rcases (tree_returns (F := F) s).1 with ⟨m, hm⟩ | ⟨e, he⟩
    · rw [recognise, hm]; rfl
    · rw [recognise, he]; rfl
  | err e => rfl
  | panic => rfl
  | diverge => rfl

/-- `read_layout` returns a board exactly if reading the file and parsing its text as a board
does, and then the same board. -/
theorem C98_boards (d : Disk) (name : Str) (l : Lay.Layout F) :
    (readLayout d name : Res (Lay.Layout F)) = .ok l ↔ (readFile d name >>= fun s => Lay.parse s) = .ok l := by
  unfold readLayout readKicadFile
  cases hs : readFile d name with
  | err e => simp [Bind.bind, Res.bind]
  | panic => simp [Bind.bind, Res.bind]
  | diverge => simp [Bind.bind, Res.bind]
  | ok s =>
    simp only [Res.bind_ok]
    have other : ∀ k, k ≠ .layout → Accepts F name s k ∨ Panics F name s k → ¬ (Lay.parse s : Res (Lay.Layout F)) = .ok l := by
      intro k hk ha hl
      have hm : HasMark s (mark k) := ha.elim (fun h => live_mark name s k (accepts_live name s k h))
        (fun h => live_mark name s k (panics_live name s k h))
      obtain ⟨e, he⟩ := others_reject (F := F) name s k .layout hm hk.symm
      rw [show (Lay.parse s : Res (Lay.Layout F)) = .err e from he] at hl
      cases hl
    rcases (tree_returns (F := F) s).1 with ⟨m, hm⟩ | ⟨e, he⟩
    · rw [recognise, hm]
      have := other .module_ (by decide) (.inl ⟨m, hm⟩)
      simp only [this, iff_false]
      intro h; cases h
    rw [recognise, he]
    cases hsch : (Sch.parse (some name) s : Res (Sch.Schematic F)) with
    | ok v =>
      have := other .schematic (by decide) (.inl ⟨v, hsch⟩)
      simp only [this, iff_false]
      intro h; cases h
    | panic =>
      have := other .schematic (by decide) (.inr hsch)
      simp only [this, iff_false]
      intro h; cases h
    | diverge => exact absurd hsch (Sch.parse_ends _ _)
    | err e => cases (Lay.parse s : Res (Lay.Layout F)) <;> simp [probe, Bind.bind, Res.bind]

/-- A file name that is not text makes `symbol_lib::parse_file` panic, whatever is on the
disk; the other functions take any name. -/
theorem C98_strange_name (d : Disk) : (parseLibFile d none : Res (Lib.SymbolLib F)) = .panic := rfl

/-- Opening a library with `parse_file` never hangs and panics only for such a name or such
a library file. -/
theorem C98_library_outcomes (d : Disk) (name : Option Str) :
    (parseLibFile d name : Res (Lib.SymbolLib F)) ≠ .diverge ∧
    ((parseLibFile d name : Res (Lib.SymbolLib F)) = .panic ↔
      name = none ∨ ∃ n s, name = some n ∧ d.read n = some s ∧ Panics F n s .symbolLib) := by
  cases name with
  | none => simp [parseLibFile]
  | some n =>
    unfold parseLibFile readFile
    cases hd : d.read n with
    | none => simp [hd]
    | some s =>
      simp only [Res.bind_ok, reduceCtorEq, false_or, Option.some.injEq, exists_and_left, exists_eq_left', hd, Panics]
      exact ⟨C16_parse_terminates _, trivial⟩

/-- A disk with a good library, a good schematic and a damaged schematic. -/
def C98_disk : Disk := ⟨fun n =>
  if n = str! "a.lib" then some (str! "EESchema-LIBRARY Version 2.3\n#encoding utf-8\n#\n#End Library\n")
  else if n = str! "a.sch" then some (str! "EESchema Schematic File Version 2\nEELAYER 25 0\nEELAYER END\n")
  else if n = str! "b.sch" then some (str! "EESchema Schematic File Version 2\n")
  else none⟩

example : (readSymbolLib C98_disk (str! "a.lib") : Res (Lib.SymbolLib Nm)) = .ok ⟨[]⟩ := by
  rw [C98_libraries]
  · decide +kernel
  · intro s hs
    simp only [C98_disk, if_true, Option.some.injEq] at hs
    subst hs
    unfold Panics
    decide +kernel

example : Panics Nm (str! "b.sch") (str! "EESchema Schematic File Version 2\n") .schematic := by
  unfold Panics
  decide +kernel

end Verif
