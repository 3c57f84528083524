import Verif.Lemmas.ErrKind
import Verif.Props.C48
/-!
# C89: the kind of an error tells what went wrong
-/

namespace Verif
open Flt Files Spec Res

variable {F : Type} [Flt F]

/-- The kind of error by which a text is rejected as a file of a given kind: the formats
written as expressions report the expression library's error, the others a message. -/
def Spec.rejection : FileKind → Err
  | .module_ | .layout | .fpLibTable => .sexp
  | .schematic | .symbolLib | .project => .other

/-- Every text that one of the six parsers rejects is rejected with the kind of error that
belongs to that parser; `KicadError::Parse` is never used. -/
theorem C89_parsers (name text : Str) (e : Err) (k : FileKind) (h : RejectsWith F name text e k) :
    e = rejection k := by
  cases k
  · exact Fp.parse_fails _ _ h
  · exact Sch.parse_fails _ _ _ h
  · exact Lay.parse_fails _ _ h
  · exact Lib.parseStr_fails _ _ h
  · exact Pro.parseStr_fails _ _ h
  · exact Tbl.parse_fails _ _ h

example : RejectsWith Nm [] (str! "(module") .sexp .module_ ∧ RejectsWith Nm [] (str! "EESchema Schematic File") .other .schematic :=
  ⟨rfl, rfl⟩

/-- `schematic::parse_str` and the value parsers of the line formats give messages only,
whichever file name is recorded. -/
theorem C89_schematic_text (fn : Option Str) (t : Str) (e : Err)
    (h : (Sch.parse fn t : Res (Sch.Schematic F)) = .err e) : e = .other := Sch.parse_fails _ _ _ h

/-- What the error of `read_kicad_file` says, for every file system, name and expectation:
an I/O error exactly if the file cannot be read, and otherwise the error of the kind asked
for, because the text is not a file of that kind nor of one tried before it.  There are no
other errors. -/
theorem C89_any_file (d : Disk) (name : Str) (e : Expected) (x : Err) :
    (readKicadFile d name e : Res (KicadFile F)) = .err x ↔
      (d.read name = none ∧ x = .io) ∨
      ∃ text w, d.read name = some text ∧ wanted e = some w ∧ x = rejection w ∧
        ∀ k, k.place ≤ w.place → RejectsWith F name text (rejection k) k := by
  rw [C48_error]
  constructor
  · rintro (h | ⟨t, w, h1, h2, h3, h4⟩)
    · exact Or.inl h
    · refine Or.inr ⟨t, w, h1, h2, C89_parsers _ _ _ _ h3, fun k hk => ?_⟩
      rcases Nat.lt_or_ge k.place w.place with h | h
      · obtain ⟨y, hy⟩ := h4 k h
        rw [← C89_parsers _ _ _ _ hy]; exact hy
      · have : k = w := by
          have : k.place = w.place := by omega
          revert this; cases k <;> cases w <;> decide
        subst this
        rw [← C89_parsers _ _ _ _ h3]; exact h3
  · rintro (h | ⟨t, w, h1, h2, rfl, h4⟩)
    · exact Or.inl h
    · exact Or.inr ⟨t, w, h1, h2, h4 w (Nat.le_refl _), fun k hk => ⟨_, h4 k (Nat.le_of_lt hk)⟩⟩

theorem Spec.kind_told (d : Disk) (name : Str) (w : FileKind) (x : Err) :
    ((d.read name = none ∧ x = .io) ∨ ∃ text, d.read name = some text ∧
        ((RejectsWith F name text x w ∧ ∀ k, k.place < w.place → ∃ y, RejectsWith F name text y k) ∨
         (x = .other ∧ ∃ k, k.place < w.place ∧ Accepts F name text k))) ↔
    (d.read name = none ∧ x = .io) ∨ ∃ text, d.read name = some text ∧
        ((x = rejection w ∧ ∀ k, k.place ≤ w.place → ∃ y, RejectsWith F name text y k) ∨
         (x = .other ∧ ∃ k, k.place < w.place ∧ Accepts F name text k)) := by
  refine or_congr Iff.rfl (exists_congr fun t => and_congr Iff.rfl (or_congr ?_ Iff.rfl))
  constructor
  · rintro ⟨h1, h2⟩
    refine ⟨C89_parsers _ _ _ _ h1, fun k hk => ?_⟩
    rcases Nat.lt_or_ge k.place w.place with h | h
    · exact h2 k h
    · have : k = w := by
        have : k.place = w.place := by omega
        revert this; cases k <;> cases w <;> decide
      subst this
      exact ⟨_, h1⟩
  · rintro ⟨rfl, h⟩
    obtain ⟨y, hy⟩ := h w (Nat.le_refl _)
    rw [← C89_parsers _ _ _ _ hy]
    exact ⟨hy, fun k hk => h k (Nat.le_of_lt hk)⟩

/-- The same for `read_module`, `read_schematic`, `read_layout`, `read_symbol_lib`,
`read_project` and `read_fp_lib_table`: an I/O error exactly if the file cannot be read,
the error belonging to the kind if the text is of no kind tried so far, and a message
(`KicadError::Other`) if it is a file of a kind tried earlier. -/
theorem C89_typed (d : Disk) (name : Str) (x : Err) :
    let fails (w : FileKind) : Prop :=
      (d.read name = none ∧ x = .io) ∨
      ∃ text, d.read name = some text ∧
        ((x = rejection w ∧ ∀ k, k.place ≤ w.place → ∃ y, RejectsWith F name text y k) ∨
         (x = .other ∧ ∃ k, k.place < w.place ∧ Accepts F name text k))
    ((readModule d name : Res (Fp.Module F)) = .err x ↔ fails .module_) ∧
    ((readSchematic d name : Res (Sch.Schematic F)) = .err x ↔ fails .schematic) ∧
    ((readLayout d name : Res (Lay.Layout F)) = .err x ↔ fails .layout) ∧
    ((readSymbolLib d name : Res (Lib.SymbolLib F)) = .err x ↔ fails .symbolLib) ∧
    (readProject F d name = .err x ↔ fails .project) ∧
    (readFpLibTable F d name = .err x ↔ fails .fpLibTable) := by
  obtain ⟨h1, h2, h3, h4, h5, h6⟩ := C48_typed_errors (F := F) d name x
  exact ⟨h1.trans (kind_told d name _ x), h2.trans (kind_told d name _ x), h3.trans (kind_told d name _ x),
    h4.trans (kind_told d name _ x), h5.trans (kind_told d name _ x), h6.trans (kind_told d name _ x)⟩

/-- So for a layout or a footprint library table the kind of error distinguishes all three
cases: the file cannot be read, it is a file of another kind, it is no such file. -/
theorem C89_layout_told (d : Disk) (name : Str) (x : Err) (h : (readLayout d name : Res (Lay.Layout F)) = .err x) :
    (x = .io ↔ d.read name = none) ∧
    (x = .other ↔ ∃ text, d.read name = some text ∧ (Accepts F name text .module_ ∨ Accepts F name text .schematic)) ∧
    (x = .sexp ↔ ∃ text, d.read name = some text ∧ ∀ k : FileKind, k.place ≤ 2 → ∃ y, RejectsWith F name text y k) := by
  have acc : ∀ t k, Accepts F name t k → ¬ ∃ y, RejectsWith F name t y k := by
    intro t k ha hr
    exact accepts_live name t k ha hr
  rcases (C89_typed d name x).2.2.1.1 h with ⟨hd, rfl⟩ | ⟨t, hd, ⟨rfl, hr⟩ | ⟨rfl, k, hk, ha⟩⟩
  · simp [hd]
  · refine ⟨by simp [hd, rejection], ?_, ?_⟩
    · simp only [rejection, reduceCtorEq, false_iff, not_exists, not_and]
      intro t' ht' ha
      rw [hd] at ht'; cases ht'
      rcases ha with ha | ha
      · exact acc _ _ ha (hr .module_ (by decide))
      · exact acc _ _ ha (hr .schematic (by decide))
    · exact ⟨fun _ => ⟨t, hd, hr⟩, fun _ => rfl⟩
  · refine ⟨by simp [hd], ?_, ?_⟩
    · refine ⟨fun _ => ⟨t, hd, ?_⟩, fun _ => rfl⟩
      cases k <;> first | exact Or.inl ha | exact Or.inr ha | (exfalso; revert hk; decide)
    · simp only [reduceCtorEq, false_iff, not_exists, not_and]
      intro t' ht' hr
      rw [hd] at ht'; cases ht'
      exact acc _ _ ha (hr k (Nat.le_of_lt hk))

example : (readLayout ⟨fun _ => some (str! "(kicad_pcb")⟩ (str! "f") : Res (Lay.Layout Nm)) = .err .sexp ∧
    (readLayout ⟨fun _ => some (str! "(module M)")⟩ (str! "f") : Res (Lay.Layout Nm)) = .err .other ∧
    (readLayout ⟨fun _ => none⟩ (str! "f") : Res (Lay.Layout Nm)) = .err .io := ⟨rfl, rfl, rfl⟩

/-- For a footprint there is no third case (nothing is tried before it), and for a
schematic the error does not tell a broken schematic from a footprint file. -/
theorem C89_module_told (d : Disk) (name : Str) (x : Err) (h : (readModule d name : Res (Fp.Module F)) = .err x) :
    (x = .io ∧ d.read name = none) ∨ (x = .sexp ∧ ∃ text, d.read name = some text) := by
  rcases (C89_typed d name x).1.1 h with ⟨hd, rfl⟩ | ⟨t, hd, ⟨rfl, hr⟩ | ⟨rfl, k, hk, ha⟩⟩
  · exact Or.inl ⟨rfl, hd⟩
  · exact Or.inr ⟨rfl, t, hd⟩
  · exact absurd hk (Nat.not_lt_zero _)

theorem C89_schematic_not_told : ∃ d d' : Disk, ∃ name : Str,
    (readSchematic d name : Res (Sch.Schematic F)) = .err .other ∧ (readSchematic d' name : Res (Sch.Schematic F)) = .err .other ∧
    (∃ t, d.read name = some t ∧ Accepts F name t .module_) ∧
    ∃ t, d'.read name = some t ∧ ∀ k, ∃ y, RejectsWith F name t y k := by
  refine ⟨⟨fun _ => some (str! "(module M)")⟩, ⟨fun _ => some []⟩, [], rfl, rfl, ⟨_, rfl, ⟨_, rfl⟩⟩, _, rfl, fun k => ?_⟩
  cases k <;> exact ⟨_, rfl⟩

/-- A failed write never says that it was an I/O error: it gives a message. -/
theorem C89_writes (q : Str → Bool) (fate : Fate) (d : Disk) (name : Str) (m : Fp.Module F) (l : Lay.Layout F) (x : Err) :
    ((writeModule q fate d m name).1 = .err x ↔ fate ≠ .done ∧ x = .other) ∧
    ((writeLayout q fate d l name).1 = .err x ↔ fate ≠ .done ∧ x = .other) := by
  unfold writeModule writeLayout writeFile
  cases fate <;> simp [eq_comm]

namespace Sch

/-- Errors of the functions that follow sheets into other files: an I/O error or a message. -/
def _root_.Verif.Spec.SheetError (x : Err) : Prop := x = .io ∨ x = .other

theorem parseFileForSheet_error (w : World) (s : Schematic F) (sh : Sheet) (x : Err)
    (h : (parseFileForSheet w s sh : Res (Schematic F)) = .err x) : SheetError x := by
  unfold parseFileForSheet filenameForSheet at h
  cases hf : s.filename with
  | none => rw [hf] at h; cases h; exact Or.inr rfl
  | some p =>
    rw [hf] at h
    dsimp only at h
    cases hr : w.resolve p sh.filename with
    | none => rw [hr] at h; cases h; exact Or.inr rfl
    | some f =>
      rw [hr] at h
      dsimp only [Res.bind_ok] at h
      unfold parseFile at h
      cases hd : w.read f with
      | none => rw [hd] at h; cases h; exact Or.inl rfl
      | some t => simp only [Res.bind_ok, hd] at h; exact Or.inr (parse_fails _ _ _ h)

theorem bind_eq_err {α β : Type} {r : Res α} {f : α → Res β} {x : Err} (h : (r >>= f) = .err x) :
    r = .err x ∨ ∃ a, r = .ok a ∧ f a = .err x := by
  cases r with
  | ok a => exact Or.inr ⟨a, rfl, h⟩
  | err e => cases h; exact Or.inl rfl
  | panic => cases h
  | diverge => cases h

theorem allComponents_error (w : World) (x : Err) : ∀ (fuel : Nat) (s : Schematic F),
    allComponents w fuel s = .err x → SheetError x := by
  intro fuel
  induction fuel with
  | zero => intro s h; cases h
  | succ n ih =>
    intro s h
    rw [allComponents] at h
    have : ∀ (shs : List Sheet) (v : List (Component F)), sheetsComponents (fun sheet => do
        let sub ← parseFileForSheet w s sheet
        allComponents w n sub) shs v = .err x → SheetError x := by
      intro shs
      induction shs with
      | nil => intro v h; cases h
      | cons a r ihr =>
        intro v h
        rw [sheetsComponents] at h
        rcases bind_eq_err h with h | ⟨_, -, h⟩
        · rcases bind_eq_err h with h | ⟨_, -, h⟩
          · exact parseFileForSheet_error _ _ _ _ h
          · exact ih _ h
        · exact ihr _ h
    exact this _ _ h

theorem componentByReference_error (w : World) (r : Str) (x : Err) : ∀ (fuel : Nat) (s : Schematic F),
    componentByReference w r fuel s = .err x → SheetError x := by
  intro fuel
  induction fuel with
  | zero => intro s h; cases h
  | succ n ih =>
    intro s h
    rw [componentByReference] at h
    split at h
    · cases h
    · have : ∀ shs : List Sheet, sheetsFind (parseFileForSheet w s) (componentByReference w r n) shs = .err x →
          SheetError x := by
        intro shs
        induction shs with
        | nil => intro h; cases h; exact Or.inr rfl
        | cons a rest ihr =>
          intro h
          rw [sheetsFind] at h
          rcases bind_eq_err h with h | ⟨s', -, h⟩
          · exact parseFileForSheet_error _ _ _ _ h
          · split at h
            · cases h
            · exact ihr h
            · cases h
            · cases h
      exact this _ h

end Sch

/-- The functions that follow sheets into other files fail with an I/O error or a message,
and with an I/O error only if some file they were led to cannot be read. -/
theorem C89_sheets (w : Sch.World) (fuel : Nat) (s : Sch.Schematic F) (r : Str) (x : Err) :
    (Sch.allComponents w fuel s = .err x → x = .io ∨ x = .other) ∧
    (Sch.componentByReference w r fuel s = .err x → x = .io ∨ x = .other) ∧
    ((∀ p, w.read p ≠ none) → Sch.allComponents w fuel s = .err x → x = .other) := by
  refine ⟨Sch.allComponents_error w x fuel s, Sch.componentByReference_error w r x fuel s, fun hw => ?_⟩
  have h0 : ∀ (s : Sch.Schematic F) sh, (Sch.parseFileForSheet w s sh : Res (Sch.Schematic F)).Fails .other := by
    intro s sh
    unfold Sch.parseFileForSheet Sch.filenameForSheet Sch.parseFile
    refine fails_bind ?_ fun p _ => ?_
    · split
      · exact fails_err _
      · split
        · exact fails_err _
        · exact fails_ok _
    · split
      · rename_i h; exact absurd h (hw _)
      · exact Sch.parse_fails _ _
  have h1 : ∀ (n : Nat) (s : Sch.Schematic F), (Sch.allComponents w n s).Fails .other := by
    intro n
    induction n with
    | zero => intro s; exact fails_diverge
    | succ n ih =>
      intro s
      rw [Sch.allComponents]
      generalize s.components = v
      generalize s.sheets = shs
      induction shs generalizing v with
      | nil => exact fails_ok _
      | cons a r ihr =>
        rw [Sch.sheetsComponents]
        exact fails_bind (fails_bind (h0 s a) fun _ _ => ih _) fun _ _ => ihr _
  exact h1 fuel s x

end Verif
