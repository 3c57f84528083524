import Verif.Lemmas.LineEnds
import Verif.Model.Files
import Verif.Props.C14
/-!
# C88: line ends of other systems

Version control and editors on other systems put a carriage return in front of every line
feed.  What that changes for the readers.
-/

namespace Verif
open Spec Flt

variable {F : Type} [Flt F]

/-- The lines of a text are the same with the line ends of the other system exactly if it had
none of them before. -/
theorem C88_lines_iff (t : Str) : lines (crlf t) = lines t ↔ PlainEnds t := Ends.lines_crlf t

/-- Schematics and symbol libraries are read the same, whatever the outcome. -/
theorem C88_line_formats (fn : Option Str) (t : Str) (h : PlainEnds t) :
    (Sch.parse fn (crlf t) : Res (Sch.Schematic F)) = Sch.parse fn t ∧
    (Lib.parseStr (crlf t) : Res (Lib.SymbolLib F)) = Lib.parseStr t := by
  unfold Sch.parse Lib.parseStr
  rw [(C88_lines_iff t).2 h]
  exact ⟨rfl, rfl⟩

/-- The tree of an s-expression file is the same but for the atoms: line feeds inside quotes
become two characters.  Errors stay errors. -/
theorem C88_tree (t : Str) : parseSexp (crlf t) = match parseSexp t with
    | .ok e => .ok (mapAtoms crlf e)
    | .err e => .err e
    | .panic => .panic
    | .diverge => .diverge := by
  rw [Ends.parseSexp_crlf]
  cases parseSexp t <;> rfl

/-- So the tree is the same exactly if no atom contains a line feed. -/
theorem C88_tree_iff (t : Str) : parseSexp (crlf t) = parseSexp t ↔
    ∀ e, parseSexp t = .ok e → OneLineAtoms e := by
  rw [Ends.parseSexp_crlf]
  cases h : parseSexp t with
  | ok e =>
    simp only [Ends.resMap, Res.ok.injEq, Ends.mapAtoms_id]
    exact ⟨fun hx e' he => he ▸ hx, fun hx => hx e rfl⟩
  | err e => simp [Ends.resMap]
  | panic => simp [Ends.resMap]
  | diverge => simp [Ends.resMap]

/-- Then footprints, layouts and footprint library tables are read the same, whatever the outcome. -/
theorem C88_tree_formats (t : Str) (h : ∀ e, parseSexp t = .ok e → OneLineAtoms e) :
    (Fp.parse (crlf t) : Res (Fp.Module F)) = Fp.parse t ∧ (Lay.parse (crlf t) : Res (Lay.Layout F)) = Lay.parse t ∧
    Tbl.parse (crlf t) = Tbl.parse t := by
  unfold Fp.parse Lay.parse Tbl.parse
  rw [(C88_tree_iff t).2 h]
  exact ⟨rfl, rfl, rfl⟩

theorem Ends.startsWith_crlf (p t : Str) (h : ∀ c ∈ p, c ≠ '\r' ∧ c ≠ '\n') :
    startsWith (crlf t) p = startsWith t p := by
  unfold startsWith
  induction p generalizing t with
  | nil => simp
  | cons x p ih =>
    rw [List.forall_mem_cons] at h
    cases t with
    | nil => rfl
    | cons c t =>
      rw [Ends.crlf_cons]
      by_cases hc : c = '\n'
      · subst hc
        have h1 : (x == '\r') = false := by simpa using h.1.1
        have h2 : (x == '\n') = false := by simpa using h.1.2
        simp [List.isPrefixOf, h1, h2]
      · rw [if_neg hc]
        simp only [List.cons_append, List.nil_append, List.isPrefixOf]
        rw [ih t h.2]

/-- Project files are recognised the same and keep the line ends they have. -/
theorem C88_project (t : Str) : Pro.parseStr (crlf t) =
    if startsWith t (str! "update=") then .ok ⟨crlf t⟩ else .err .other := by
  unfold Pro.parseStr
  rw [Ends.startsWith_crlf _ _ (by decide)]
  cases startsWith t (str! "update=") <;> rfl

/-- What a file is taken for: the same kind of file with the same content, except that a project
file is kept as it is. -/
def Spec.otherEnds : Files.KicadFile F → Files.KicadFile F
  | .project p => .project ⟨crlf p.data⟩
  | k => k

/-- Any file, whatever it is read as: the same answer, the same error or the same panic, for every
expectation. -/
theorem C88_any_file (name t : Str) (x : Files.Expected) (h : PlainEnds t)
    (ha : ∀ e, parseSexp t = .ok e → OneLineAtoms e) :
    Files.recognise name (crlf t) x = match (Files.recognise name t x : Res (Files.KicadFile F)) with
      | .ok k => .ok (otherEnds k)
      | .err e => .err e
      | .panic => .panic
      | .diverge => .diverge := by
  obtain ⟨h1, h2, h3⟩ := C88_tree_formats (F := F) t ha
  obtain ⟨h4, h5⟩ := C88_line_formats (F := F) (some name) t h
  have step : ∀ {α : Type} (r : Res α) (wrap : α → Files.KicadFile F) (b : Bool) (r1 r2 : Res (Files.KicadFile F)),
      (∀ a, otherEnds (wrap a) = wrap a) →
      (r1 = match r2 with
        | .ok k => .ok (otherEnds k)
        | .err e => .err e
        | .panic => .panic
        | .diverge => .diverge) →
      Files.probe r wrap b r1 = match Files.probe r wrap b r2 with
        | .ok k => .ok (otherEnds k)
        | .err e => .err e
        | .panic => .panic
        | .diverge => .diverge := by
    intro α r wrap b r1 r2 hw hr
    cases r with
    | ok a => simp [Files.probe, hw]
    | err e =>
      cases b with
      | true => simp [Files.probe]
      | false => simpa [Files.probe] using hr
    | panic => rfl
    | diverge => rfl
  unfold Files.recognise
  rw [h1, h2, h3, h4, h5]
  refine step _ _ _ _ _ (fun _ => rfl) (step _ _ _ _ _ (fun _ => rfl) (step _ _ _ _ _ (fun _ => rfl)
    (step _ _ _ _ _ (fun _ => rfl) ?_)))
  rw [C88_project]
  unfold Pro.parseStr
  cases hs : startsWith t (str! "update=") with
  | true => simp [Files.probe, otherEnds]
  | false =>
    simp only [Bool.not_false, if_true, Files.probe]
    cases hx : decide (x = .project) with
    | true => simp
    | false =>
      cases Tbl.parse t with
      | ok a => rfl
      | err e =>
        cases decide (x = .fpLibTable) <;> rfl
      | panic => rfl
      | diverge => rfl

/-- A text of two lines inside quotes changes. -/
theorem C88_quoted_lines_change : ∃ (t : Str) (m m' : Fp.Module Nm), Fp.parse t = .ok m ∧
    Fp.parse (crlf t) = .ok m' ∧ m' ≠ m :=
  ⟨str! "(module \"a\nb\")", ⟨str! "a\nb", []⟩, ⟨str! "a\r\nb", []⟩, by decide +kernel, by decide +kernel, by decide⟩

example : PlainEnds (str! "(module a\n (layer F.Cu)\n)\n") := by
  rw [← C88_lines_iff]
  decide

example : ∀ e, parseSexp (str! "(module a\n (layer F.Cu)\n)\n") = .ok e → OneLineAtoms e := by
  rw [← C88_tree_iff]
  rfl

end Verif
