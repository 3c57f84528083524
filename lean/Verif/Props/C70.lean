import Verif.Lemmas.FpPrinting
import Verif.Model.FpLibTable
/-!
# C70: the text of a footprint library table has a line for every library
-/

namespace Verif
open Tbl Spec Sx

/-- One entry of a library line. -/
def Spec.tableEntry (spell : Str → Str) (name value : Str) : Str :=
  str! "(" ++ spell name ++ str! " " ++ spell value ++ str! ")"

/-- The line of a library: the five entries directly after each other. -/
def Spec.libLine (spell : Str → Str) (level : Int) (l : Lib) : Str :=
  startLine 1 (level + 1) ++ str! "(" ++ spell (str! "lib") ++
    tableEntry spell (str! "name") l.name ++ tableEntry spell (str! "type") l.type_ ++
    tableEntry spell (str! "uri") l.uri ++ tableEntry spell (str! "options") l.options ++
    tableEntry spell (str! "descr") l.descr ++ str! ")"

theorem Tbl.libs_regular (t : FpLibTable) : RegularL false (t.libs.map Lib.ser) := by
  refine RegularL_iff.2 fun x hx => ?_
  obtain ⟨l, -, rfl⟩ := List.mem_map.1 hx
  have hp : ∀ {h : Str} {s : Str}, h ∉ [[], str! "module", str! "kicad_pcb", str! "segment", str! "pts"] →
      Regular false (pair h (.str s)) := fun h => Fp.regular_pair h trivial
  exact Fp.regular_node (by decide) ⟨hp (by decide), hp (by decide), hp (by decide), hp (by decide),
    hp (by decide), trivial⟩

theorem Tbl.lib_chunk (sp : Str → Str) (level : Int) (l : Lib) :
    Fp.chunk sp [str! "fp_lib_table"] level l.ser = libLine sp level l := by
  have h1 : place [str! "fp_lib_table"] 0 (str! "lib") = some ownLine := by decide
  have h2 : ∀ h ∈ [str! "name", str! "type", str! "uri", str! "options", str! "descr"], ∀ n,
      place [str! "lib", str! "fp_lib_table"] n h = some ⟨0, false, 0⟩ := by
    intro h hh n
    rw [Fp.place_nth (by decide) n 0]
    simp only [List.mem_cons, List.not_mem_nil, or_false] at hh
    rcases hh with rfl | rfl | rfl | rfl | rfl <;> decide
  simp only [Fp.chunk, Lib.ser, node, pair, gap, layOut, layOutL, h1, h2, List.mem_cons, true_or, or_true,
    Option.isSome_some, if_true, leadIn, leadOut, inside]
  simp [libLine, tableEntry, ownLine]

/-- The text of a library table is a line for every library, in order, each
depending on its library only, between the opening and a closing parenthesis on a
line of its own. -/
theorem C70_text (q : Str → Bool) (level : Int) (t : FpLibTable) :
    Tbl.toText q level t = str! "(" ++ Fm.atomText q (str! "fp_lib_table") ++
      t.libs.flatMap (libLine (Fm.atomText q) level) ++ str! "\n)" := by
  rw [Tbl.toText, FpLibTable.ser, Fm.toText_file q level (str! "fp_lib_table") (t.libs.map Lib.ser) (by decide)
    (by decide) (by decide) (Tbl.libs_regular t), fileText, Fp.layOutL_chunks _ (by decide)]
  have h : (t.libs.map Lib.ser).flatMap (Fp.chunk (Fm.atomText q) [str! "fp_lib_table"] level) =
      t.libs.flatMap (libLine (Fm.atomText q) level) := by
    induction t.libs with
    | nil => rfl
    | cons l ls ih => simp only [List.map_cons, List.flatMap_cons, ih, Tbl.lib_chunk]
  rw [h]
  simp

/-- If no name or value has a line break in it, the table has exactly one line
for every library, besides the first and the last one. -/
theorem C70_line_count (level : Int) (q : Str → Bool) (t : FpLibTable)
    (h : ∀ l ∈ t.libs, '\n' ∉ l.name ∧ '\n' ∉ l.type_ ∧ '\n' ∉ l.uri ∧ '\n' ∉ l.options ∧ '\n' ∉ l.descr) :
    (Tbl.toText q level t).count '\n' = t.libs.length + 1 := by
  have hesc : ∀ s : Str, '\n' ∉ s → '\n' ∉ Fm.escapeQuotes s := by
    intro s hs hc
    obtain ⟨c, hc, hm⟩ := List.mem_flatMap.1 hc
    by_cases hq : c = '"'
    · simp [hq] at hm
    · simp only [if_neg hq, List.mem_singleton] at hm
      exact hs (hm ▸ hc)
  have hatom : ∀ s : Str, '\n' ∉ s → (Fm.atomText q s).count '\n' = 0 := by
    intro s hs
    rw [List.count_eq_zero]
    unfold Fm.atomText
    split
    · simp [hesc s hs]
    · exact hs
  have hl : ∀ l ∈ t.libs, (libLine (Fm.atomText q) level l).count '\n' = 1 := by
    intro l hl
    obtain ⟨h1, h2, h3, h4, h5⟩ := h l hl
    have hr : ∀ n : Nat, (List.replicate n ' ').count '\n' = 0 := by
      intro n; rw [List.count_eq_zero]; intro hc; exact absurd (List.eq_of_mem_replicate hc) (by decide)
    simp [libLine, tableEntry, startLine, hatom, h1, h2, h3, h4, h5, hr]
  rw [C70_text]
  have hf : (t.libs.flatMap (libLine (Fm.atomText q) level)).count '\n' = t.libs.length := by
    revert hl
    generalize t.libs = ls
    intro hl
    induction ls with
    | nil => rfl
    | cons l ls ih =>
      simp only [List.flatMap_cons, List.count_append, List.length_cons]
      rw [hl l List.mem_cons_self, ih (fun x hx => hl x (List.mem_cons_of_mem _ hx))]
      omega
  simp [List.count_append, hf, hatom]

example : Tbl.toText Fm.stdQuote 0 ⟨[⟨str! "R", str! "KiCad", str! "${KISYSMOD}/R.pretty", [], str! "all resistors"⟩]⟩ =
    str! "(fp_lib_table\n  (lib(name R)(type KiCad)(uri ${KISYSMOD}/R.pretty)(options \"\")(descr \"all resistors\"))\n)" := by
  decide +kernel

end Verif
