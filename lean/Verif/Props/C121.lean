import Verif.Model.BoxMsg
import Verif.Lemmas.TreeParts
import Verif.Props.C112
import Verif.Props.C64
/-!
# C121: the whole log of the programs that print layouts
-/

namespace Verif
open Flt Files Spec Prog

variable {F : Type} [Flt F]

/-- A text that does not begin like a layout makes the reader of layouts log nothing. -/
theorem Prog.foreign_silent (name t : Str) (k : FileKind) (h : Live F name t k) (hk : k ≠ .layout) :
    (Lay.parseNoted t : Lay.Noted (Lay.Layout F)).notes = [] := by
  have hm := live_mark name t k h
  have no : ∀ r, parseSexp t ≠ .ok (.list (.str (str! "kicad_pcb") :: r)) := by
    intro r hr
    exact hk (mark_inj k .layout (hasMark_unique t _ _ hm ⟨r, hr⟩))
  cases hp : parseSexp t with
  | ok s =>
    cases hi : Sx.iter (str! "kicad_pcb") s with
    | ok i =>
      rw [Tree.iter_iff] at hi
      rw [hi] at hp
      exact absurd hp (no i)
    | _ =>
      simp only [Lay.parseNoted, hp, Lay.Noted.of_bind_ok, Lay.Layout.deNoted, hi]
      exact Lay.Noted.bind_not_ok (by intro a; simp [Lay.Noted.of]) _
  | _ =>
    simp only [Lay.parseNoted, hp]
    exact Lay.Noted.bind_not_ok (by intro a; simp [Lay.Noted.of]) _

/-- Whatever the file, `read_layout` logs what the reader of layouts logs for its text. -/
theorem Prog.readNotes_eq (d : Disk) (name t : Str) (h : d.read name = some t) :
    readLayoutNotes F d name = (Lay.parseNoted t : Lay.Noted (Lay.Layout F)).notes := by
  simp only [readLayoutNotes, readFile, h, recogniseNotes]
  cases hf : (Fp.parse t : Res (Fp.Module F)) with
  | ok m => exact (Prog.foreign_silent name t .module_ (accepts_live name t .module_ ⟨m, hf⟩) (by decide)).symm
  | panic => exact absurd hf (Fp.parse_calm t).1
  | diverge => exact absurd hf (Fp.parse_calm t).2
  | err x =>
    simp only [reduceCtorEq, if_false]
    have hs : ∀ r : Res (Sch.Schematic F), (Sch.tell (some name) t : Told (Sch.Schematic F)).res = r →
        (∀ e, r ≠ .err e) → [] = (Lay.parseNoted t : Lay.Noted (Lay.Layout F)).notes := by
      intro r hr hne
      refine (Prog.foreign_silent name t .schematic ?_ (by decide)).symm
      rintro ⟨e, he⟩
      simp only [RejectsWith] at he
      rw [C90_same, he] at hr
      exact hne e hr.symm
    cases ht : (Sch.tell (some name) t : Told (Sch.Schematic F)).res with
    | err y => rfl
    | _ => exact hs _ ht (by simp)

/-- The whole log of the two programs: nothing without a readable file; otherwise what reading
the layout logs, followed by the name of the file if it could be read. -/
theorem C121_log (d : Disk) (name : Str) (rest : List Str) :
    dumpLayoutLog F d (name :: rest) = adjustLayoutLog F d (name :: rest) ∧
    (d.read name = none → dumpLayoutLog F d (name :: rest) = []) ∧
    ∀ t, d.read name = some t →
      (∀ l : Lay.Layout F, Lay.parse t = .ok l →
        dumpLayoutLog F d (name :: rest) =
          (l.elements.flatMap notices).map .note ++ [.record (.info, name)]) ∧
      ((∀ l : Lay.Layout F, Lay.parse t ≠ .ok l) →
        dumpLayoutLog F d (name :: rest) =
          (Lay.parseNoted t : Lay.Noted (Lay.Layout F)).notes.map .note) := by
  refine ⟨rfl, fun h => ?_, fun t h => ⟨fun l hl => ?_, fun hn => ?_⟩⟩
  · have hr : ∀ l, (readLayout d name : Res (Lay.Layout F)) ≠ .ok l := by
      intro l hl
      obtain ⟨t, ht, -⟩ := ((C47_typed_readers d name).2.2.1 l).1 hl
      rw [h] at ht; cases ht
    simp only [dumpLayoutLog, firstArg, readLayoutNotes, readFile, h, tellLayout_res, List.map_nil, List.nil_append]
    cases hx : (readLayout d name : Res (Lay.Layout F)) with
    | ok l => exact absurd hx (hr l)
    | _ => rfl
  · have hr : readLayout d name = .ok l := ((C47_typed_readers d name).2.2.1 l).2 ⟨t, h, hl⟩
    simp only [dumpLayoutLog, firstArg, Prog.readNotes_eq d name t h, C112_notices t l hl, tellLayout_res, hr,
      Prog.unwrap]
  · have hr : ∀ l, (readLayout d name : Res (Lay.Layout F)) ≠ .ok l := by
      intro l hl
      obtain ⟨t', ht', hp⟩ := ((C47_typed_readers d name).2.2.1 l).1 hl
      rw [h] at ht'; cases ht'
      exact hn l hp
    simp only [dumpLayoutLog, firstArg, Prog.readNotes_eq d name t h, tellLayout_res]
    cases hx : (readLayout d name : Res (Lay.Layout F)) with
    | ok l => exact absurd hx (hr l)
    | _ => simp [Prog.unwrap]

theorem Prog.log_of_read (d : Disk) (name : Str) (rest : List Str) (l : Lay.Layout F)
    (h : readLayout d name = .ok l) :
    dumpLayoutLog F d (name :: rest) = (l.elements.flatMap notices).map .note ++ [.record (.info, name)] := by
  obtain ⟨t, ht, hp⟩ := ((C47_typed_readers d name).2.2.1 l).1 h
  exact ((C121_log d name rest).2.2 t ht).1 l hp

/-- A program that is run without an argument logs nothing. -/
theorem C121_no_argument (d : Disk) :
    dumpLayoutLog F d [] = [] ∧ adjustLayoutLog F d [] = [] := ⟨rfl, rfl⟩

/-- The records of a run that ends well are those of the run (C64), after one line for every
part of the board that was not understood. -/
theorem C121_finished (q : Str → Bool) (d : Disk) (args : List Str) (r : Run)
    (h : dumpLayout F q d args = .ok r ∨ adjustLayout F q d args = .ok r) :
    ∃ name l, args.head? = some name ∧ readLayout (F := F) d name = .ok l ∧
      dumpLayoutLog F d args = (l.elements.flatMap notices).map .note ++ r.log.map .record ∧
      adjustLayoutLog F d args = (l.elements.flatMap notices).map .note ++ r.log.map .record := by
  rcases args with _ | ⟨name, rest⟩
  · rw [dumpLayout_eq, adjustLayout_eq] at h
    rcases h with h | h <;> cases h
  · rw [dumpLayout_eq, adjustLayout_eq] at h
    have hr : ∃ l, readLayout (F := F) d name = .ok l ∧ r.log = [(.info, name)] := by
      simp only [firstArg, Res.bind_ok] at h
      cases hx : (readLayout d name : Res (Lay.Layout F)) with
      | ok l =>
        rw [hx] at h
        simp only [Prog.unwrap, Res.bind_ok, Res.ok.injEq] at h
        exact ⟨l, rfl, by rcases h with rfl | rfl <;> rfl⟩
      | _ => rw [hx] at h; rcases h with h | h <;> cases h
    obtain ⟨l, hl, hlog⟩ := hr
    refine ⟨name, l, rfl, hl, ?_, ?_⟩
    · rw [Prog.log_of_read d name rest l hl, hlog]; rfl
    · rw [← (C121_log (F := F) d name rest).1, Prog.log_of_read d name rest l hl, hlog]; rfl

/-- The name of the file is logged exactly by the runs that end well. -/
theorem C121_name_last (q : Str → Bool) (d : Disk) (args : List Str) :
    (∃ r, dumpLayout F q d args = .ok r) ↔ ∃ rec, LogLine.record rec ∈ dumpLayoutLog F d args := by
  rcases args with _ | ⟨name, rest⟩
  · simp [dumpLayout_eq, firstArg, dumpLayoutLog]
  · by_cases h : ∃ l, readLayout (F := F) d name = .ok l
    · obtain ⟨l, hl⟩ := h
      refine iff_of_true ?_ ⟨(.info, name), ?_⟩
      · simp only [dumpLayout_eq, firstArg, Res.bind_ok, hl, Prog.unwrap]
        exact ⟨_, rfl⟩
      · rw [Prog.log_of_read d name rest l hl]; simp
    · refine iff_of_false ?_ ?_
      · rintro ⟨r, hr⟩
        obtain ⟨n, l, hn, hl, -⟩ := C121_finished q d _ r (.inl hr)
        cases hn
        exact h ⟨l, hl⟩
      · rintro ⟨rec, hm⟩
        simp only [dumpLayoutLog, firstArg, tellLayout_res, List.mem_append, List.mem_map, reduceCtorEq, and_false,
          exists_false, false_or] at hm
        cases hx : (readLayout d name : Res (Lay.Layout F)) with
        | ok l => exact h ⟨l, hx⟩
        | _ => rw [hx] at hm; cases hm

/-- Running `dump_layout` on what `dump_layout` or `adjust_layout` has printed logs the same, but
for the name of the file. -/
theorem C121_again [TextLaws F] [ZeroLaws F] (q : Str → Bool) (hq : QuotesWhenNeeded q) (d : Disk)
    (name out : Str) (rest rest' : List Str) (l : Lay.Layout F) (hl : SavableLayout l) (hc : CleanLayout l)
    (h : readLayout d name = .ok l) :
    ∃ r r' pre, dumpLayout F q d (name :: rest) = .ok r ∧ adjustLayout F q d (name :: rest) = .ok r' ∧
      dumpLayoutLog F d (name :: rest) = pre ++ [.record (.info, name)] ∧
      dumpLayoutLog F (redirect r out d) (out :: rest') = pre ++ [.record (.info, out)] ∧
      dumpLayoutLog F (redirect r' out d) (out :: rest') = pre ++ [.record (.info, out)] := by
  obtain ⟨r, hr, h1⟩ := C64_dump_layout q hq d name out rest l hl hc h
  obtain ⟨r', l', hr', h2, -, he, -⟩ := C64_adjust_layout q hq d name out rest l hl hc h
  refine ⟨r, r', (l.elements.flatMap notices).map .note, hr, hr', Prog.log_of_read d name rest l h,
    Prog.log_of_read _ out rest' l h1, ?_⟩
  rw [Prog.log_of_read _ out rest' l' h2]
  have hn : (fun e : Lay.Elem F => notices (eraseBoardPoints e)) = notices := by
    funext e
    cases e <;> rfl
  have hx := congrArg (List.flatMap notices) he
  simp only [List.flatMap_map, hn] at hx
  rw [hx]

/-- A disk with a board that has a section that is not known. -/
example : ((dumpLayoutLog Nm ⟨fun _ => some (str! "(kicad_pcb (target x (at 1 2)) (page A3))")⟩ [str! "b"]).map
    fun | .note _ => none | .record r => some r) = [none, some (.info, str! "b")] := by decide +kernel

/-- A board that cannot be read to the end. -/
example : ((dumpLayoutLog Nm ⟨fun _ => some (str! "(kicad_pcb (target x (at 1 2)) (net))")⟩ [str! "b"]).map
    fun | .note _ => none | .record r => some r) = [none] := by decide +kernel

/-- The hypotheses of `C121_again` are met by the disk of C64. -/
example : readLayout boardDisk (str! "l") = .ok sampleLayout := boardDisk_layout

end Verif
