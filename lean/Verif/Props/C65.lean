import Verif.Lemmas.ProgOut
import Verif.Props.C14
import Verif.Props.C18
import Verif.Props.C48
import Verif.Props.C54
import Verif.Props.C55
import Verif.Props.C59
/-!
# C65: the style check programs
-/

set_option linter.unusedSectionVars false

namespace Verif
open Flt Files Spec Res Prog

variable {F : Type} [Flt F]

/-- A record reports a finding: its level tells whether the finding is only
informational, and after some blanks its text gives section, rule, item and
message. -/
def Spec.Reports (r : Record) (i : CheckFixItem) : Prop :=
  (r.1 = .info ↔ i.info = true) ∧
  ∃ blanks : Nat, r.2 = List.replicate blanks ' ' ++ showInt i.section_ ++ '.' :: showInt i.rule ++
    ' ' :: i.item ++ ':' :: i.message

/-- The findings of a check, left to right. -/
def Spec.findings (ds : List CheckFixData) : List CheckFixItem := (leavesAll 0 ds).map Prod.snd

theorem Prog.itemRecord_reports (n : Nat) (i : CheckFixItem) : Reports (itemRecord n i) i := by
  refine ⟨?_, n * 2, ?_⟩
  · cases h : i.info <;> simp [itemRecord, h]
  · simp [itemRecord]

theorem Prog.forall₂_records (l : List (Nat × CheckFixItem)) :
    List.Forall₂ Reports (l.map fun x => itemRecord x.1 x.2) (l.map Prod.snd) := by
  induction l with
  | nil => exact .nil
  | cons a l ih => exact .cons (Prog.itemRecord_reports _ _) ih

theorem Prog.dumped (n : Nat) (ds : List CheckFixData) :
    (ds.map fun d => (d.dump n).map Prod.snd).flatten = findings ds := by
  induction ds with
  | nil => rfl
  | cons d ds ih =>
    simp only [List.map_cons, List.flatten_cons, ih, findings, leavesAll, List.map_append]
    rw [C54_dump_complete]

theorem Prog.records (n : Nat) (ds : List CheckFixData) :
    List.Forall₂ Reports (ds.map (dumpRecords n)).flatten (findings ds) := by
  have h : (ds.map (dumpRecords n)).flatten =
      ((ds.map fun d => d.dump n).flatten).map fun x => itemRecord x.1 x.2 := by
    rw [List.map_flatten, List.map_map]; rfl
  have h2 : findings ds = ((ds.map fun d => d.dump n).flatten).map Prod.snd := by
    rw [List.map_flatten, List.map_map, ← Prog.dumped n ds]; rfl
  rw [h, h2]
  exact Prog.forall₂_records _

theorem Prog.report_found (heading : Str) (ds : List CheckFixData) (h : ds ≠ []) :
    report heading ds = (.info, heading) :: (ds.map (dumpRecords 1)).flatten := by
  cases ds with
  | nil => exact absurd rfl h
  | cons d ds => rfl

/-- `klc_kicad_mod` prints nothing, and logs nothing if the footprint in the file
passes the check; otherwise it logs the name of the footprint and after it each
finding of the check, once and in order. -/
theorem C65_module_report (d : Disk) (name : Str) (rest : List Str) (m : Fp.Module F)
    (h : readModule d name = .ok m) :
    ∃ log, klcKicadMod F d (name :: rest) = .ok ⟨[], log⟩ ∧
      (m.check Config.klc = [] → log = []) ∧
      (m.check Config.klc ≠ [] → ∃ found, log = (.info, str! "Module " ++ m.name) :: found ∧
        List.Forall₂ Reports found (findings (m.check Config.klc))) := by
  refine ⟨report (str! "Module " ++ m.name) (m.check Config.klc),
    by simp only [klcKicadMod_eq, firstArg, bind_ok, h, Prog.unwrap], ?_, ?_⟩
  · intro hc; simp [report, hc]
  · intro hc
    exact ⟨_, Prog.report_found _ _ hc, Prog.records 1 _⟩

/-- It is silent exactly for footprints that keep the rules. -/
theorem C65_module_silent [OrdLaws F] (d : Disk) (name : Str) (rest : List Str) :
    klcKicadMod F d (name :: rest) = .ok ⟨[], []⟩ ↔
      ∃ m : Fp.Module F, readModule d name = .ok m ∧ ReferenceRule Config.klc m ∧ ValueRule Config.klc m ∧
        Reference2Rule Config.klc m ∧ 4 ≤ (courtyard m).length ∧ PlacementRule m := by
  constructor
  · intro hr
    cases h : (readModule d name : Res (Fp.Module F)) with
    | ok m =>
      obtain ⟨log, h1, _, h3⟩ := C65_module_report d name rest m h
      rw [hr, Res.ok.injEq] at h1
      cases h1
      refine ⟨m, rfl, (C27_check_clean_iff m Config.klc).1 ?_⟩
      by_cases hc : m.check Config.klc = []
      · exact hc
      · obtain ⟨_, h4, _⟩ := h3 hc
        cases h4
    | _ => simp [klcKicadMod_eq, firstArg, h, Prog.unwrap] at hr
  · rintro ⟨m, h, hm⟩
    obtain ⟨log, h1, h2, _⟩ := C65_module_report d name rest m h
    rw [h1, h2 ((C27_check_clean_iff m Config.klc).2 hm)]

/-- A footprint with reference and value text that is fixed and written to a file
is not complained about (unless it is a through-hole footprint marked as
surface-mount). -/
theorem C65_fixed_file_silent [TextLaws F] [MonoLaws F] (q : Str → Bool) (hq : QuotesWhenNeeded q)
    (fate : Files.Fate) (d d' : Disk) (name : Str) (rest : List Str) (m : Fp.Module F) (hm : GoodModule m)
    (hpos : lt zero (Config.klc (F := F)).fontSize = true)
    (hr : textsNamed m (str! "reference") ≠ []) (hv : textsNamed m (str! "value") ≠ [])
    (hp : ¬ (HasPad m .pth ∧ ¬ HasPad m .smd ∧ MarkedSmd m))
    (hw : writeModule q fate d (m.fix Config.klc) name = (.ok (), d')) :
    klcKicadMod F d' (name :: rest) = .ok ⟨[], []⟩ := by
  have hg : GoodModule (m.fix Config.klc) := C59_edits_keep_savable [.fix Config.klc] (by simpa [FpEdit.Fits] using hpos) m hm
  have h := C55_module q hq fate d d' name _ hg hw
  obtain ⟨log, h1, h2, _⟩ := C65_module_report d' name rest _ h
  rw [h1, h2 (C27_fix_cleans m Config.klc hr hv hp)]

/-- `klc_symbol_lib` logs, for one symbol after the other, nothing if the symbol
passes the check and otherwise its name followed by each finding of the check. -/
theorem C65_library_report (d : Disk) (name : Str) (rest : List Str) (l : Lib.SymbolLib F)
    (h : readSymbolLib d name = .ok l) :
    ∃ logs : List (List Record), klcSymbolLib F d (name :: rest) = .ok ⟨[], logs.flatten⟩ ∧
      List.Forall₂ (fun log (s : Lib.Symbol F) =>
        (s.check = [] → log = []) ∧
        (s.check ≠ [] → ∃ found, log = (.info, str! "Symbol " ++ s.name) :: found ∧
          List.Forall₂ Reports found (findings s.check))) logs l.symbols := by
  refine ⟨l.symbols.map fun s => report (str! "Symbol " ++ s.name) s.check,
    by simp only [klcSymbolLib_eq, firstArg, bind_ok, h, Prog.unwrap], ?_⟩
  generalize l.symbols = ss
  induction ss with
  | nil => exact .nil
  | cons s ss ih =>
    refine .cons ⟨fun hc => by simp [report, hc], fun hc => ?_⟩ ih
    exact ⟨_, Prog.report_found _ _ hc, Prog.records 1 _⟩

/-- It is silent exactly if no symbol has a fault. -/
theorem C65_library_silent (d : Disk) (name : Str) (rest : List Str) (l : Lib.SymbolLib F)
    (h : readSymbolLib d name = .ok l) :
    klcSymbolLib F d (name :: rest) = .ok ⟨[], []⟩ ↔ ∀ s ∈ l.symbols, ∀ i, ¬ SymbolFault s i := by
  obtain ⟨logs, h1, h2⟩ := C65_library_report d name rest l h
  rw [h1]
  simp only [Res.ok.injEq, Run.mk.injEq, true_and]
  generalize l.symbols = ss at h2
  clear h1 h
  induction h2 with
  | nil => simp
  | cons hs _ ih =>
    rename_i log s logs ss _
    rw [List.flatten_cons, List.append_eq_nil_iff, ih, List.forall_mem_cons, ← C18_clean_iff]
    refine and_congr_left fun _ => ⟨fun he => ?_, hs.1⟩
    by_cases hc : s.check = []
    · exact hc
    · obtain ⟨_, h4, _⟩ := hs.2 hc
      rw [he] at h4; cases h4

/-- Both programs panic exactly when there is no argument or the file cannot be read
as a footprint or symbol library, and they always end. -/
theorem C65_panics (d : Disk) (args : List Str) :
    (klcKicadMod F d args ≠ .diverge ∧ klcSymbolLib F d args ≠ .diverge) ∧
    (klcKicadMod F d args = .panic ↔ ∀ name rest m, args = name :: rest → readModule (F := F) d name ≠ .ok m) ∧
    (klcSymbolLib F d args = .panic ↔
      ∀ name rest l, args = name :: rest → readSymbolLib (F := F) d name ≠ .ok l) := by
  cases args with
  | nil => simp [klcKicadMod_eq, klcSymbolLib_eq, firstArg]
  | cons name rest =>
    have hm : (readModule d name : Res (Fp.Module F)) ≠ .diverge := by
      intro h
      rcases Res.bind_eq_diverge.1 h with h | ⟨f, _, h⟩
      · exact C48_ends d name .module_ h
      · cases f <;> cases h
    have hl : (readSymbolLib d name : Res (Lib.SymbolLib F)) ≠ .diverge := by
      intro h
      rcases Res.bind_eq_diverge.1 h with h | ⟨f, _, h⟩
      · exact C48_ends d name .symbolLib h
      · cases f <;> cases h
    simp only [klcKicadMod_eq, klcSymbolLib_eq, firstArg, bind_ok, List.cons.injEq]
    refine ⟨⟨?_, ?_⟩, ?_, ?_⟩
    · cases h : (readModule d name : Res (Fp.Module F)) <;> simp_all [Prog.unwrap]
    · cases h : (readSymbolLib d name : Res (Lib.SymbolLib F)) <;> simp_all [Prog.unwrap]
    · cases h : (readModule d name : Res (Fp.Module F)) <;> simp_all [Prog.unwrap]
      all_goals (rintro _ _ _ rfl rfl hx; rw [h] at hx; cases hx)
    · cases h : (readSymbolLib d name : Res (Lib.SymbolLib F)) <;> simp_all [Prog.unwrap]
      all_goals (rintro _ _ _ rfl rfl hx; rw [h] at hx; cases hx)

/-- A disk with a footprint file without texts and a library with symbols that
have faults. -/
def Spec.sloppyDisk : Disk :=
  { read := fun p => if p = str! "m" then some (str! "(module M)")
      else if p = str! "l" then (match (sampleLib Nm).show with | .ok t => some t | _ => none) else none, }

example : klcKicadMod Nm sloppyDisk [str! "m"] = .ok ⟨[],
    [(.info, str! "Module M"), (.warn, str! "  7.3 M:reference missing"), (.warn, str! "  7.4 M:value missing"),
     (.warn, str! "  7.4 M:reference 2 missing"),
     (.warn, str! "  7.5 M:missing courtyard on CrtYd layer")]⟩ := by rfl

example : ∃ l : Lib.SymbolLib Nm, readSymbolLib sloppyDisk (str! "l") = .ok l ∧
    klcSymbolLib Nm sloppyDisk [str! "l"] ≠ .ok ⟨[], []⟩ := by
  obtain ⟨t, h1, h2⟩ := C14_roundtrip (sampleLib Nm) (by decide +kernel) (by decide +kernel)
  have hr : readSymbolLib sloppyDisk (str! "l") = .ok (sampleLib Nm) :=
    ((C47_typed_readers _ _).2.2.2.1 _).2 ⟨t, by simp [sloppyDisk, h1], h2⟩
  refine ⟨_, hr, fun h => ?_⟩
  have h3 := (C65_library_silent sloppyDisk _ [] _ hr).1 h
  have h4 : ((sampleLib Nm).symbols.map Lib.Symbol.check) ≠ [[], []] := by
    have : ((sampleLib Nm).symbols.map fun s => s.check.length) ≠ [0, 0] := by decide +kernel
    intro h; apply this
    have := congrArg (List.map List.length) h
    rw [List.map_map] at this
    exact this
  apply h4
  have e : ∀ s ∈ (sampleLib Nm).symbols, s.check = [] := fun s hs => (C18_clean_iff s).2 (h3 s hs)
  rw [List.map_congr_left e]
  rfl

end Verif
