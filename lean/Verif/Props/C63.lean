import Verif.Lemmas.ProgOut
import Verif.Props.C48
/-!
# C63: the identify program
-/

set_option linter.unusedSectionVars false

namespace Verif
open Flt Files Spec Res Prog

variable {F : Type} [Flt F]

/-- The word for each kind of file. -/
def Spec.kindWord : FileKind → Str
  | .module_ => str! "module"
  | .schematic => str! "schematic"
  | .layout => str! "layout"
  | .symbolLib => str! "symbollib"
  | .project => str! "project"
  | .fpLibTable => str! "fp-lib-table"

theorem Spec.kindWord_inj (k k' : FileKind) (h : kindWord k = kindWord k') : k = k' := by
  cases k <;> cases k' <;> first | rfl | exact absurd h (by decide)

theorem Prog.showFile_kind (f : KicadFile F) (k : FileKind) : showFile f = kindWord k ↔ kindOf f = some k := by
  cases f <;> cases k <;>
    first
      | exact ⟨fun _ => rfl, fun _ => rfl⟩
      | (refine ⟨fun h => ?_, fun h => by cases h⟩
         first
           | exact absurd h (by decide)
           | (simp [showFile, kindWord] at h))

/-- What `identify` prints before its answer: the notices of the schematic reader for the
text of the file (see C90), one per line. -/
def Spec.heard (F : Type) [Flt F] (d : Disk) (name : Str) : Str :=
  match d.read name with
  | some text => (Sch.tell (some name) text : Told (Sch.Schematic F)).out.flatMap fun n => n ++ str! "\n"
  | none => []

theorem Prog.identify_eq (d : Disk) (name : Str) (rest : List Str) :
    identify F d (name :: rest) = Prog.unwrap (readKicadFile d name .any : Res (KicadFile F)) >>= fun f =>
      .ok ⟨heard F d name ++ (str! "found: " ++ showFile f ++ str! "\n"), []⟩ := by
  have hp : printed (tellKicadFile d name .any : Told (KicadFile F)) = heard F d name := by
    unfold heard printed println
    cases h : d.read name with
    | none => rw [tellKicadFile_none d name _ h]; rfl
    | some t => rw [tellKicadFile_out d name t _ h, if_neg (by decide)]
  simp only [identify, firstArg, bind_ok]
  rw [tellKicadFile_res, hp]
  rfl

theorem Prog.identify_ok (d : Disk) (name : Str) (rest : List Str) (r : Run) :
    identify F d (name :: rest) = .ok r ↔
      ∃ f : KicadFile F, readKicadFile d name .any = .ok f ∧
        r = ⟨heard F d name ++ (str! "found: " ++ showFile f ++ str! "\n"), []⟩ := by
  rw [Prog.identify_eq]
  cases h : (readKicadFile d name .any : Res (KicadFile F)) with
  | ok f => simp [Prog.unwrap, eq_comm]
  | _ => simp [Prog.unwrap]

/-- `identify` answers with the word for a kind of file exactly if the parser of
that kind accepts the file; before the answer it prints the notices of the schematic reader. -/
theorem C63_known (d : Disk) (name : Str) (rest : List Str) (k : FileKind) :
    identify F d (name :: rest) = .ok ⟨heard F d name ++ (str! "found: " ++ kindWord k ++ str! "\n"), []⟩ ↔
      ∃ text, d.read name = some text ∧ Accepts F name text k := by
  rw [Prog.identify_ok]
  constructor
  · rintro ⟨f, hf, hr⟩
    have hw : showFile f = kindWord k := by
      have := congrArg Run.out hr
      simp only [List.append_assoc, List.append_cancel_left_eq] at this
      exact (List.append_cancel_right this).symm
    have hk := (Prog.showFile_kind f k).1 hw
    obtain ⟨text, ht, hc, _⟩ := (C47_recognised d name .any f).1 hf
    refine ⟨text, ht, ?_⟩
    cases f <;> cases hk <;> exact ⟨_, hc⟩
  · rintro ⟨text, ht, ha⟩
    have hf : ∃ f : KicadFile F, kindOf f = some k ∧ IsContent name text f := by
      cases k <;> obtain ⟨x, hx⟩ := ha
      · exact ⟨.module_ x, rfl, hx⟩
      · exact ⟨.schematic x, rfl, hx⟩
      · exact ⟨.layout x, rfl, hx⟩
      · exact ⟨.symbolLib x, rfl, hx⟩
      · exact ⟨.project x, rfl, hx⟩
      · exact ⟨.fpLibTable x, rfl, hx⟩
    obtain ⟨f, hk, hc⟩ := hf
    refine ⟨f, (C47_recognised d name .any f).2 ⟨text, ht, hc, ?_⟩, ?_⟩
    · intro w hw; cases hw
    · rw [(Prog.showFile_kind f k).2 hk]

/-- It answers "unknown" and the name of the file exactly if the file can be read
and all six parsers reject it. -/
theorem C63_unknown (d : Disk) (name : Str) (rest : List Str) :
    identify F d (name :: rest) = .ok ⟨heard F d name ++ (str! "found: unknown: " ++ name ++ str! "\n"), []⟩ ↔
      ∃ text, d.read name = some text ∧ ∀ k, ∃ e, RejectsWith F name text e k := by
  rw [Prog.identify_ok]
  constructor
  · rintro ⟨f, hf, hr⟩
    have hw : showFile f = str! "unknown: " ++ name := by
      have hs : str! "found: unknown: " = str! "found: " ++ str! "unknown: " := by decide
      have := congrArg Run.out hr
      rw [hs] at this
      simp only [List.append_assoc, List.append_cancel_left_eq] at this
      rw [← List.append_assoc] at this
      exact (List.append_cancel_right this).symm
    obtain ⟨text, ht, hc, _⟩ := (C47_recognised d name .any f).1 hf
    refine ⟨text, ht, ?_⟩
    cases f with
    | unknown p => exact hc.2
    | _ => simp [showFile] at hw
  · rintro ⟨text, ht, hr⟩
    refine ⟨.unknown name, (C47_recognised d name .any _).2 ⟨text, ht, ⟨rfl, hr⟩, ?_⟩, ?_⟩
    · intro w hw; cases hw
    · simp [showFile]

/-- When it does not answer it panics: without an argument, if the file cannot be
read, or if the schematic or the symbol library parser panics on it. -/
theorem C63_panics (d : Disk) (args : List Str) :
    identify F d args = .panic ↔
      args = [] ∨ ∃ name rest, args = name :: rest ∧
        (d.read name = none ∨ ∃ text k, d.read name = some text ∧
          (k = .schematic ∨ k = .symbolLib) ∧ Panics F name text k) := by
  cases args with
  | nil => simp [identify, firstArg]
  | cons name rest =>
    have h1 := C48_error (F := F) d name .any
    have h2 := C48_panic (F := F) d name .any
    simp only [wanted, reduceCtorEq, false_and, and_false, exists_false, or_false, and_true,
      IsEmpty.forall_iff, implies_true] at h1 h2
    simp only [Prog.identify_eq, reduceCtorEq, List.cons.injEq, false_or]
    constructor
    · intro h
      refine ⟨name, rest, ⟨rfl, rfl⟩, ?_⟩
      cases hf : (readKicadFile d name .any : Res (KicadFile F)) with
      | ok f => simp [hf, Prog.unwrap] at h
      | err e => exact Or.inl ((h1 e).1 hf).1
      | panic => exact Or.inr (h2.1 hf)
      | diverge => simp [hf, Prog.unwrap] at h
    · rintro ⟨n, r, ⟨rfl, rfl⟩, h⟩
      rcases h with h | h
      · rw [(h1 .io).2 ⟨h, rfl⟩]; rfl
      · rw [h2.2 h]; rfl

/-- It always ends, and never prints anything else: each run that ends without a
panic prints one of the seven answers. -/
theorem C63_answers (d : Disk) (args : List Str) :
    identify F d args ≠ .diverge ∧ (∀ e, identify F d args ≠ .err e) ∧
    ∀ r, identify F d args = .ok r → ∃ name rest, args = name :: rest ∧ r.log = [] ∧
      ((∃ k, r.out = heard F d name ++ (str! "found: " ++ kindWord k ++ str! "\n")) ∨
        r.out = heard F d name ++ (str! "found: unknown: " ++ name ++ str! "\n")) := by
  cases args with
  | nil => simp [identify, firstArg]
  | cons name rest =>
    have h3 := C48_ends (F := F) d name .any
    refine ⟨?_, ?_, ?_⟩
    · rw [Prog.identify_eq]
      cases hf : (readKicadFile d name .any : Res (KicadFile F)) <;> simp_all [Prog.unwrap]
    · intro e
      rw [Prog.identify_eq]
      cases hf : (readKicadFile d name .any : Res (KicadFile F)) <;> simp [Prog.unwrap]
    · intro r hr
      obtain ⟨f, hf, rfl⟩ := (Prog.identify_ok d name rest r).1 hr
      refine ⟨name, rest, rfl, rfl, ?_⟩
      cases hk : kindOf f with
      | some k => left; exact ⟨k, by rw [(Prog.showFile_kind f k).2 hk]⟩
      | none =>
        right
        obtain ⟨text, ht, hc, _⟩ := (C47_recognised d name .any f).1 hf
        cases f <;> cases hk
        rw [hc.1]
        simp [showFile]

/-- Before the answer nothing is printed, unless the file begins with the first line of a
schematic; in particular nothing if the answer is one of the other five kinds. -/
theorem C63_quiet (d : Disk) (name text : Str) (ht : d.read name = some text) :
    ((∀ ls, lines text ≠ str! "EESchema Schematic File Version 2" :: ls) → heard F d name = []) ∧
    ∀ k, k ≠ .schematic → Accepts F name text k → heard F d name = [] := by
  have h0 : (Sch.tell (some name) text : Told (Sch.Schematic F)).out = [] → heard F d name = [] := by
    intro h; unfold heard; rw [ht]; dsimp only; rw [h]; rfl
  refine ⟨fun h => h0 (C90_foreign _ _ h), fun k hk ha => h0 ?_⟩
  exact tell_marked (some name) text _ (live_mark name text k (accepts_live name text k ha))
    (fun hm => hk (mark_inj _ _ hm))

/-- For a schematic the answer comes after one line for each line of a component or sheet
that was skipped. -/
theorem C63_notices (d : Disk) (name text : Str) (rest : List Str) (s : Sch.Schematic F) (ht : d.read name = some text)
    (hs : Sch.parse (some name) text = .ok s) :
    ∃ ns, ContentNotices F ((lines text).drop (s.libraries.length + 3)) ns ∧
      identify F d (name :: rest) =
        .ok ⟨(ns.flatMap fun n => n ++ str! "\n") ++ str! "found: schematic\n", []⟩ := by
  refine ⟨_, (C90_exact (some name) text s hs _).1 rfl, ?_⟩
  rw [(C63_known d name rest .schematic).2 ⟨text, ht, s, hs⟩, heard, ht]
  rfl

/-- A disk with a footprint, a text file and nothing else. -/
def Spec.sampleDisk : Disk :=
  { read := fun p => if p = str! "m.kicad_mod" then some (str! "(module M)")
      else if p = str! "readme" then some (str! "hello")
      else if p = str! "s.sch" then some smallSchematic else none, }

example : identify Nm sampleDisk [str! "m.kicad_mod"] = .ok ⟨str! "found: module\n", []⟩ := by
  have h : Accepts Nm (str! "m.kicad_mod") (str! "(module M)") .module_ := ⟨⟨str! "M", []⟩, by rfl⟩
  have hq := (C63_quiet sampleDisk _ _ rfl).2 _ (by decide) h
  have := (C63_known sampleDisk _ [] .module_).2 ⟨_, rfl, h⟩
  rwa [hq] at this
example : identify Nm sampleDisk [str! "s.sch"] = .ok ⟨str!
    "skipping unknown component line \nskipping unknown component line something\nfound: schematic\n", []⟩ := by
  decide +kernel
example : identify Nm sampleDisk [str! "readme"] = .ok ⟨str! "found: unknown: readme\n", []⟩ := by rfl
example : identify Nm sampleDisk [str! "gone"] = .panic :=
  (C63_panics sampleDisk _).2 (Or.inr ⟨_, _, rfl, Or.inl rfl⟩)

end Verif
