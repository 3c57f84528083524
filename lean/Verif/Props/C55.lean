import Verif.Props.C47
import Verif.Props.C35
/-!
# C55: writing a footprint or layout to disk and reading it back
-/

namespace Verif
open Flt Files Spec Res

variable {F : Type} [Flt F]

/-- Writing reports success exactly if everything was written; then the file has the text of
the value as its content.  No other file changes in any case.  If the file cannot be created
nothing changes; if the write breaks off the old content is lost. -/
theorem C55_write_effect (q : Str → Bool) (fate : Fate) (d : Disk) (name : Str) (m : Fp.Module F) (l : Lay.Layout F) :
    ((writeModule q fate d m name).1 = .ok () ↔ fate = .done) ∧
    ((writeLayout q fate d l name).1 = .ok () ↔ fate = .done) ∧
    (∀ p, p ≠ name → (writeModule q fate d m name).2.read p = d.read p ∧
      (writeLayout q fate d l name).2.read p = d.read p) ∧
    (writeModule q fate d m name).2.read name = (match fate with
      | .refused => d.read name
      | .cut n inside => if inside then none else some ((Fp.toText q 0 m).take n)
      | .done => some (Fp.toText q 0 m)) ∧
    (writeLayout q fate d l name).2.read name = (match fate with
      | .refused => d.read name
      | .cut n inside => if inside then none else some ((Lay.toText q 0 l).take n)
      | .done => some (Lay.toText q 0 l)) := by
  refine ⟨?_, ?_, fun p hp => ⟨?_, ?_⟩, ?_, ?_⟩ <;> cases fate <;>
    simp [writeModule, writeLayout, writeFile, Disk.set, *]

variable [TextLaws F] [ZeroLaws F]

/-- A footprint written to any place of any file system reads back as itself. -/
theorem C55_module (q : Str → Bool) (hq : QuotesWhenNeeded q) (fate : Fate) (d d' : Disk) (name : Str) (m : Fp.Module F)
    (hm : GoodModule m) (h : writeModule q fate d m name = (.ok (), d')) : readModule d' name = .ok m := by
  cases fate <;> simp only [writeModule, writeFile, Prod.mk.injEq, reduceCtorEq, false_and, true_and] at h
  subst h
  refine ((C47_typed_readers _ name).1 m).2 ⟨_, if_pos rfl, ?_⟩
  have := C19_footprint_roundtrip q hq 0 m hm [] Sexp.Text.blank_nil
  rwa [List.append_nil] at this

/-- A layout written to any place of any file system reads back as itself. -/
theorem C55_layout (q : Str → Bool) (hq : QuotesWhenNeeded q) (fate : Fate) (d d' : Disk) (name : Str) (l : Lay.Layout F)
    (hl : SavableLayout l) (hc : CleanLayout l) (h : writeLayout q fate d l name = (.ok (), d')) :
    readLayout d' name = .ok l := by
  cases fate <;> simp only [writeLayout, writeFile, Prod.mk.injEq, reduceCtorEq, false_and, true_and] at h
  subst h
  refine ((C47_typed_readers _ name).2.2.1 l).2 ⟨_, if_pos rfl, ?_⟩
  have := C35_layout_roundtrip q hq 0 l hl hc [] Sexp.Text.blank_nil
  rwa [List.append_nil] at this

example : GoodModule Spec.sampleModule ∧ ∃ d', writeModule Fm.stdQuote .done ⟨fun _ => none⟩
    Spec.sampleModule (str! "x.kicad_mod") = (.ok (), d') := ⟨Spec.sampleModule_good, _, rfl⟩

/-- One write of a program. -/
inductive Spec.Write (F : Type)
  | module_ (m : Fp.Module F) (name : Str) (fate : Fate)
  | layout (l : Lay.Layout F) (name : Str) (fate : Fate)

/-- The file a write goes to. -/
def Spec.Write.target : Spec.Write F → Str
  | .module_ _ n _ => n
  | .layout _ n _ => n

/-- What becomes of the write. -/
def Spec.Write.fate : Spec.Write F → Fate
  | .module_ _ _ f => f
  | .layout _ _ f => f

/-- The disk after writes one after the other. -/
def Spec.runWrites (q : Str → Bool) : List (Spec.Write F) → Disk → Disk
  | [], d => d
  | .module_ m n f :: ws, d => Spec.runWrites q ws (writeModule q f d m n).2
  | .layout l n f :: ws, d => Spec.runWrites q ws (writeLayout q f d l n).2

omit [TextLaws F] [ZeroLaws F] in
theorem Spec.runWrites_other (q : Str → Bool) (ws : List (Spec.Write F)) (d : Disk) (name : Str)
    (hn : ∀ w ∈ ws, w.target = name → w.fate = .refused) :
    (runWrites q ws d).read name = d.read name := by
  induction ws generalizing d with
  | nil => rfl
  | cons w ws ih =>
    rw [List.forall_mem_cons] at hn
    cases w with
    | module_ m n f =>
      rw [runWrites, ih _ hn.2]
      by_cases e : n = name
      · rw [show f = .refused from hn.1 e]
        rfl
      · have e2 : ¬ name = n := fun h => e h.symm
        cases f <;> simp [writeModule, writeFile, Disk.set, e2]
    | layout m n f =>
      rw [runWrites, ih _ hn.2]
      by_cases e : n = name
      · rw [show f = .refused from hn.1 e]
        rfl
      · have e2 : ¬ name = n := fun h => e h.symm
        cases f <;> simp [writeLayout, writeFile, Disk.set, e2]

omit [TextLaws F] [ZeroLaws F] in
theorem Spec.runWrites_append (q : Str → Bool) (a b : List (Spec.Write F)) (d : Disk) :
    runWrites q (a ++ b) d = runWrites q b (runWrites q a d) := by
  induction a generalizing d with
  | nil => rfl
  | cons w a ih => cases w <;> exact ih _

/-- After any sequence of writes, successful or not, whatever was on the disk before: a file
no write went to is unchanged, and a file reads back as the value of the last write that could
open it (as that kind of file) if that write was successful, no matter how many writes of
either kind went there before and how many went elsewhere after. -/
theorem C55_history (q : Str → Bool) (hq : QuotesWhenNeeded q) (ws : List (Spec.Write F)) (d : Disk) :
    (∀ name, (∀ w ∈ ws, w.target = name → w.fate = .refused) → (runWrites q ws d).read name = d.read name) ∧
    (∀ a b m name, ws = a ++ .module_ m name .done :: b → GoodModule m →
      (∀ w ∈ b, w.target = name → w.fate = .refused) → readModule (runWrites q ws d) name = .ok m) ∧
    (∀ a b l name, ws = a ++ .layout l name .done :: b → SavableLayout l → CleanLayout l →
      (∀ w ∈ b, w.target = name → w.fate = .refused) → readLayout (runWrites q ws d) name = .ok l) := by
  refine ⟨fun name hn => runWrites_other q ws d name hn, ?_, ?_⟩
  · rintro a b m name rfl hm hb
    rw [runWrites_append, runWrites]
    have hr := C55_module q hq .done (runWrites q a d) _ name m hm rfl
    obtain ⟨t, ht, hp⟩ := ((C47_typed_readers _ name).1 m).1 hr
    exact ((C47_typed_readers _ name).1 m).2 ⟨t, by rw [runWrites_other q b _ name hb]; exact ht, hp⟩
  · rintro a b l name rfl hl hc hb
    rw [runWrites_append, runWrites]
    have hr := C55_layout q hq .done (runWrites q a d) _ name l hl hc rfl
    obtain ⟨t, ht, hp⟩ := ((C47_typed_readers _ name).2.2.1 l).1 hr
    exact ((C47_typed_readers _ name).2.2.1 l).2 ⟨t, by rw [runWrites_other q b _ name hb]; exact ht, hp⟩

example : ∀ w ∈ [Spec.Write.layout Spec.sampleLayout (str! "b") (.cut 5 false),
    .module_ Spec.sampleModule (str! "a") .refused], w.target = str! "a" → w.fate = .refused := by
  simp [Spec.Write.target, Spec.Write.fate]

end Verif
