import Verif.Model.Programs
import Verif.Props.C90
import Verif.Props.C47
/-!
# Lemmas about what the file readers and the programs print
-/

set_option linter.unusedSectionVars false

namespace Verif.Files
open Verif Told Spec

variable {F : Type} [Flt F]

theorem tellProbe_res {α : Type} (r : Told α) (w : α → KicadFile F) (b : Bool) (rest : Told (KicadFile F)) :
    (tellProbe r w b rest).res = probe r.res w b rest.res := by
  unfold tellProbe probe
  cases r.res <;> cases b <;> rfl

theorem tellProbe_of_out {α : Type} (r : Res α) (w : α → KicadFile F) (b : Bool) (rest : Told (KicadFile F))
    (h : rest.out = []) : (tellProbe (of r) w b rest).out = [] := by
  unfold tellProbe
  cases r <;> cases b <;> simp [of, h]

theorem tellProbe_out {α : Type} (r : Told α) (w : α → KicadFile F) (b : Bool) (rest : Told (KicadFile F))
    (h : rest.out = []) : (tellProbe r w b rest).out = r.out := by
  unfold tellProbe
  cases r.res <;> cases b <;> simp [h]

theorem tellRecognise_res (name s : Str) (e : Expected) :
    (tellRecognise name s e : Told (KicadFile F)).res = recognise name s e := by
  unfold tellRecognise recognise
  simp only [tellProbe_res, of_res, C90_same]

/-- Printing does not change what is read. -/
theorem tellKicadFile_res (d : Disk) (name : Str) (e : Expected) :
    (tellKicadFile d name e : Told (KicadFile F)).res = readKicadFile d name e := by
  unfold tellKicadFile readKicadFile
  rw [bind_res]
  simp only [tellRecognise_res, of_res]

theorem tellModule_res (d : Disk) (name : Str) : (tellModule d name : Told (Fp.Module F)).res = readModule d name := by
  unfold tellModule readModule
  rw [bind_res, tellKicadFile_res]
  congr 1; funext g; cases g <;> rfl

theorem tellLayout_res (d : Disk) (name : Str) : (tellLayout d name : Told (Lay.Layout F)).res = readLayout d name := by
  unfold tellLayout readLayout
  rw [bind_res, tellKicadFile_res]
  congr 1; funext g; cases g <;> rfl

theorem tellSymbolLib_res (d : Disk) (name : Str) :
    (tellSymbolLib d name : Told (Lib.SymbolLib F)).res = readSymbolLib d name := by
  unfold tellSymbolLib readSymbolLib
  rw [bind_res, tellKicadFile_res]
  congr 1; funext g; cases g <;> rfl

/-- A text with the mark of another kind makes the schematic reader print nothing. -/
theorem tell_marked (fn : Option Str) (s : Str) (m : Mark) (h : HasMark s m) (hm : m ≠ mark .schematic) :
    (Sch.tell fn s : Told (Sch.Schematic F)).out = [] := by
  refine C90_foreign fn s fun ls hl => hm ?_
  exact hasMark_unique s _ _ h ⟨_, rfl, by rw [hl]; rfl⟩

/-- What recognising a text prints is what the schematic reader prints for it, unless a
module is expected. -/
theorem tellRecognise_out (name s : Str) (e : Expected) :
    (tellRecognise name s e : Told (KicadFile F)).out =
      if e = .module_ then [] else (Sch.tell (some name) s : Told (Sch.Schematic F)).out := by
  unfold tellRecognise
  rw [tellProbe]
  cases h : (Fp.parse s : Res (Fp.Module F)) with
  | ok m =>
    have hl : Live F name s .module_ := accepts_live name s .module_ ⟨m, h⟩
    rw [tell_marked (some name) s _ (live_mark name s _ hl) (by decide), ite_self]
    rfl
  | err x =>
    by_cases he : e = .module_
    · simp [he]
    · simp only [of_res, he, decide_false, Bool.false_eq_true, if_false, of_out, List.nil_append]
      refine tellProbe_out _ _ _ _ ?_
      refine tellProbe_of_out _ _ _ _ (tellProbe_of_out _ _ _ _ (tellProbe_of_out _ _ _ _ (tellProbe_of_out _ _ _ _ rfl)))
  | panic => exact absurd h (Fp.parse_calm s).1
  | diverge => exact absurd h (Fp.parse_calm s).2

theorem tellKicadFile_out (d : Disk) (name t : Str) (e : Expected) (h : d.read name = some t) :
    (tellKicadFile d name e : Told (KicadFile F)).out =
      if e = .module_ then [] else (Sch.tell (some name) t : Told (Sch.Schematic F)).out := by
  unfold tellKicadFile readFile
  rw [h]
  exact tellRecognise_out name t e

theorem tellKicadFile_none (d : Disk) (name : Str) (e : Expected) (h : d.read name = none) :
    (tellKicadFile d name e : Told (KicadFile F)).out = [] := by
  unfold tellKicadFile readFile
  rw [h]
  rfl

/-- Reading a file of any kind but a schematic prints nothing. -/
theorem tellKicadFile_quiet (d : Disk) (name t : Str) (e : Expected) (k : FileKind) (h : d.read name = some t)
    (hk : k ≠ .schematic) (ha : Accepts F name t k) : (tellKicadFile d name e : Told (KicadFile F)).out = [] := by
  rw [tellKicadFile_out d name t e h,
    tell_marked (some name) t _ (live_mark name t k (accepts_live name t k ha)) (fun hm => hk (mark_inj _ _ hm)), ite_self]

/-- A reader that goes on from `read_kicad_file` prints nothing more. -/
theorem tell_bind {α : Type} (x : Told (KicadFile F)) (g : KicadFile F → Told α) (h : ∀ f, (g f).out = []) :
    (x >>= g).out = x.out := by
  cases hx : x.res with
  | ok a => rw [bind_ok_out hx, h, List.append_nil]
  | _ => exact bind_fail_out (by rw [hx]; simp) g

theorem tellModule_out (d : Disk) (name : Str) : (tellModule d name : Told (Fp.Module F)).out = [] := by
  unfold tellModule
  rw [tell_bind _ _ (by intro f; cases f <;> rfl)]
  cases h : d.read name with
  | none => exact tellKicadFile_none d name _ h
  | some t => rw [tellKicadFile_out d name t _ h, if_pos rfl]

theorem tellLayout_out (d : Disk) (name : Str) (l : Lay.Layout F) (h : readLayout d name = .ok l) :
    (tellLayout d name : Told (Lay.Layout F)).out = [] := by
  unfold tellLayout
  rw [tell_bind _ _ (by intro f; cases f <;> rfl)]
  obtain ⟨t, ht, hp⟩ := ((C47_typed_readers d name).2.2.1 l).1 h
  exact tellKicadFile_quiet d name t _ .layout ht (by decide) ⟨l, hp⟩

theorem tellSymbolLib_out (d : Disk) (name : Str) (l : Lib.SymbolLib F) (h : readSymbolLib d name = .ok l) :
    (tellSymbolLib d name : Told (Lib.SymbolLib F)).out = [] := by
  unfold tellSymbolLib
  rw [tell_bind _ _ (by intro f; cases f <;> rfl)]
  obtain ⟨t, ht, hp⟩ := ((C47_typed_readers d name).2.2.2.1 l).1 h
  exact tellKicadFile_quiet d name t _ .symbolLib ht (by decide) ⟨l, hp⟩

end Verif.Files

namespace Verif.Prog
open Verif Files Told

variable {F : Type} [Flt F]

theorem unwrap_bind_congr {α β : Type} {r : Res α} {f g : α → Res β} (h : ∀ a, r = .ok a → f a = g a) :
    (unwrap r >>= f) = unwrap r >>= g := by
  cases r with
  | ok a => exact h a rfl
  | _ => rfl

theorem printed_nil {α : Type} {t : Told α} (h : t.out = []) : printed t = [] := by rw [printed, h]; rfl

/-- The layout programs print nothing but their answer. -/
theorem dumpLayout_eq (q : Str → Bool) (d : Disk) (args : List Str) :
    dumpLayout F q d args = (do
      let name ← firstArg args
      let l ← unwrap (readLayout d name : Res (Lay.Layout F))
      .ok ⟨println (Lay.toText q 0 l), [(.info, name)]⟩) := by
  unfold dumpLayout
  congr 1; funext name
  dsimp only
  rw [tellLayout_res]
  refine unwrap_bind_congr fun l hl => ?_
  rw [printed_nil (tellLayout_out d name l hl)]; rfl

theorem adjustLayout_eq (q : Str → Bool) (d : Disk) (args : List Str) :
    adjustLayout F q d args = (do
      let name ← firstArg args
      let l ← unwrap (readLayout d name : Res (Lay.Layout F))
      .ok ⟨println (Lay.toText q 0 (l.adjust (Flt.lit 100 0) (Flt.lit 0 0))), [(.info, name)]⟩) := by
  unfold adjustLayout
  congr 1; funext name
  dsimp only
  rw [tellLayout_res]
  refine unwrap_bind_congr fun l hl => ?_
  rw [printed_nil (tellLayout_out d name l hl)]; rfl

theorem dumpFootprint_eq (q : Str → Bool) (d : Disk) (args : List Str) :
    dumpFootprint F q d args = (do
      let name ← firstArg args
      let m ← unwrap (readModule d name : Res (Fp.Module F))
      .ok ⟨println m.name ++ println (Fp.toText q 0 m), []⟩) := by
  unfold dumpFootprint
  congr 1; funext name
  dsimp only
  rw [tellModule_res, printed_nil (tellModule_out d name)]; rfl

theorem klcKicadMod_eq (d : Disk) (args : List Str) :
    klcKicadMod F d args = (do
      let name ← firstArg args
      let m ← unwrap (readModule d name : Res (Fp.Module F))
      .ok ⟨[], report (str! "Module " ++ m.name) (m.check Config.klc)⟩) := by
  unfold klcKicadMod
  congr 1; funext name
  dsimp only
  rw [tellModule_res, printed_nil (tellModule_out d name)]

theorem klcSymbolLib_eq (d : Disk) (args : List Str) :
    klcSymbolLib F d args = (do
      let name ← firstArg args
      let l ← unwrap (readSymbolLib d name : Res (Lib.SymbolLib F))
      .ok ⟨[], (l.symbols.map fun s => report (str! "Symbol " ++ s.name) s.check).flatten⟩) := by
  unfold klcSymbolLib
  congr 1; funext name
  dsimp only
  rw [tellSymbolLib_res]
  refine unwrap_bind_congr fun l hl => ?_
  rw [printed_nil (tellSymbolLib_out d name l hl)]

end Verif.Prog
