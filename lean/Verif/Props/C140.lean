import Verif.Props.C100
import Verif.Props.C52
/-!
# C140: from the name of a footprint to its file

A footprint is named by library and footprint.  A program looks the library up in its tables, that of the project before
that of the user, expands the address with `get_expanded_uri` and appends the name of the footprint.
-/

namespace Verif
open Spec Tbl

/-- The entry of a library: the first with the name in the first table that has one (`libs`, src/fp_lib_table.rs 14-33). -/
def Spec.entryFor (ts : List FpLibTable) (lib : Str) : Option Lib := (ts.flatMap (·.libs)).find? fun l => decide (l.name = lib)

/-- The file of a footprint in a library: `format!("{}/{}.kicad_mod", lib.get_expanded_uri()?, name)`
(src/fp_lib_table.rs 37-40). -/
def Spec.footprintFile (sh : Shell) (l : Lib) (fp : Str) : Tried Str :=
  match l.getExpandedUri sh with
  | .ok d => .ok (d ++ str! "/" ++ fp ++ str! ".kicad_mod")
  | .err e => .err e
  | .panic => .panic
  | .diverge => .diverge

/-- The file of a footprint; nothing if no table has the library. -/
def Spec.whereIs (sh : Shell) (ts : List FpLibTable) (lib fp : Str) : Option (Tried Str) := (entryFor ts lib).map fun l => footprintFile sh l fp

/-- The names of the libraries in a table. -/
def Spec.libNames (t : FpLibTable) : List Str := t.libs.map (·.name)

namespace Where

theorem entry_cons (t : FpLibTable) (ts : List FpLibTable) (n : Str) :
    entryFor (t :: ts) n = (t.libs.find? fun l => decide (l.name = n)).or (entryFor ts n) := by
  simp [entryFor, List.find?_append]

theorem none_iff (ls : List Lib) (n : Str) : (ls.find? fun l => decide (l.name = n)) = none ↔ n ∉ ls.map (·.name) := by
  simp [List.find?_eq_none]

theorem find_of_nodup {ls : List Lib} (h : (ls.map (·.name)).Nodup) (n : Str) (l : Lib) :
    (ls.find? fun l => decide (l.name = n)) = some l ↔ l ∈ ls ∧ l.name = n := by
  induction ls with
  | nil => simp
  | cons a ls ih =>
    rw [List.map_cons, List.nodup_cons] at h
    by_cases e : a.name = n
    · rw [List.find?_cons_of_pos (by simpa using e)]
      constructor
      · intro x; cases x; exact ⟨List.mem_cons_self .., e⟩
      · rintro ⟨hm, hn⟩
        rcases List.mem_cons.1 hm with rfl | hm
        · rfl
        · exact absurd (List.mem_map.2 ⟨l, hm, hn.trans e.symm⟩) h.1
    · rw [List.find?_cons_of_neg (by simpa using e), ih h.2]
      constructor
      · rintro ⟨hm, hn⟩; exact ⟨List.mem_cons_of_mem _ hm, hn⟩
      · rintro ⟨hm, hn⟩
        rcases List.mem_cons.1 hm with rfl | hm
        · exact absurd hn e
        · exact ⟨hm, hn⟩

end Where

/-- The first table that has the library counts, and the others do not matter; without it they are as if it were not
there. -/
theorem C140_layers (sh : Shell) (t : FpLibTable) (ts ts' : List FpLibTable) (lib fp : Str) :
    (lib ∈ libNames t → whereIs sh (t :: ts) lib fp = whereIs sh (t :: ts') lib fp) ∧
    (lib ∉ libNames t → whereIs sh (t :: ts) lib fp = whereIs sh ts lib fp) ∧
    (whereIs sh (t :: ts) lib fp = none ↔ ∀ x ∈ t :: ts, lib ∉ libNames x) := by
  refine ⟨fun h => ?_, fun h => ?_, ?_⟩
  · simp only [whereIs, Where.entry_cons]
    cases e : t.libs.find? fun l => decide (l.name = lib) with
    | none => exact absurd h ((Where.none_iff _ _).1 e)
    | some l => rfl
  · simp only [whereIs, Where.entry_cons, (Where.none_iff _ _).2 h, Option.none_or]
  · simp only [whereIs, Option.map_eq_none_iff, entryFor, Where.none_iff, libNames]
    simp only [List.mem_map, List.mem_flatMap, not_exists, not_and]
    constructor
    · exact fun h x hx l hl => h l ⟨x, hx, hl⟩
    · rintro h l ⟨x, hx, hl⟩
      exact h x hx l hl

/-- Another address for a library (`libs[i].uri = uri`, src/fp_lib_table.rs 22-33): for every entry of the name. -/
def Spec.setAddress (lib uri : Str) (t : FpLibTable) : FpLibTable :=
  ⟨t.libs.map fun l => if l.name = lib then { l with uri := uri } else l⟩

/-- Taking a library out of a table (`libs.retain(|l| l.name != lib)`, src/fp_lib_table.rs 14-17). -/
def Spec.without (lib : Str) (t : FpLibTable) : FpLibTable := ⟨t.libs.filter fun l => decide (l.name ≠ lib)⟩

/-- With another address the footprints of the library are there, and all others where they were. -/
theorem C140_address (sh : Shell) (t : FpLibTable) (ts : List FpLibTable) (lib uri n fp : Str) :
    (n ≠ lib → whereIs sh (setAddress lib uri t :: ts) n fp = whereIs sh (t :: ts) n fp) ∧
    (lib ∈ libNames t → ∃ l : Lib, l.uri = uri ∧ whereIs sh (setAddress lib uri t :: ts) lib fp = some (footprintFile sh l fp)) := by
  have key : ∀ ls : List Lib, (ls.map fun l => if l.name = lib then { l with uri := uri } else l).find? (fun l => decide (l.name = n)) =
      (ls.find? fun l => decide (l.name = n)).map fun l => if l.name = lib then { l with uri := uri } else l := by
    intro ls
    rw [List.find?_map]
    congr 2
    funext l
    simp only [Function.comp_apply]
    split <;> rfl
  refine ⟨fun h => ?_, fun h => ?_⟩
  · simp only [whereIs, Where.entry_cons, setAddress, key]
    cases e : t.libs.find? fun l => decide (l.name = n) with
    | none => rfl
    | some l =>
      have hl : l.name = n := by simpa using List.find?_some e
      have : ¬ l.name = lib := fun e => h (hl.symm.trans e)
      simp [this]
  · have key' : ∀ ls : List Lib, (ls.map fun l => if l.name = lib then { l with uri := uri } else l).find? (fun l => decide (l.name = lib)) =
        (ls.find? fun l => decide (l.name = lib)).map fun l => if l.name = lib then { l with uri := uri } else l := by
      intro ls
      rw [List.find?_map]
      congr 2
      funext l
      simp only [Function.comp_apply]
      split <;> rfl
    simp only [whereIs, Where.entry_cons, setAddress, key']
    cases e : t.libs.find? fun l => decide (l.name = lib) with
    | none => exact absurd h ((Where.none_iff _ _).1 e)
    | some l =>
      have hl : l.name = lib := by simpa using List.find?_some e
      refine ⟨{ l with uri := uri }, rfl, ?_⟩
      simp [hl]

/-- Taking a library out of the first table uncovers that of the others, and moves no other. -/
theorem C140_without (sh : Shell) (t : FpLibTable) (ts : List FpLibTable) (lib n fp : Str) :
    whereIs sh (without lib t :: ts) lib fp = whereIs sh ts lib fp ∧
    (n ≠ lib → whereIs sh (without lib t :: ts) n fp = whereIs sh (t :: ts) n fp) := by
  refine ⟨(C140_layers sh _ ts ts lib fp).2.1 ?_, fun h => ?_⟩
  · simp [libNames, without]
  · simp only [whereIs, Where.entry_cons, without, List.find?_filter]
    congr 3
    funext l
    by_cases e : l.name = n
    · simp [e, h]
    · simp [e]

/-- The order of a table without double names does not matter. -/
theorem C140_order (sh : Shell) (t t' : FpLibTable) (ts : List FpLibTable) (hn : (libNames t).Nodup) (hp : t.libs.Perm t'.libs)
    (lib fp : Str) : whereIs sh (t :: ts) lib fp = whereIs sh (t' :: ts) lib fp := by
  have hn' : (libNames t').Nodup := (hp.map Lib.name).nodup_iff.1 hn
  have : (t.libs.find? fun l => decide (l.name = lib)) = t'.libs.find? fun l => decide (l.name = lib) := by
    refine Option.ext fun l => ?_
    rw [Where.find_of_nodup hn, Where.find_of_nodup hn', hp.mem_iff]
  simp only [whereIs, Where.entry_cons, this]

/-- Saving the tables and reading them again moves nothing. -/
theorem C140_saved (q : Str → Bool) (hq : QuotesWhenNeeded q) (level : Int) (sh : Shell) (ts ts' : List FpLibTable)
    (hc : ∀ t ∈ ts, ∀ l ∈ t.libs, CleanLib l)
    (h : List.Forall₂ (fun t t' => Tbl.parse (Tbl.toText q level t) = .ok t') ts ts') (lib fp : Str) :
    whereIs sh ts' lib fp = whereIs sh ts lib fp := by
  have : ts' = ts := by
    induction h with
    | nil => rfl
    | cons hd _ ih =>
      rw [List.forall_mem_cons] at hc
      have := C52_table_roundtrip q hq level _ hc.1 [] Sexp.Text.blank_nil
      rw [List.append_nil, hd] at this
      rw [Res.ok.inj this, ih hc.2]
  rw [this]

/-- A variable in front: the footprints are below its value.  Setting a variable moves only libraries that name it. -/
theorem C140_variable (sh sh' : Shell) (hw : NameChars sh.word) (ts : List FpLibTable) (lib fp : Str) (l : Lib) (he : entryFor ts lib = some l) :
    (∀ name v rest, l.uri = str! "${" ++ name ++ str! "}" ++ rest → '}' ∉ name → '$' ∉ rest → sh.var name = some v →
      whereIs sh ts lib fp = some (.ok (v ++ rest ++ str! "/" ++ fp ++ str! ".kicad_mod"))) ∧
    (∀ name ps, sh'.word = sh.word → sh'.told = sh.told → sh'.home = sh.home → (∀ n, n ≠ name → sh'.var n = sh.var n) →
      Divides sh.word ps l.uri → (∀ p ∈ ps, p.var ≠ some name) → whereIs sh' ts lib fp = whereIs sh ts lib fp) := by
  refine ⟨fun name v rest h1 h2 h3 h4 => ?_, fun name ps h1 h2 h3 h4 h5 h6 => ?_⟩
  · simp only [whereIs, he, Option.map_some, footprintFile, C100_usual sh hw l name v rest h1 h2 h3 h4]
  · simp only [whereIs, he, Option.map_some, footprintFile]
    rw [C100_depends sh sh' hw h1 h2 l ps h5 (fun p hp n hn => h4 n fun e => h6 p hp (e ▸ hn)) fun _ => h3]

/-- Of footprints in one library, different names have different files. -/
theorem C140_different (sh : Shell) (ts : List FpLibTable) (lib a b f : Str) (ha : whereIs sh ts lib a = some (.ok f))
    (hb : whereIs sh ts lib b = some (.ok f)) : a = b := by
  simp only [whereIs] at ha hb
  cases e : entryFor ts lib with
  | none => rw [e] at ha; cases ha
  | some l =>
    rw [e] at ha hb
    simp only [Option.map_some, footprintFile] at ha hb
    cases h : l.getExpandedUri sh with
    | ok d =>
      rw [h] at ha hb
      simp only [Option.some.injEq, Tried.ok.injEq] at ha hb
      have := ha.trans hb.symm
      simp only [List.append_assoc] at this
      exact List.append_cancel_right (List.append_cancel_left (List.append_cancel_left this))
    | err e => rw [h] at ha; cases ha
    | panic => rw [h] at ha; cases ha
    | diverge => rw [h] at ha; cases ha

/-! ### Cases -/

/-- A table of a project and one of a user, both with a library `R`. -/
def Where.tables : List FpLibTable :=
  [⟨[⟨str! "R", str! "KiCad", str! "lib/R.pretty", [], []⟩]⟩,
   ⟨[⟨str! "C", str! "KiCad", str! "${KISYSMOD}/C.pretty", [], []⟩, ⟨str! "R", str! "KiCad", str! "${KISYSMOD}/R.pretty", [], []⟩]⟩]

example : (whereIs sampleShell Where.tables (str! "R") (str! "0603"), whereIs sampleShell Where.tables (str! "C") (str! "0603"),
    whereIs sampleShell (Where.tables.map (without (str! "C"))) (str! "C") (str! "0603"),
    whereIs sampleShell (Where.tables.tail) (str! "R") (str! "0603")) =
    (some (.ok (str! "lib/R.pretty/0603.kicad_mod")), some (.ok (str! "/usr/share/kicad/modules/C.pretty/0603.kicad_mod")), none,
     some (.ok (str! "/usr/share/kicad/modules/R.pretty/0603.kicad_mod"))) := by decide +kernel

/-- Footprints of different libraries can have one file. -/
theorem C140_one_file : ∃ (sh : Shell) (ts : List FpLibTable) (l m fp f : Str), l ≠ m ∧ whereIs sh ts l fp = some (.ok f) ∧
    whereIs sh ts m fp = some (.ok f) :=
  ⟨sampleShell, [⟨[⟨str! "A", str! "KiCad", str! "x", [], []⟩, ⟨str! "B", str! "KiCad", str! "x", [], []⟩]⟩], str! "A", str! "B",
    str! "0603", str! "x/0603.kicad_mod", by decide, by decide +kernel, by decide +kernel⟩

end Verif
