import Mathlib.Data.List.TakeWhile
import Verif.Model.Paths
import Verif.Spec.Hierarchy
import Verif.Lemmas.SchRead
import Verif.Props.C09
/-!
# C116: which files collecting components depends on

Collecting and finding components reads the files that the sheets name, and nothing else matters.
Sheets with plain file names stay in the directory of the schematic; an absolute file name leaves it.
-/

namespace Verif
open Flt Sch Spec

variable {F : Type} [Flt F]

/-- The file names that sheets of `s`, or of schematics below it, lead to. -/
inductive Spec.NamesFile (w : World) : Schematic F → Str → Prop
  | here {s : Schematic F} {sheet : Sheet} {p : Str} : sheet ∈ s.sheets → filenameForSheet w s sheet = .ok p → NamesFile w s p
  | further {s t : Schematic F} {p : Str} : SubSheet w s t → NamesFile w t p → NamesFile w s p

/-- Two systems have the same files as far as a schematic names them. -/
def Spec.SameFiles (w w' : World) (s : Schematic F) : Prop :=
  w'.resolve = w.resolve ∧ ∀ p, NamesFile w s p → w'.read p = w.read p

omit [Flt F] in
theorem Spec.filename_same {w w' : World} (h : w'.resolve = w.resolve) (s : Schematic F) (sheet : Sheet) :
    filenameForSheet w' s sheet = filenameForSheet w s sheet := by
  simp only [filenameForSheet, h]

theorem Spec.parseFileForSheet_same {w w' : World} {s : Schematic F} (h : SameFiles w w' s) {sheet : Sheet}
    (hs : sheet ∈ s.sheets) :
    (parseFileForSheet w' s sheet : Res (Schematic F)) = parseFileForSheet w s sheet := by
  simp only [parseFileForSheet, filename_same h.1]
  cases hf : filenameForSheet w s sheet with
  | ok p => simp only [Res.bind_ok, parseFile, h.2 p (.here hs hf)]
  | _ => rfl

theorem Spec.SameFiles.sub {w w' : World} {s t : Schematic F} (h : SameFiles w w' s) (ht : SubSheet w s t) :
    SameFiles w w' t := ⟨h.1, fun p hp => h.2 p (.further ht hp)⟩

/-- All components: only the files that sheets name matter, also for errors and for hierarchies that
do not end. -/
theorem C116_all_components (w w' : World) (n : Nat) (s : Schematic F) (h : SameFiles w w' s) :
    allComponents w' n s = allComponents w n s := by
  induction n generalizing s with
  | zero => rfl
  | succ n ih =>
    have key : ∀ (l : List Sheet) (v : List (Component F)), (∀ x ∈ l, x ∈ s.sheets) →
        sheetsComponents (fun sheet => do
          let sub ← parseFileForSheet w' s sheet
          allComponents w' n sub) l v =
        sheetsComponents (fun sheet => do
          let sub ← parseFileForSheet w s sheet
          allComponents w n sub) l v := by
      intro l
      induction l with
      | nil => intro v _; rfl
      | cons x l ihl =>
        intro v hl
        rw [List.forall_mem_cons] at hl
        rw [sheetsComponents, sheetsComponents, parseFileForSheet_same h hl.1]
        cases hp : (parseFileForSheet w s x : Res (Schematic F)) with
        | ok t =>
          simp only [Res.bind_ok, ih t (h.sub ⟨x, hl.1, hp⟩)]
          cases allComponents w n t with
          | ok v2 => simp only [Res.bind_ok]; exact ihl _ hl.2
          | _ => rfl
        | _ => rfl
    exact key s.sheets s.components fun _ hx => hx

/-- Likewise for finding a component. -/
theorem C116_component_by_reference (w w' : World) (r : Str) (n : Nat) (s : Schematic F) (h : SameFiles w w' s) :
    componentByReference w' r n s = componentByReference w r n s := by
  induction n generalizing s with
  | zero => rfl
  | succ n ih =>
    rw [componentByReference, componentByReference]
    cases s.components.find? fun c => c.reference = r with
    | some c => rfl
    | none =>
      have key : ∀ l : List Sheet, (∀ x ∈ l, x ∈ s.sheets) →
          sheetsFind (parseFileForSheet w' s) (componentByReference w' r n) l =
          sheetsFind (parseFileForSheet w s) (componentByReference w r n) l := by
        intro l
        induction l with
        | nil => intro _; rfl
        | cons x l ihl =>
          intro hl
          rw [List.forall_mem_cons] at hl
          rw [sheetsFind, sheetsFind, parseFileForSheet_same h hl.1]
          cases hp : (parseFileForSheet w s x : Res (Schematic F)) with
          | ok t =>
            simp only [Res.bind_ok, ih t (h.sub ⟨x, hl.1, hp⟩), ihl hl.2]
          | _ => rfl
      exact key s.sheets fun _ hx => hx

/-! ## Staying in a directory -/

/-- A name of a file in the same directory. -/
def Spec.PlainName (f : Str) : Prop := f ≠ [] ∧ '/' ∉ f ∧ f ≠ str! "." ∧ f ≠ str! ".."

instance (f : Str) : Decidable (PlainName f) := inferInstanceAs (Decidable (_ ∧ _))

/-- A directory: the current one, the root, or one written without a slash at its end. -/
def Spec.DirName (d : Str) : Prop := d = str! "/" ∨ d.getLast? ≠ some '/'

instance (d : Str) : Decidable (DirName d) := inferInstanceAs (Decidable (_ ∨ _))

/-- The file `f` of the directory `d`. -/
def Spec.fileIn (d f : Str) : Str :=
  if d = [] then f else if d = str! "/" then '/' :: f else d ++ '/' :: f

theorem Spec.trim_end (x : Str) (c : Char) (h : c ≠ '/') : trimSlashes (x ++ [c]) = x ++ [c] := by
  simp [trimSlashes, h]

theorem Spec.trim_plain (x : Str) {f : Str} (hf : PlainName f) : trimSlashes (x ++ f) = x ++ f := by
  obtain ⟨h1, h2, _⟩ := hf
  obtain ⟨f', c, rfl⟩ := (List.eq_nil_or_concat f).resolve_left h1
  have : c ≠ '/' := by
    rintro rfl
    simp at h2
  rw [List.concat_eq_append, ← List.append_assoc]
  exact trim_end _ c this

theorem Spec.trim_dir {d : Str} (h : d.getLast? ≠ some '/') : trimSlashes d = d := by
  rcases List.eq_nil_or_concat d with rfl | ⟨x, c, rfl⟩
  · rfl
  · rw [List.concat_eq_append] at *
    refine trim_end _ c ?_
    rintro rfl
    simp at h

theorem Spec.cut_plain {f : Str} (hf : PlainName f) : cutLast f = [] := by
  rw [cutLast, List.reverse_eq_nil_iff, List.dropWhile_eq_nil_iff]
  intro c hc
  simp only [bne_iff_ne, ne_eq]
  rintro rfl
  exact hf.2.1 (List.mem_reverse.1 hc)

theorem Spec.cut_slash (x : Str) {f : Str} (hf : PlainName f) : cutLast (x ++ '/' :: f) = x ++ ['/'] := by
  have h : f.reverse.dropWhile (· != '/') = [] := by
    have := cut_plain hf
    simpa only [cutLast, List.reverse_eq_nil_iff] using this
  simp only [cutLast, List.reverse_append, List.reverse_cons, List.append_assoc]
  rw [List.dropWhile_append, h]
  simp

/-- The directory of a file. -/
theorem Spec.parent_fileIn {d f : Str} (hd : DirName d) (hf : PlainName f) : unixParent (fileIn d f) = some d := by
  have hne : ∀ x : Str, x ++ f ≠ [] := fun x h => hf.1 (List.append_eq_nil_iff.1 h).2
  unfold fileIn
  by_cases h1 : d = []
  · rw [if_pos h1, h1]
    have := trim_plain [] hf
    rw [List.nil_append] at this
    simp only [unixParent, this, if_neg hf.1, cut_plain hf, if_true]
  rw [if_neg h1]
  by_cases h2 : d = str! "/"
  · rw [if_pos h2, h2]
    have t := trim_plain ['/'] hf
    have c := cut_slash [] hf
    simp only [List.cons_append, List.nil_append] at t c
    simp only [unixParent, t, c]
    simp [trimSlashes]
  · rw [if_neg h2]
    have hd := hd.resolve_left h2
    have t := trim_plain (d ++ ['/']) hf
    rw [List.append_assoc, List.singleton_append] at t
    have e : trimSlashes (d ++ ['/']) = d := by
      have := trim_dir hd
      simpa [trimSlashes] using this
    simp only [unixParent, t, cut_slash d hf, e]
    simp [h1]

/-- A file next to it. -/
theorem Spec.join_fileIn {d f : Str} (hd : DirName d) (hf : PlainName f) : unixJoin d f = fileIn d f := by
  have h0 : f.head? ≠ some '/' := by
    intro h
    exact hf.2.1 (List.mem_of_head? h)
  unfold unixJoin fileIn
  rw [if_neg h0]
  by_cases h1 : d = []
  · simp [h1]
  by_cases h2 : d = str! "/"
  · simp [h2]
  · have hd := hd.resolve_left h2
    simp [h1, h2, hd]

theorem Spec.parse_filename {p : Option Str} {t : Str} {s : Schematic F} (h : parse p t = .ok s) : s.filename = p :=
  (parseLines_read (ch := '\n') (lines_noLf t) h).2.1

theorem Spec.subSheet_file {w : World} {s t : Schematic F} (h : SubSheet w s t) :
    ∃ sheet ∈ s.sheets, ∃ p, filenameForSheet w s sheet = .ok p ∧ parseFile w p = .ok t ∧ t.filename = some p := by
  obtain ⟨sheet, hm, h⟩ := h
  obtain ⟨p, h1, h2⟩ := Res.bind_eq_ok.1 h
  refine ⟨sheet, hm, p, h1, h2, ?_⟩
  unfold parseFile at h2
  split at h2
  · cases h2
  · exact parse_filename h2

/-- If the sheets of a schematic and of those below it have plain file names, every file that is
looked at lies in the directory of the schematic. -/
theorem C116_stays (read : Str → Option Str) (s : Schematic F) (d f : Str) (hd : DirName d) (hf : PlainName f)
    (hs : s.filename = some (fileIn d f))
    (hp : ∀ t, t = s ∨ Below (unixWorld read) s t → ∀ sheet ∈ t.sheets, PlainName sheet.filename) :
    ∀ p, NamesFile (unixWorld read) s p → ∃ g, PlainName g ∧ p = fileIn d g := by
  have name : ∀ (s : Schematic F) (f : Str), PlainName f → s.filename = some (fileIn d f) → ∀ sheet : Sheet,
      PlainName sheet.filename → filenameForSheet (unixWorld read) s sheet = .ok (fileIn d sheet.filename) := by
    intro s f hf hs sheet hn
    simp only [filenameForSheet, hs, unixWorld, unixResolve, parent_fileIn hd hf, Option.map_some, join_fileIn hd hn]
  intro p h
  induction h generalizing f with
  | here hm hq =>
    have hn := hp _ (.inl rfl) _ hm
    rw [name _ f hf hs _ hn] at hq
    exact ⟨_, hn, (Res.ok.inj hq).symm⟩
  | further hst _ ih =>
    obtain ⟨sheet, hm, q, h1, _, h3⟩ := subSheet_file hst
    have hn := hp _ (.inl rfl) sheet hm
    rw [name _ f hf hs sheet hn] at h1
    cases Res.ok.inj h1
    refine ih sheet.filename hn h3 fun u hu => hp u (.inr ?_)
    rcases hu with rfl | hu
    · exact .one hst
    · exact .more hst hu

/-- So then nothing outside the directory matters. -/
theorem C116_directory (read read' : Str → Option Str) (s : Schematic F) (d f : Str) (hd : DirName d)
    (hf : PlainName f) (hs : s.filename = some (fileIn d f))
    (hp : ∀ t, t = s ∨ Below (unixWorld read) s t → ∀ sheet ∈ t.sheets, PlainName sheet.filename)
    (hr : ∀ g, PlainName g → read' (fileIn d g) = read (fileIn d g)) (n : Nat) (r : Str) :
    allComponents (unixWorld read') n s = allComponents (unixWorld read) n s ∧
    componentByReference (unixWorld read') r n s = componentByReference (unixWorld read) r n s := by
  have h : SameFiles (unixWorld read) (unixWorld read') s := by
    refine ⟨rfl, fun p hp' => ?_⟩
    obtain ⟨g, hg, rfl⟩ := C116_stays read s d f hd hf hs hp p hp'
    exact hr g hg
  exact ⟨C116_all_components _ _ n s h, C116_component_by_reference _ _ r n s h⟩

/-! ## Leaving it -/

omit [Flt F] in
/-- No name in a sheet is refused: with a file name for the schematic, every sheet leads to a file,
and an absolute name to exactly the file it says. -/
theorem C116_never_refused (read : Str → Option Str) (s : Schematic F) (d f : Str) (hd : DirName d)
    (hf : PlainName f) (hs : s.filename = some (fileIn d f)) (sheet : Sheet) :
    filenameForSheet (unixWorld read) s sheet = .ok (unixJoin d sheet.filename) ∧
    (sheet.filename.head? = some '/' → filenameForSheet (unixWorld read) s sheet = .ok sheet.filename) := by
  have h : filenameForSheet (unixWorld read) s sheet = .ok (unixJoin d sheet.filename) := by
    simp only [filenameForSheet, hs, unixWorld, unixResolve, parent_fileIn hd hf, Option.map_some]
  refine ⟨h, fun ha => ?_⟩
  rw [h, unixJoin, if_pos ha]

omit [Flt F] in
theorem Spec.mem_componentsAll : ∀ {hs : List (Hier F)} {h : Hier F}, h ∈ hs → ∀ c ∈ h.components, c ∈ componentsAll hs
  | k :: hs, h, hm, c, hc => by
    rw [componentsAll, List.mem_append]
    rcases List.mem_cons.1 hm with rfl | hm
    · exact .inl hc
    · exact .inr (mem_componentsAll hm c hc)

/-- The components of a file with an absolute name, wherever it lies, are among those that are
collected. -/
theorem C116_absolute_leaves (read : Str → Option Str) (s : Schematic F) (d f : Str) (hd : DirName d)
    (hf : PlainName f) (hs : s.filename = some (fileIn d f)) (sheet : Sheet) (hm : sheet ∈ s.sheets)
    (ha : sheet.filename.head? = some '/') (n : Nat) (v : List (Component F))
    (h : allComponents (unixWorld read) n s = .ok v) :
    ∃ (text : Str) (t : Schematic F), read sheet.filename = some text ∧ parse (some sheet.filename) text = .ok t ∧
      ∀ c ∈ t.components, c ∈ v := by
  obtain ⟨⟨s', subs⟩, rfl, hst, rfl, _⟩ := Spec.hier_of_all _ n s v h
  obtain ⟨k, hk, hp, _⟩ := storedAll_mem hst sheet hm
  obtain ⟨q, h1, h2⟩ := Res.bind_eq_ok.1 hp
  have h1 := ((C116_never_refused read _ d f hd hf hs sheet).2 ha).symm.trans h1
  cases Res.ok.inj h1
  unfold parseFile at h2
  split at h2
  · cases h2
  rename_i text ht
  refine ⟨text, k.root, ht, h2, fun c hc => ?_⟩
  rw [Hier.components, List.mem_append]
  refine .inr (mem_componentsAll hk c ?_)
  cases k
  rw [Hier.components, List.mem_append]
  exact .inl hc

/-! ## Files -/

/-- A project: `top.sch` with the sheet `sub.sch`. -/
def Spec.insideFiles (f : Str) : Option Str :=
  if f = str! "/p/top.sch" then some (sampleSheetText (str! "R1") [str! "sub.sch"])
  else if f = str! "/p/sub.sch" then some (sampleSheetText (str! "R2") [])
  else none

/-- A project: `top.sch` with two sheets elsewhere. -/
def Spec.outsideFiles (f : Str) : Option Str :=
  if f = str! "/p/top.sch" then some (sampleSheetText (str! "R1") [str! "/etc/x", str! "../q/y"])
  else if f = str! "/etc/x" then some (sampleSheetText (str! "R2") [])
  else if f = str! "/p/../q/y" then some (sampleSheetText (str! "R3") [])
  else none

/-- Not every file that is looked at lies in the directory of the schematic. -/
theorem C116_can_leave : ∃ s : Schematic Nm, parseFile (unixWorld outsideFiles) (str! "/p/top.sch") = .ok s ∧
    ((allComponents (unixWorld outsideFiles) 2 s).map fun v => v.map (·.reference)) =
      .ok [str! "R1", str! "R2", str! "R3"] ∧
    NamesFile (unixWorld outsideFiles) s (str! "/etc/x") ∧ NamesFile (unixWorld outsideFiles) s (str! "/p/../q/y") ∧
    ¬ (∃ g, PlainName g ∧ str! "/etc/x" = fileIn (str! "/p") g) ∧
    ¬ (∃ g, PlainName g ∧ str! "/p/../q/y" = fileIn (str! "/p") g) := by
  have h : (parseFile (unixWorld outsideFiles) (str! "/p/top.sch") >>= fun s : Schematic Nm =>
      (allComponents (unixWorld outsideFiles) 2 s).map fun v =>
        (v.map (·.reference), s.sheets.map (·.filename))) =
      .ok ([str! "R1", str! "R2", str! "R3"], [str! "/etc/x", str! "../q/y"]) := by decide +kernel
  obtain ⟨s, hs, h⟩ := Res.bind_eq_ok.1 h
  have hfn : s.filename = some (str! "/p/top.sch") := parse_filename hs
  have key : ∀ g, g ∈ s.sheets.map (·.filename) → NamesFile (unixWorld outsideFiles) s (unixJoin (str! "/p") g) := by
    intro g hg
    obtain ⟨sheet, hm, rfl⟩ := List.mem_map.1 hg
    exact .here hm (C116_never_refused _ s (str! "/p") (str! "top.sch") (by decide) (by decide) (hfn.trans (by decide)) sheet).1
  cases hv : allComponents (unixWorld outsideFiles) 2 s with
  | ok v =>
    rw [hv] at h
    have h := Res.ok.inj h
    have h1 := congrArg Prod.fst h
    have h2 := congrArg Prod.snd h
    simp only at h1 h2
    rw [h2] at key
    refine ⟨s, hs, by rw [hv]; exact congrArg Res.ok h1, key (str! "/etc/x") (by simp), key (str! "../q/y") (by simp), ?_, ?_⟩
    · rintro ⟨g, _, hg⟩
      simp [fileIn] at hg
    · rintro ⟨g, hg, he⟩
      simp [fileIn] at he
      exact hg.2.1 (by simp [← he])
  | _ => rw [hv] at h; cases h

/-- The hypotheses of the theorems about a directory hold for the project `insideFiles`. -/
example : ∃ s : Schematic Nm, s.filename = some (fileIn (str! "/p") (str! "top.sch")) ∧
    (∀ t, t = s ∨ Below (unixWorld insideFiles) s t → ∀ sheet ∈ t.sheets, PlainName sheet.filename) ∧
    NamesFile (unixWorld insideFiles) s (str! "/p/sub.sch") := by
  have h : (parseFile (unixWorld insideFiles) (str! "/p/top.sch")).map (fun s : Schematic Nm =>
      s.sheets.map (·.filename)) = .ok [str! "sub.sch"] := by decide +kernel
  have h' : (parseFile (unixWorld insideFiles) (str! "/p/sub.sch")).map (fun s : Schematic Nm =>
      s.sheets.map (·.filename)) = .ok [] := by decide +kernel
  cases hs : (parseFile (unixWorld insideFiles) (str! "/p/top.sch") : Res (Schematic Nm)) with
  | ok s =>
    rw [hs] at h
    have h : s.sheets.map (·.filename) = [str! "sub.sch"] := Res.ok.inj h
    have hfn : s.filename = some (str! "/p/top.sch") := parse_filename hs
    have plain : ∀ sheet ∈ s.sheets, sheet.filename = str! "sub.sch" := by
      intro sheet hm
      have : sheet.filename ∈ s.sheets.map (·.filename) := List.mem_map.2 ⟨sheet, hm, rfl⟩
      rw [h] at this
      simpa using this
    have name : ∀ sheet ∈ s.sheets, filenameForSheet (unixWorld insideFiles) s sheet = .ok (str! "/p/sub.sch") := by
      intro sheet hm
      rw [(C116_never_refused _ s (str! "/p") (str! "top.sch") (by decide) (by decide) (hfn.trans (by decide)) sheet).1,
        plain sheet hm]
      decide
    have sub : ∀ t, SubSheet (unixWorld insideFiles) s t → t.sheets = [] := by
      intro t ht
      obtain ⟨sheet, hm, p, h1, h2, _⟩ := subSheet_file ht
      rw [name sheet hm] at h1
      cases Res.ok.inj h1
      rw [h2] at h'
      exact List.map_eq_nil_iff.1 (Res.ok.inj h')
    refine ⟨s, hfn.trans (by decide), ?_, ?_⟩
    · rintro t (rfl | ht) sheet hm
      · rw [plain sheet hm]; decide
      · have : t.sheets = [] := by
          cases ht with
          | one h => exact sub t h
          | more h h2 =>
            exfalso
            have := sub _ h
            cases h2 with
            | one h3 => obtain ⟨x, hx, _⟩ := h3; rw [this] at hx; cases hx
            | more h3 _ => obtain ⟨x, hx, _⟩ := h3; rw [this] at hx; cases hx
        rw [this] at hm; cases hm
    · cases hl : s.sheets with
      | nil => rw [hl] at h; cases h
      | cons x l => exact .here (by rw [hl]; simp) (name x (by rw [hl]; simp))
  | _ => rw [hs] at h; cases h

end Verif
