import Verif.Model.FilesMsg
import Verif.Props.C63
import Verif.Props.C89
import Verif.Props.C92
/-!
# C93 – what the file functions say when they fail
-/

namespace Verif
open Files Spec Tried

variable {F : Type} [Flt F] (tx : Texts)

/-! ## Without the texts these are the file functions -/

namespace Tried
variable {α β : Type}

@[simp] theorem bind_ok (a : α) (f : α → Tried β) : (Tried.ok a >>= f) = f a := rfl
@[simp] theorem bind_err (e : Fault) (f : α → Tried β) : (Tried.err e >>= f) = .err e := rfl
@[simp] theorem bind_panic (f : α → Tried β) : (Tried.panic >>= f) = .panic := rfl
@[simp] theorem bind_diverge (f : α → Tried β) : (Tried.diverge >>= f) = .diverge := rfl

theorem forget_bind (x : Tried α) (f : α → Tried β) : (x >>= f).forget = x.forget >>= fun a => (f a).forget := by
  cases x <;> rfl

theorem forget_ofRes (m : Str) (r : Res α) : (ofRes m r).forget = r := by cases r <;> rfl

theorem forget_ofSaid (r : Said α) : (ofSaid r).forget = r.forget := by cases r <;> rfl

theorem forget_ok {x : Tried α} {a : α} : x.forget = .ok a ↔ x = .ok a := by cases x <;> simp [forget]

theorem forget_err {x : Tried α} {e : Err} : x.forget = .err e ↔ ∃ m, x = .err ⟨e, m⟩ := by
  cases x with
  | err f => cases f; simp [forget]
  | _ => simp [forget]

end Tried

theorem Files.tryProbe_forget {α : Type} (r : Tried α) (wrap : α → KicadFile F) (b : Bool) (rest : Tried (KicadFile F)) :
    (tryProbe r wrap b rest).forget = probe r.forget wrap b rest.forget := by
  cases r <;> cases b <;> rfl

theorem Files.tryProject_forget (s : Str) : (tryProject s).forget = Pro.parseStr s := by
  unfold tryProject Pro.parseStr
  cases startsWith s (str! "update=") <;> rfl

theorem Files.tryKicadFile_forget (d : Disk) (name : Str) (e : Expected) :
    (tryKicadFile tx d name e : Tried (KicadFile F)).forget = readKicadFile d name e := by
  unfold tryKicadFile readKicadFile tryFile
  rw [forget_bind, forget_ofRes]
  congr 1; funext data
  unfold tryRecognise recognise
  simp only [tryProbe_forget, forget_ofRes, forget_ofSaid, tryProject_forget, C91_same, C92_same]
  rfl

/-- Without the texts of the errors these are the functions of the other properties: the
six readers and the writer. -/
theorem C93_same (d : Disk) (name : Str) :
    (∀ e, (tryKicadFile tx d name e : Tried (KicadFile F)).forget = readKicadFile d name e) ∧
    (tryModule tx d name : Tried (Fp.Module F)).forget = readModule d name ∧
    (trySchematic tx d name : Tried (Sch.Schematic F)).forget = readSchematic d name ∧
    (tryLayout tx d name : Tried (Lay.Layout F)).forget = readLayout d name ∧
    (trySymbolLib tx d name : Tried (Lib.SymbolLib F)).forget = readSymbolLib d name ∧
    (tryProjectFile tx F d name).forget = readProject F d name ∧
    (tryFpLibTable tx F d name).forget = readFpLibTable F d name ∧
    ∀ fate data, (tryWrite tx fate name).forget = (writeFile fate d name data).1 := by
  refine ⟨fun e => tryKicadFile_forget tx d name e, ?_, ?_, ?_, ?_, ?_, ?_, fun fate data => by cases fate <;> rfl⟩ <;>
  · first | unfold tryModule readModule | unfold trySchematic readSchematic | unfold tryLayout readLayout |
      unfold trySymbolLib readSymbolLib | unfold tryProjectFile readProject | unfold tryFpLibTable readFpLibTable
    rw [forget_bind, tryKicadFile_forget]
    congr 1; funext x
    cases x <;> rfl

/-! ## The texts -/

/-- What the reader of one kind tells of a text it rejects. -/
def Spec.Complains (F : Type) [Flt F] (tx : Texts) (name text : Str) (f : Fault) : FileKind → Prop
  | .module_ => RejectsWith F name text f.kind .module_ ∧ f.text = tx.module_ text
  | .schematic => f.kind = .other ∧ (Sch.Msg.parse (some name) text : Said (Sch.Schematic F)) = .err f.text
  | .layout => RejectsWith F name text f.kind .layout ∧ f.text = tx.layout text
  | .symbolLib => f.kind = .other ∧ (Lib.Msg.parseStr text : Said (Lib.SymbolLib F)) = .err f.text
  | .project => f.kind = .other ∧ ¬ str! "update=" <+: text ∧ f.text = str! "not a kicad project file!"
  | .fpLibTable => RejectsWith F name text f.kind .fpLibTable ∧ f.text = tx.table text

/-- The message about a file of kind `k` in place of another. -/
def Spec.mismatch (k : FileKind) (name : Str) : Fault :=
  ⟨.other, str! "unexpected " ++ kindWord k ++ str! " in " ++ name⟩

theorem Files.tryProbe_no {α : Type} (r : Tried α) (wrap : α → KicadFile F) (rest : Tried (KicadFile F)) (f : Fault) :
    tryProbe r wrap false rest = .err f ↔ (∃ e, r.forget = .err e) ∧ rest = .err f := by
  cases r <;> simp [tryProbe, forget]

theorem Files.tryProbe_yes {α : Type} (r : Tried α) (wrap : α → KicadFile F) (rest : Tried (KicadFile F)) (f : Fault) :
    tryProbe r wrap true rest = .err f ↔ r = .err f := by
  cases r <;> simp [tryProbe]

theorem Tried.ofRes_err {α : Type} (m : Str) (r : Res α) (f : Fault) : ofRes m r = .err f ↔ r = .err f.kind ∧ f.text = m := by
  cases f with
  | mk k t => cases r <;> simp [ofRes, eq_comm]

theorem Tried.ofSaid_err {α : Type} (r : Said α) (f : Fault) : ofSaid r = .err f ↔ f.kind = .other ∧ r = .err f.text := by
  cases f with
  | mk k t => cases r <;> simp [ofSaid, eq_comm]

theorem Files.tryProject_err (s : Str) (f : Fault) : tryProject s = .err f ↔
    f.kind = .other ∧ ¬ str! "update=" <+: s ∧ f.text = str! "not a kicad project file!" := by
  unfold tryProject startsWith
  cases f with
  | mk k t =>
    by_cases h : str! "update=" <+: s
    · rw [if_pos (List.isPrefixOf_iff_prefix.2 h)]; simp [h]
    · rw [if_neg (by rw [List.isPrefixOf_iff_prefix]; exact h)]
      simp only [Tried.err.injEq, Fault.mk.injEq, h, not_false_eq_true, true_and]
      constructor <;> rintro ⟨rfl, rfl⟩ <;> exact ⟨rfl, rfl⟩

theorem Files.tryRecognise_err (name text : Str) (e : Expected) (f : Fault) :
    (tryRecognise tx name text e : Tried (KicadFile F)) = .err f ↔
      ∃ w, wanted e = some w ∧ Complains F tx name text f w ∧ ∀ k, k.place < w.place → ∃ y, RejectsWith F name text y k := by
  have hall : ∀ (w : FileKind) (P : FileKind → Prop), (∀ k, k.place < w.place → P k) ↔
      (0 < w.place → P .module_) ∧ (1 < w.place → P .schematic) ∧ (2 < w.place → P .layout) ∧
      (3 < w.place → P .symbolLib) ∧ (4 < w.place → P .project) ∧ (5 < w.place → P .fpLibTable) := by
    intro w P
    constructor
    · intro h; exact ⟨h .module_, h .schematic, h .layout, h .symbolLib, h .project, h .fpLibTable⟩
    · rintro ⟨h0, h1, h2, h3, h4, h5⟩ k hk
      cases k
      · exact h0 hk
      · exact h1 hk
      · exact h2 hk
      · exact h3 hk
      · exact h4 hk
      · exact h5 hk
  unfold tryRecognise
  cases e <;>
    simp only [reduceCtorEq, decide_false, decide_true, tryProbe_no, tryProbe_yes, ofRes_err, ofSaid_err, tryProject_err,
      forget_ofRes, forget_ofSaid, tryProject_forget, C91_same, C92_same, wanted, Option.some.injEq, exists_eq_left',
      Complains, hall, and_false, false_and, exists_false] <;>
    simp only [FileKind.place, RejectsWith, Nat.reduceLT, Nat.lt_irrefl, Nat.not_lt_zero, false_imp_iff, true_imp_iff,
      and_true, IsEmpty.forall_iff, forall_const, Nat.lt_add_one, Nat.zero_lt_one] <;>
    tauto

theorem Files.tryKicadFile_err (d : Disk) (name : Str) (e : Expected) (f : Fault) :
    (tryKicadFile tx d name e : Tried (KicadFile F)) = .err f ↔
      (d.read name = none ∧ f = ⟨.io, tx.read name⟩) ∨
      ∃ text w, d.read name = some text ∧ wanted e = some w ∧ Complains F tx name text f w ∧
        ∀ k, k.place < w.place → ∃ y, RejectsWith F name text y k := by
  unfold tryKicadFile tryFile readFile
  cases hd : d.read name with
  | none =>
    simp only [ofRes, Tried.bind_err, Tried.err.injEq, true_and, reduceCtorEq, false_and, exists_false, or_false]
    exact eq_comm
  | some s =>
    simp only [ofRes, Tried.bind_ok, tryRecognise_err, reduceCtorEq, false_and, false_or, Option.some.injEq,
      exists_and_left, exists_eq_left']

/-- What each of the six readers tells, for every file system and every name.  A reader
fails exactly in three cases: the file cannot be read, and it passes on what the operating
system tells; a kind tried earlier accepts the text, and it names that kind and the file;
or all kinds tried earlier reject the text, and it passes on what its own parser tells. -/
theorem C93_tells (d : Disk) (name : Str) (f : Fault) :
    let tells (w : FileKind) : Prop :=
      (d.read name = none ∧ f = ⟨.io, tx.read name⟩) ∨
      ∃ text, d.read name = some text ∧
        ((∃ k, k.place < w.place ∧ Accepts F name text k ∧ f = mismatch k name) ∨
         ((∀ k, k.place < w.place → ∃ y, RejectsWith F name text y k) ∧ Complains F tx name text f w))
    ((tryModule tx d name : Tried (Fp.Module F)) = .err f ↔ tells .module_) ∧
    ((trySchematic tx d name : Tried (Sch.Schematic F)) = .err f ↔ tells .schematic) ∧
    ((tryLayout tx d name : Tried (Lay.Layout F)) = .err f ↔ tells .layout) ∧
    ((trySymbolLib tx d name : Tried (Lib.SymbolLib F)) = .err f ↔ tells .symbolLib) ∧
    (tryProjectFile tx F d name = .err f ↔ tells .project) ∧
    (tryFpLibTable tx F d name = .err f ↔ tells .fpLibTable) := by
  intro tells
  have gen : ∀ {α : Type} (get : KicadFile F → Tried α) (e : Expected) (w : FileKind)
      (_ : ∀ g, (get g = .err f ↔ kindOf g ≠ some w ∧ f = ⟨.other, str! "unexpected " ++ Prog.showFile g ++ str! " in " ++ name⟩))
      (_ : wanted e = some w),
      ((tryKicadFile tx d name e : Tried (KicadFile F)) >>= get) = .err f ↔ tells w := by
    intro α get e w hg hw
    have hb : ∀ r : Tried (KicadFile F), (r >>= get) = .err f ↔ r = .err f ∨ ∃ g, r = .ok g ∧ get g = .err f := by
      intro r
      cases r <;> simp
    rw [hb, tryKicadFile_err]
    constructor
    · rintro ((h | ⟨t, w', ht, hw', hr, hk⟩) | ⟨g, hgk, hx⟩)
      · exact .inl h
      · rw [hw] at hw'
        cases hw'
        exact .inr ⟨t, ht, .inr ⟨hk, hr⟩⟩
      · rw [← forget_ok, tryKicadFile_forget] at hgk
        obtain ⟨hkind, rfl⟩ := (hg g).1 hx
        obtain ⟨t, ht, hc, hp⟩ := (C47_recognised d name e g).1 hgk
        obtain ⟨k, hk, hle⟩ := hp w hw
        refine .inr ⟨t, ht, .inl ⟨k, ?_, ?_, ?_⟩⟩
        · have : k ≠ w := by rintro rfl; exact hkind hk
          have hne : k.place ≠ w.place := by
            intro h; apply this; revert h; cases k <;> cases w <;> decide
          omega
        · cases g <;> cases hk <;> exact ⟨_, hc⟩
        · cases g <;> cases hk <;> rfl
    · rintro (h | ⟨t, ht, ⟨k, hlt, ha, rfl⟩ | ⟨hk, hr⟩⟩)
      · exact .inl (.inl h)
      · right
        have hne : k ≠ w := by rintro rfl; omega
        obtain ⟨g, hgk, hc⟩ : ∃ g : KicadFile F, kindOf g = some k ∧ IsContent name t g := by
          cases k <;> obtain ⟨v, hv⟩ := ha
          · exact ⟨.module_ v, rfl, hv⟩
          · exact ⟨.schematic v, rfl, hv⟩
          · exact ⟨.layout v, rfl, hv⟩
          · exact ⟨.symbolLib v, rfl, hv⟩
          · exact ⟨.project v, rfl, hv⟩
          · exact ⟨.fpLibTable v, rfl, hv⟩
        refine ⟨g, ?_, (hg g).2 ⟨?_, ?_⟩⟩
        · rw [← forget_ok, tryKicadFile_forget]
          refine (C47_recognised d name e g).2 ⟨t, ht, hc, ?_⟩
          intro w' h
          rw [hw] at h
          cases h
          exact ⟨k, hgk, by omega⟩
        · rw [hgk]
          intro h; cases h; exact hne rfl
        · cases g <;> cases hgk <;> rfl
      · exact .inl (.inr ⟨t, w, ht, hw, hr, hk⟩)
  have fin : ∀ {α : Type} {g : KicadFile F}, (wrongKind g name : Tried α) = .err f ↔
      f = ⟨.other, str! "unexpected " ++ Prog.showFile g ++ str! " in " ++ name⟩ := by
    intro α g
    unfold wrongKind
    rw [Tried.err.injEq]; exact eq_comm
  refine ⟨?_, ?_, ?_, ?_, ?_, ?_⟩
  · exact gen _ .module_ .module_ (by intro g; cases g <;> simp [kindOf, fin]) rfl
  · exact gen _ .schematic .schematic (by intro g; cases g <;> simp [kindOf, fin]) rfl
  · exact gen _ .layout .layout (by intro g; cases g <;> simp [kindOf, fin]) rfl
  · exact gen _ .symbolLib .symbolLib (by intro g; cases g <;> simp [kindOf, fin]) rfl
  · exact gen _ .project .project (by intro g; cases g <;> simp [kindOf, fin]) rfl
  · exact gen _ .fpLibTable .fpLibTable (by intro g; cases g <;> simp [kindOf, fin]) rfl

/-- What is shown tells the kind of the error and the text apart: two errors are shown in the
same way only if they are the same. -/
theorem C93_shown (f g : Fault) : f.shown = g.shown ↔ f = g := by
  refine ⟨fun h => ?_, fun h => by rw [h]⟩
  obtain ⟨k, t⟩ := f
  obtain ⟨k', t'⟩ := g
  cases k <;> cases k' <;> simp [Fault.shown] at h <;> rw [h]

/-- What the kinds of error are called. -/
def Spec.errorName : Err → Str
  | .parse => str! "Parse"
  | .other => str! "Other"
  | .io => str! "IO"
  | .envVar => str! "Env Var"
  | .shellExpand => str! "Shell Expand"
  | .sexp => str! "Symbolic Expression"

/-- Every error is shown as `Kicad`, the name of its kind, `Error:` and its text, with one
space in between. -/
theorem C93_shown_form (f : Fault) :
    f.shown = List.flatten ([str! "Kicad", Spec.errorName f.kind, str! "Error:", f.text].intersperse (str! " ")) := by
  obtain ⟨k, t⟩ := f
  cases k <;> simp [Fault.shown, Spec.errorName]

example : (⟨.io, str! "denied"⟩ : Fault).shown = str! "Kicad IO Error: denied" := by decide

theorem Spec.mismatch_not_blames (k : FileKind) (name l : Str) (F : Type) [Flt F] : ¬ LibBlames F l (mismatch k name).text := by
  intro h
  generalize hm : (mismatch k name).text = m at h
  cases h with
  | common h => cases k <;> cases h <;> simp [mismatch, kindWord] at hm
  | _ => cases k <;> simp [mismatch, kindWord] at hm

theorem Spec.mismatch_not_own (hz : ∃ x : F, Flt.ofStr (str! "0") = some x) (name text : Str) (k w : FileKind)
    (h : Complains F tx name text (mismatch k name) w) : False := by
  have hs : ∀ w, RejectsWith F name text Err.other w → rejection w = .other := fun w h => (C89_parsers name text _ w h).symm
  have he : (mismatch k name).text ≠ str! "end of file reached" := by cases k <;> simp [mismatch, kindWord]
  cases w with
  | module_ => exact absurd (hs _ h.1) (by decide)
  | layout => exact absurd (hs _ h.1) (by decide)
  | fpLibTable => exact absurd (hs _ h.1) (by decide)
  | project => have := h.2.2; cases k <;> simp [mismatch, kindWord] at this
  | schematic =>
    rcases (C91_first (some name) text _).1 h.2 with ⟨h, _⟩ | ⟨_, l, _, _, h, _⟩
    · exact he h
    · exact mismatch_not_blames k name l F (.common h)
  | symbolLib =>
    rcases (C92_first hz text _).1 h.2 with ⟨h, _⟩ | ⟨_, l, _, _, h, _⟩
    · exact he h
    · exact mismatch_not_blames k name l F h

/-- The message "unexpected … in …" can be trusted: a reader gives it for a kind exactly if
the file has that kind and the kind is tried before the one asked for. -/
theorem C93_mismatch (hz : ∃ x : F, Flt.ofStr (str! "0") = some x) (d : Disk) (name : Str) (k : FileKind) :
    let trusted (w : FileKind) : Prop := k.place < w.place ∧ ∃ text, d.read name = some text ∧ Accepts F name text k
    ((tryModule tx d name : Tried (Fp.Module F)) = .err (mismatch k name) ↔ trusted .module_) ∧
    ((trySchematic tx d name : Tried (Sch.Schematic F)) = .err (mismatch k name) ↔ trusted .schematic) ∧
    ((tryLayout tx d name : Tried (Lay.Layout F)) = .err (mismatch k name) ↔ trusted .layout) ∧
    ((trySymbolLib tx d name : Tried (Lib.SymbolLib F)) = .err (mismatch k name) ↔ trusted .symbolLib) ∧
    (tryProjectFile tx F d name = .err (mismatch k name) ↔ trusted .project) ∧
    (tryFpLibTable tx F d name = .err (mismatch k name) ↔ trusted .fpLibTable) := by
  intro trusted
  have gen : ∀ w, ((d.read name = none ∧ mismatch k name = ⟨.io, tx.read name⟩) ∨
      ∃ text, d.read name = some text ∧
        ((∃ k', k'.place < w.place ∧ Accepts F name text k' ∧ mismatch k name = mismatch k' name) ∨
         ((∀ k, k.place < w.place → ∃ y, RejectsWith F name text y k) ∧ Complains F tx name text (mismatch k name) w))) ↔
      trusted w := by
    intro w
    constructor
    · rintro (⟨_, h⟩ | ⟨t, ht, ⟨k', h1, h2, h3⟩ | ⟨_, h⟩⟩)
      · cases congrArg Fault.kind h
      · have : k = k' := by
          have h := congrArg Fault.text h3
          simp only [mismatch, List.append_assoc, List.append_cancel_left_eq] at h
          rw [← List.append_assoc, ← List.append_assoc] at h
          exact kindWord_inj _ _ (List.append_cancel_right (List.append_cancel_right h))
        subst this
        exact ⟨h1, t, ht, h2⟩
      · exact (mismatch_not_own tx hz name t k w h).elim
    · rintro ⟨h1, t, ht, h2⟩
      exact .inr ⟨t, ht, .inl ⟨k, h1, h2, rfl⟩⟩
  obtain ⟨h1, h2, h3, h4, h5, h6⟩ := C93_tells (F := F) tx d name (mismatch k name)
  exact ⟨h1.trans (gen _), h2.trans (gen _), h3.trans (gen _), h4.trans (gen _), h5.trans (gen _), h6.trans (gen _)⟩

/-- A failed write says whether the old content is still there: "create error" leaves every
file as it was, "write error" leaves a part of the new text in the named file or something
unreadable, and nothing else is said.  Both messages name the file. -/
theorem C93_write (fate : Fate) (d : Disk) (name data : Str) (f : Fault) (h : tryWrite tx fate name = .err f) :
    f.kind = .other ∧
    ((f.text = str! "create error in file '" ++ name ++ str! "': " ++ tx.create name ∧ (writeFile fate d name data).2 = d) ∨
     (f.text = str! "write error in file '" ++ name ++ str! "': " ++ tx.write name ∧
      (∀ p, p ≠ name → (writeFile fate d name data).2.read p = d.read p) ∧
      ((writeFile fate d name data).2.read name = none ∨ ∃ part, (writeFile fate d name data).2.read name = some part ∧ part <+: data))) := by
  cases fate with
  | refused => cases h; exact ⟨rfl, .inl ⟨rfl, rfl⟩⟩
  | done => cases h
  | cut n inside =>
    cases h
    refine ⟨rfl, .inr ⟨rfl, fun p hp => by simp [writeFile, Disk.set, hp], ?_⟩⟩
    cases inside
    · exact .inr ⟨data.take n, by simp [writeFile, Disk.set], List.take_prefix _ _⟩
    · exact .inl (by simp [writeFile, Disk.set])

/-! ## Concrete cases -/

/-- Texts for the examples. -/
def C93_texts : Texts :=
  ⟨fun _ => str! "No such file", fun _ => str! "Permission denied", fun _ => str! "No space", fun _ => str! "?", fun _ => str! "?", fun _ => str! "?"⟩

/-- A footprint in place of a board. -/
example : (match (tryLayout C93_texts sampleDisk (str! "m.kicad_mod") : Tried (Lay.Layout Nm)) with
    | .err f => f.shown | _ => []) = str! "Kicad Other Error: unexpected module in m.kicad_mod" := by
  rw [((C93_mismatch (F := Nm) C93_texts (Option.isSome_iff_exists.1 (by decide)) sampleDisk (str! "m.kicad_mod") .module_).2.2.1).2
    ⟨by decide, _, rfl, _, rfl⟩]
  decide

/-- A text that is no project, and a file that is not there. -/
example : (tryProjectFile C93_texts Nm sampleDisk (str! "readme")) = .err ⟨.other, str! "not a kicad project file!"⟩ ∧
    (tryProjectFile C93_texts Nm sampleDisk (str! "gone")) = .err ⟨.io, str! "No such file"⟩ := ⟨rfl, rfl⟩

/-- A schematic with the wrong version. -/
example : (trySchematic C93_texts ⟨fun _ => some (str! "EESchema Schematic File Version 4\n")⟩ (str! "a.sch") : Tried (Sch.Schematic Nm)) =
    .err ⟨.other, str! "expected 'EESchema Schematic File Version 2', got 'EESchema Schematic File Version 4'"⟩ := rfl

end Verif
