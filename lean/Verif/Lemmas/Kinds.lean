import Verif.Spec.Files
import Verif.Spec.Sexp
import Verif.Lemmas.Calm
import Verif.Lemmas.SchTerm
import Verif.Props.C03
import Verif.Props.C04
import Verif.Props.C16
/-!
# A text belongs to at most one kind of file
-/

namespace Verif.Files
open Verif Spec Res

variable {F : Type} [Flt F]

/-- The lexer finds an opening parenthesis first only if the text starts with one. -/
theorem lex_op (s : Str) (ts : List Tok) (h : lex s = some (.op :: ts)) :
    ∃ w r, Blank w ∧ s = w ++ '(' :: r := by
  have quoted : ∀ (s : Str) (m : LexMode), (∃ c, m = .quoted c ∨ m = .esc c ∨ (m = .bare c)) →
      ∀ ts, lexAux m s ≠ some (.op :: ts) := by
    intro s
    induction s with
    | nil =>
      rintro m ⟨c, rfl | rfl | rfl⟩ ts h <;> simp [lexAux] at h
    | cons a s ih =>
      rintro m ⟨c, rfl | rfl | rfl⟩ ts h
      · rw [lexAux] at h
        split at h
        · simp only [Option.map_eq_some_iff] at h
          obtain ⟨x, _, hx⟩ := h
          cases hx
        · split at h
          · exact ih _ ⟨_, Or.inr (Or.inl rfl)⟩ ts h
          · exact ih _ ⟨_, Or.inl rfl⟩ ts h
      · rw [lexAux] at h
        split at h <;> exact ih _ ⟨_, Or.inl rfl⟩ ts h
      · rw [lexAux] at h
        repeat' split at h
        all_goals first
          | exact ih _ ⟨_, Or.inr (Or.inr rfl)⟩ ts h
          | (simp only [Option.map_eq_some_iff] at h
             obtain ⟨x, _, hx⟩ := h
             cases hx)
  unfold lex at h
  induction s with
  | nil => simp [lexAux] at h
  | cons a s ih =>
    rw [lexAux] at h
    split at h
    · rename_i ha
      obtain ⟨w, r, hw, rfl⟩ := ih h
      exact ⟨a :: w, r, by
        intro c hc
        rcases List.mem_cons.1 hc with rfl | hc
        · exact ha
        · exact hw c hc, rfl⟩
    · split at h
      · rename_i ha
        subst ha
        exact ⟨[], s, by intro c hc; simp at hc, rfl⟩
      · split at h
        · simp only [Option.map_eq_some_iff] at h
          obtain ⟨x, _, hx⟩ := h
          cases hx
        · split at h
          · exact absurd h (quoted s _ ⟨_, Or.inl rfl⟩ ts)
          · exact absurd h (quoted s _ ⟨_, Or.inr (Or.inr rfl)⟩ ts)

/-- A text that reads as a list starts, after white space, with a parenthesis. -/
theorem starts_paren (s : Str) (l : List Sexp) (h : parseSexp s = .ok (.list l)) :
    ∃ w r, Blank w ∧ s = w ++ '(' :: r := by
  unfold parseSexp at h
  cases hl : lex s with
  | none => rw [hl] at h; cases h
  | some ts =>
    rw [hl] at h
    cases ts with
    | nil => cases h
    | cons t ts =>
      cases t with
      | op => exact lex_op s ts hl
      | cl => cases h
      | atom a =>
        simp only [parseToks] at h
        cases ts <;> simp [finishParse] at h

/-- First character of a text that has a first line with a first character. -/
theorem head_of_lines (s : Str) (c : Char) (l : Str) (h : (lines s).head? = some (c :: l)) :
    s.head? = some c := by
  have key : ∀ (s cur : Str), cur ≠ [] → ∀ x, (linesAux cur s).head? = some (c :: x) → cur.getLast? = some c := by
    have hrev : ∀ (cur : Str) x, cur.reverse = c :: x → cur.getLast? = some c := by
      intro cur x hx
      have : cur = (c :: x).reverse := by rw [← hx, List.reverse_reverse]
      rw [this]; simp
    intro s
    induction s with
    | nil =>
      intro cur hcur x h
      rw [linesAux] at h
      split at h
      · simp at h
      · simp only [List.head?_cons, Option.some.injEq] at h
        exact hrev cur x h
    | cons a s ih =>
      intro cur hcur x h
      rw [linesAux] at h
      split at h
      · simp only [List.head?_cons, Option.some.injEq] at h
        unfold stripCr at h
        split at h
        · cases h
        · cases h
        · rename_i b y _ hr
          simp only [List.cons.injEq] at h
          exact hrev cur y (by rw [hr, h.1])
      · have := ih (a :: cur) (by simp) x h
        cases cur with
        | nil => exact absurd rfl hcur
        | cons b cur => simpa using this
  unfold lines at h
  cases s with
  | nil => simp [linesAux] at h
  | cons a s =>
    rw [linesAux] at h
    split at h
    · simp [stripCr] at h
    · have := key s [a] (by simp) l h
      simpa using this

theorem not_blank_head (w r : Str) (hw : Blank w) (c : Char) (hc : (w ++ '(' :: r).head? = some c) :
    c = '(' ∨ isSexpSpace c = true := by
  cases w with
  | nil => simp at hc; exact Or.inl hc.symm
  | cons a w => simp at hc; subst hc; exact Or.inr (hw _ List.mem_cons_self)

/-- The parser of kind `k` does not reject the text. -/
def Live (F : Type) [Flt F] (name s : Str) (k : FileKind) : Prop := ¬ ∃ e, RejectsWith F name s e k

theorem live_tree {α : Type} (s n : Str) (de : Sexp → Res α) (hde : ∀ e, (¬ ∃ r, e = .list (.str n :: r)) → ∃ x, de e = .err x)
    (h : ¬ ∃ e, (parseSexp s >>= de) = .err e) : ∃ r, parseSexp s = .ok (.list (.str n :: r)) := by
  have hc := parseSexp_calm s
  cases hp : parseSexp s with
  | ok e =>
    by_cases hr : ∃ r, e = .list (.str n :: r)
    · obtain ⟨r, rfl⟩ := hr; exact ⟨r, rfl⟩
    · obtain ⟨x, hx⟩ := hde e hr
      exact absurd ⟨x, by rw [hp, bind_ok, hx]⟩ h
  | err e => exact absurd ⟨e, by rw [hp]; rfl⟩ h
  | panic => exact absurd hp hc.1
  | diverge => exact absurd hp hc.2

theorem iter_err (n : Str) (e : Sexp) (h : ¬ ∃ r, e = .list (.str n :: r)) : ∃ x, Sx.iter n e = .err x := by
  unfold Sx.iter
  split
  · rename_i m r
    split
    · rename_i hm; subst hm; exact absurd ⟨r, rfl⟩ h
    · exact ⟨_, rfl⟩
  · exact ⟨_, rfl⟩

theorem live_module (name s : Str) (h : Live F name s .module_) :
    ∃ r, parseSexp s = .ok (.list (.str (str! "module") :: r)) :=
  live_tree s _ Fp.Module.de (fun e he => by
    obtain ⟨x, hx⟩ := iter_err _ e he
    exact ⟨x, by rw [Fp.Module.de, hx]; rfl⟩) h

theorem live_layout (name s : Str) (h : Live F name s .layout) :
    ∃ r, parseSexp s = .ok (.list (.str (str! "kicad_pcb") :: r)) :=
  live_tree s _ Lay.Layout.de (fun e he => by
    obtain ⟨x, hx⟩ := iter_err _ e he
    exact ⟨x, by rw [Lay.Layout.de, hx]; rfl⟩) h

theorem live_table (name s : Str) (h : Live F name s .fpLibTable) :
    ∃ r, parseSexp s = .ok (.list (.str (str! "fp_lib_table") :: r)) :=
  live_tree s _ Tbl.FpLibTable.de (fun e he => by
    obtain ⟨x, hx⟩ := iter_err _ e he
    exact ⟨x, by rw [Tbl.FpLibTable.de, hx]; rfl⟩) h

theorem live_schematic (name s : Str) (h : Live F name s .schematic) :
    (lines s).head? = some (str! "EESchema Schematic File Version 2") := by
  by_cases hl : (lines s).head? = some (str! "EESchema Schematic File Version 2")
  · exact hl
  · refine absurd ⟨.other, ?_⟩ h
    show Sch.parse (some name) s = .err .other
    unfold Sch.parse Sch.parseLines
    cases hv : lines s with
    | nil => rfl
    | cons a l =>
      rw [hv, List.head?_cons, Option.some.injEq] at hl
      rw [Sch.assumeLine, if_pos hl]
      rfl

theorem live_symbolLib (name s : Str) (h : Live F name s .symbolLib) :
    (lines s).head? = some (str! "EESchema-LIBRARY Version 2.3") := by
  by_cases hl : [str! "EESchema-LIBRARY Version 2.3", str! "#encoding utf-8", str! "#"] <+: lines s
  · obtain ⟨t, ht⟩ := hl
    rw [← ht]; rfl
  · exact absurd ⟨.other, C16_foreign_rejected s hl⟩ h

theorem live_project (name s : Str) (h : Live F name s .project) : s.head? = some 'u' := by
  by_cases hs : startsWith s (str! "update=") = true
  · cases s with
    | nil => cases hs
    | cons a s =>
      have hs' : (('u' == a) && startsWith s (str! "pdate=")) = true := by
        simpa [startsWith, List.isPrefixOf] using hs
      rw [Bool.and_eq_true] at hs'
      have := eq_of_beq hs'.1
      rw [← this]; rfl
  · refine absurd ⟨.other, ?_⟩ h
    show Pro.parseStr s = .err .other
    unfold Pro.parseStr
    simp [hs]

/-- What the beginning of a text tells about its kind. -/
inductive Mark | tree (name : Str) | line (l : Str) | update
  deriving DecidableEq

def HasMark (s : Str) : Mark → Prop
  | .tree n => ∃ r, parseSexp s = .ok (.list (.str n :: r))
  | .line l => ∃ a, l = 'E' :: a ∧ (lines s).head? = some l
  | .update => s.head? = some 'u'

theorem hasMark_unique (s : Str) (a b : Mark) (ha : HasMark s a) (hb : HasMark s b) : a = b := by
  have hE : ∀ l, HasMark s (.line l) → s.head? = some 'E' := by
    rintro l ⟨x, rfl, h⟩; exact head_of_lines s 'E' x h
  have ht : ∀ n, HasMark s (.tree n) → ∀ c, s.head? = some c → c = '(' ∨ isSexpSpace c = true := by
    rintro n ⟨r, h⟩ c hc
    obtain ⟨w, r, hw, rfl⟩ := starts_paren s _ h
    exact not_blank_head w r hw c hc
  have no : ∀ {p : Prop}, ('E' = '(' ∨ isSexpSpace 'E' = true) → p := fun h => absurd h (by decide)
  have no' : ∀ {p : Prop}, ('u' = '(' ∨ isSexpSpace 'u' = true) → p := fun h => absurd h (by decide)
  cases a with
  | tree n =>
    cases b with
    | tree m =>
      obtain ⟨r, hr⟩ := ha
      obtain ⟨r', hr'⟩ := hb
      rw [hr] at hr'
      cases hr'; rfl
    | line l => exact no (ht n ha 'E' (hE l hb))
    | update => exact no' (ht n ha 'u' hb)
  | line l =>
    cases b with
    | tree m => exact no (ht m hb 'E' (hE l ha))
    | line l' =>
      obtain ⟨x, _, h⟩ := ha
      obtain ⟨y, _, h'⟩ := hb
      rw [h] at h'
      cases h'; rfl
    | update =>
      have := hE l ha
      rw [show s.head? = some 'u' from hb] at this
      cases this
  | update =>
    cases b with
    | tree m => exact no' (ht m hb 'u' ha)
    | line l' =>
      have := hE l' hb
      rw [show s.head? = some 'u' from ha] at this
      cases this
    | update => rfl

/-- Mark of each kind. -/
def mark : FileKind → Mark
  | .module_ => .tree (str! "module")
  | .schematic => .line (str! "EESchema Schematic File Version 2")
  | .layout => .tree (str! "kicad_pcb")
  | .symbolLib => .line (str! "EESchema-LIBRARY Version 2.3")
  | .project => .update
  | .fpLibTable => .tree (str! "fp_lib_table")

theorem live_mark (name s : Str) (k : FileKind) (h : Live F name s k) : HasMark s (mark k) := by
  cases k with
  | module_ => exact live_module name s h
  | schematic => exact ⟨_, rfl, live_schematic name s h⟩
  | layout => exact live_layout name s h
  | symbolLib => exact ⟨_, rfl, live_symbolLib name s h⟩
  | project => exact live_project name s h
  | fpLibTable => exact live_table name s h

theorem mark_inj (k k' : FileKind) (h : mark k = mark k') : k = k' := by
  revert h; cases k <;> cases k' <;> decide

theorem live_unique (name s : Str) (k k' : FileKind) (h : Live F name s k) (h' : Live F name s k') : k = k' :=
  mark_inj k k' (hasMark_unique s _ _ (live_mark name s k h) (live_mark name s k' h'))

/-- Either all parsers reject the text, or exactly one does not. -/
theorem one_live (name s : Str) : (∀ k, ∃ e, RejectsWith F name s e k) ∨
    ∃ k, Live F name s k ∧ ∀ k', k' ≠ k → ∃ e, RejectsWith F name s e k' := by
  by_cases h : ∀ k, ∃ e, RejectsWith F name s e k
  · exact Or.inl h
  · right
    obtain ⟨k, hk⟩ := Classical.not_forall.1 h
    refine ⟨k, hk, fun k' hne => ?_⟩
    by_cases h' : ∃ e, RejectsWith F name s e k'
    · exact h'
    · exact absurd (live_unique name s k' k h' hk) hne

/-- No parser runs for ever. -/
theorem kinds_end (name s : Str) (k : FileKind) (h : Live F name s k) : Accepts F name s k ∨ Panics F name s k := by
  have gen : ∀ {α : Type} (x : Res α), (¬ ∃ e, x = .err e) → x ≠ .diverge → (∃ a, x = .ok a) ∨ x = .panic := by
    intro α x h hd
    cases x with
    | ok a => exact Or.inl ⟨a, rfl⟩
    | err e => exact absurd ⟨e, rfl⟩ h
    | panic => exact Or.inr rfl
    | diverge => exact absurd rfl hd
  cases k with
  | module_ => exact gen _ h (Fp.parse_calm s).2
  | schematic => exact gen _ h (Sch.parse_ends (some name) s)
  | layout => exact gen _ h (Lay.parse_calm s).2
  | symbolLib => exact gen _ h (C16_parse_terminates s)
  | project =>
    refine gen _ h ?_
    unfold Pro.parseStr
    split <;> simp
  | fpLibTable => exact gen _ h (Tbl.parse_calm s).2

/-- Four of the six parsers never panic. -/
theorem panics_only (name s : Str) (k : FileKind) (h : Panics F name s k) : k = .schematic ∨ k = .symbolLib := by
  cases k with
  | module_ => exact absurd h (Fp.parse_calm s).1
  | schematic => exact Or.inl rfl
  | layout => exact absurd h (Lay.parse_calm s).1
  | symbolLib => exact Or.inr rfl
  | project =>
    have h : Pro.parseStr s = .panic := h
    unfold Pro.parseStr at h
    split at h <;> cases h
  | fpLibTable => exact absurd h (Tbl.parse_calm s).1

theorem accepts_live (name s : Str) (k : FileKind) (h : Accepts F name s k) : Live F name s k := by
  rintro ⟨e, he⟩
  cases k <;> (obtain ⟨v, hv⟩ := h; simp only [RejectsWith] at he; rw [hv] at he; cases he)

theorem panics_live (name s : Str) (k : FileKind) (h : Panics F name s k) : Live F name s k := by
  rintro ⟨e, he⟩
  cases k <;> (simp only [RejectsWith] at he; simp only [Panics] at h; rw [h] at he; cases he)

/-- What `read_kicad_file` answers when all parsers reject the text. -/
theorem recognise_none (name s : Str) (e : Expected) (h : ∀ k, ∃ x, RejectsWith F name s x k) :
    (wanted e = none ∧ (recognise name s e : Res (KicadFile F)) = .ok (.unknown name)) ∨
    ∃ k x, wanted e = some k ∧ RejectsWith F name s x k ∧ (recognise name s e : Res (KicadFile F)) = .err x := by
  obtain ⟨x0, h0⟩ := h .module_
  obtain ⟨x1, h1⟩ := h .schematic
  obtain ⟨x2, h2⟩ := h .layout
  obtain ⟨x3, h3⟩ := h .symbolLib
  obtain ⟨x4, h4⟩ := h .project
  obtain ⟨x5, h5⟩ := h .fpLibTable
  simp only [RejectsWith] at h0 h1 h2 h3 h4 h5
  unfold recognise
  rw [h0, h1, h2, h3, h4, h5]
  cases e
  · exact Or.inr ⟨.module_, x0, rfl, h0, by simp [probe]⟩
  · exact Or.inr ⟨.schematic, x1, rfl, h1, by simp [probe]⟩
  · exact Or.inr ⟨.layout, x2, rfl, h2, by simp [probe]⟩
  · exact Or.inr ⟨.symbolLib, x3, rfl, h3, by simp [probe]⟩
  · exact Or.inr ⟨.project, x4, rfl, h4, by simp [probe]⟩
  · exact Or.inr ⟨.fpLibTable, x5, rfl, h5, by simp [probe]⟩
  · exact Or.inl ⟨rfl, by simp [probe]⟩

/-- The result of the parser of a kind, as a file value. -/
def attempt (F : Type) [Flt F] (name s : Str) : FileKind → Res (KicadFile F)
  | .module_ => KicadFile.module_ <$> Fp.parse s
  | .schematic => KicadFile.schematic <$> Sch.parse (some name) s
  | .layout => KicadFile.layout <$> Lay.parse s
  | .symbolLib => KicadFile.symbolLib <$> Lib.parseStr s
  | .project => KicadFile.project <$> Pro.parseStr s
  | .fpLibTable => KicadFile.fpLibTable <$> Tbl.parse s

omit [Flt F] in
theorem probe_live {α : Type} (r : Res α) (wrap : α → KicadFile F) (b : Bool) (rest : Res (KicadFile F))
    (h : ¬ ∃ e, r = .err e) : probe r wrap b rest = wrap <$> r := by
  cases r with
  | err e => exact absurd ⟨e, rfl⟩ h
  | ok a => rfl
  | panic => rfl
  | diverge => rfl

omit [Flt F] in
theorem probe_err {α : Type} (e : Err) (wrap : α → KicadFile F) (b : Bool) (rest : Res (KicadFile F)) :
    probe (.err e) wrap b rest = if b then .err e else rest := rfl

/-- What `read_kicad_file` answers when exactly one parser does not reject. -/
theorem recognise_one (name s : Str) (e : Expected) (k : FileKind) (hk : Live F name s k)
    (h : ∀ k', k' ≠ k → ∃ x, RejectsWith F name s x k') :
    (((∀ w, wanted e = some w → k.place ≤ w.place)) ∧
      (recognise name s e : Res (KicadFile F)) = attempt F name s k) ∨
    ∃ w x, wanted e = some w ∧ w.place < k.place ∧ RejectsWith F name s x w ∧
      (recognise name s e : Res (KicadFile F)) = .err x := by
  cases k with
  | module_ =>
    left
    refine ⟨fun w _ => Nat.zero_le _, ?_⟩
    rw [recognise, probe_live _ _ _ _ hk, attempt]
  | schematic =>
    obtain ⟨x0, h0⟩ := h .module_ (by decide)
    have h0' := h0
    simp only [RejectsWith] at h0
    rw [recognise, h0, probe_live _ _ _ _ hk, attempt, probe_err]
    cases e <;> first
      | (right; exact ⟨.module_, x0, rfl, by decide, h0', by simp⟩)
      | (left; exact ⟨by simp [wanted, FileKind.place], by simp⟩)
  | layout =>
    obtain ⟨x0, h0⟩ := h .module_ (by decide)
    obtain ⟨x1, h1⟩ := h .schematic (by decide)
    have h0' := h0
    have h1' := h1
    simp only [RejectsWith] at h0 h1
    rw [recognise, h0, h1, probe_live _ _ _ _ hk, attempt, probe_err, probe_err]
    cases e <;> first
      | (right; exact ⟨.module_, x0, rfl, by decide, h0', by simp⟩)
      | (right; exact ⟨.schematic, x1, rfl, by decide, h1', by simp⟩)
      | (left; exact ⟨by simp [wanted, FileKind.place], by simp⟩)
  | symbolLib =>
    obtain ⟨x0, h0⟩ := h .module_ (by decide)
    obtain ⟨x1, h1⟩ := h .schematic (by decide)
    obtain ⟨x2, h2⟩ := h .layout (by decide)
    have h0' := h0
    have h1' := h1
    have h2' := h2
    simp only [RejectsWith] at h0 h1 h2
    rw [recognise, h0, h1, h2, probe_live _ _ _ _ hk, attempt, probe_err, probe_err, probe_err]
    cases e <;> first
      | (right; exact ⟨.module_, x0, rfl, by decide, h0', by simp⟩)
      | (right; exact ⟨.schematic, x1, rfl, by decide, h1', by simp⟩)
      | (right; exact ⟨.layout, x2, rfl, by decide, h2', by simp⟩)
      | (left; exact ⟨by simp [wanted, FileKind.place], by simp⟩)
  | project =>
    obtain ⟨x0, h0⟩ := h .module_ (by decide)
    obtain ⟨x1, h1⟩ := h .schematic (by decide)
    obtain ⟨x2, h2⟩ := h .layout (by decide)
    obtain ⟨x3, h3⟩ := h .symbolLib (by decide)
    have h0' := h0
    have h1' := h1
    have h2' := h2
    have h3' := h3
    simp only [RejectsWith] at h0 h1 h2 h3
    rw [recognise, h0, h1, h2, h3, probe_live _ _ _ _ hk, attempt, probe_err, probe_err, probe_err, probe_err]
    cases e <;> first
      | (right; exact ⟨.module_, x0, rfl, by decide, h0', by simp⟩)
      | (right; exact ⟨.schematic, x1, rfl, by decide, h1', by simp⟩)
      | (right; exact ⟨.layout, x2, rfl, by decide, h2', by simp⟩)
      | (right; exact ⟨.symbolLib, x3, rfl, by decide, h3', by simp⟩)
      | (left; exact ⟨by simp [wanted, FileKind.place], by simp⟩)
  | fpLibTable =>
    obtain ⟨x0, h0⟩ := h .module_ (by decide)
    obtain ⟨x1, h1⟩ := h .schematic (by decide)
    obtain ⟨x2, h2⟩ := h .layout (by decide)
    obtain ⟨x3, h3⟩ := h .symbolLib (by decide)
    obtain ⟨x4, h4⟩ := h .project (by decide)
    have h0' := h0
    have h1' := h1
    have h2' := h2
    have h3' := h3
    have h4' := h4
    simp only [RejectsWith] at h0 h1 h2 h3 h4
    rw [recognise, h0, h1, h2, h3, h4, probe_live _ _ _ _ hk, attempt, probe_err, probe_err, probe_err, probe_err,
      probe_err]
    cases e <;> first
      | (right; exact ⟨.module_, x0, rfl, by decide, h0', by simp⟩)
      | (right; exact ⟨.schematic, x1, rfl, by decide, h1', by simp⟩)
      | (right; exact ⟨.layout, x2, rfl, by decide, h2', by simp⟩)
      | (right; exact ⟨.symbolLib, x3, rfl, by decide, h3', by simp⟩)
      | (right; exact ⟨.project, x4, rfl, by decide, h4', by simp⟩)
      | (left; exact ⟨by simp [wanted, FileKind.place], by simp⟩)

end Verif.Files
