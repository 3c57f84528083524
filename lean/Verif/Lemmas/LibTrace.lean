import Verif.Model.SymbolLibMsg
import Verif.Spec.LibBlame
import Verif.Lemmas.SchMsg
import Verif.Props.C75
/-!
# Messages of the symbol library reader and the first line at fault
-/

set_option linter.unusedSectionVars false

namespace Verif.Lib.Msg
open Verif Lib Spec Said Sch.Msg

variable {F : Type} [Flt F] {α β : Type}

/-! ## Without the messages it is the reader -/

@[simp] theorem fill_forget (s : Str) : (fill s).forget = Fill.make s := by
  simp only [fill, Fill.make, forget_ite, forget_ok, forget_err]

@[simp] theorem pinOrientation_forget (s : Str) : (pinOrientation s).forget = PinOrientation.make s := by
  simp only [pinOrientation, PinOrientation.make, forget_ite, forget_ok, forget_err]

@[simp] theorem pinType_forget (s : Str) : (pinType s).forget = PinType.make s := by
  simp only [pinType, PinType.make, forget_ite, forget_ok, forget_err]

@[simp] theorem pinShape_forget (s : Str) : (pinShape s).forget = PinShape.make s := by
  simp only [pinShape, PinShape.make, forget_ite, forget_ok, forget_err]

theorem parseField_forget (l : Str) : (parseField l : Said (Field F)).forget = Lib.parseField l := by
  unfold parseField Lib.parseField
  rw [forget_bind, splitQ_forget]
  congr 1; funext v
  have hite : ∀ {γ δ : Type} (c : Prop) [Decidable c] (x y : Res γ) (f : γ → Res δ),
      ((if c then x else y) >>= f) = if c then x >>= f else y >>= f := by
    intro γ δ c _ x y f; split <;> rfl
  simp only [forget_ite, forget_bind, forget_ok, forget_err, i64R_forget, f64R_forget, idx_forget, charAt_forget,
    orientation_forget, justify_forget, boolFrom_forget, boolFromString_forget, fieldName, hite, Res.bind_ok]

theorem parsePin_forget (l : Str) : (parsePin l).forget = Lib.parsePin l := by
  unfold parsePin Lib.parsePin
  simp only [forget_ite, forget_bind, forget_ok, forget_err, i64R_forget, idx_forget, splitQ_forget,
    pinOrientation_forget, pinType_forget, pinShape_forget]

theorem parseRect_forget (l : Str) : (parseRect l).forget = Lib.parseRect l := by
  unfold parseRect Lib.parseRect
  simp only [forget_ite, forget_bind, forget_ok, forget_err, i64R_forget, idx_forget, splitQ_forget, fill_forget]

theorem parseFields_forget (p : List Str) : ∀ acc : List (Field F), (parseFields acc p).forget = Lib.parseFields acc p := by
  induction p with
  | nil => intro acc; rfl
  | cons s p ih =>
    intro acc
    rw [parseFields, Lib.parseFields]
    simp only [forget_ite, forget_bind, forget_ok, charAt_forget, parseField_forget, ih]

theorem parseDrawLine_forget (s : Str) : (parseDrawLine s).forget = Lib.parseDrawLine s := by
  unfold parseDrawLine Lib.parseDrawLine
  simp only [forget_ite, forget_bind, forget_ok, parsePin_forget, parseRect_forget]

theorem parseDraws_forget (p : List Str) : ∀ acc : List Draw, (parseDraws acc p).forget = Lib.parseDraws acc p := by
  induction p with
  | nil => intro acc; rfl
  | cons s p ih =>
    intro acc
    rw [parseDraws, Lib.parseDraws]
    simp only [forget_ite, forget_bind, forget_ok, parseDrawLine_forget, ih]

theorem parseAliases_forget (p : List Str) : (parseAliases p).forget = Lib.parseAliases p := by
  unfold parseAliases Lib.parseAliases
  simp only [forget_ite, forget_bind, forget_ok, splitQ_forget, here_forget]

theorem parseDef_forget (l : Str) : (parseDef l : Said (Symbol F)).forget = Lib.parseDef l := by
  unfold parseDef Lib.parseDef
  simp only [forget_ite, forget_bind, forget_ok, forget_err, i64R_forget, f64R_forget, idx_forget, assumeString_forget,
    boolFromString_forget, splitQ_forget]

theorem parseSymbol_forget (p : List Str) : (parseSymbol p : Said (Symbol F × List Str)).forget = Lib.parseSymbol p := by
  unfold parseSymbol Lib.parseSymbol
  simp only [forget_bind, forget_ok, here_forget, assumeLine_forget, parseDef_forget, parseFields_forget, parseAliases_forget,
    parseDraws_forget]

theorem parseSymbols_forget (n : Nat) : ∀ (acc : List (Symbol F)) (p : List Str),
    (parseSymbols n acc p).forget = Lib.parseSymbols n acc p := by
  induction n with
  | zero => intro acc p; cases p <;> rfl
  | succ n ih =>
    intro acc p
    cases p with
    | nil => rfl
    | cons s p =>
      rw [parseSymbols, Lib.parseSymbols]
      simp only [forget_ite, forget_bind, forget_ok, parseSymbol_forget, ih]

theorem parseLines_forget (v : List Str) : (parseLines v : Said (SymbolLib F)).forget = Lib.parseLines v := by
  unfold parseLines Lib.parseLines
  simp only [forget_bind, forget_ok, assumeLine_forget, parseSymbols_forget]

/-! ## Each message is about the line it was made for -/

/-- If it fails, the message is true of the line. -/
abbrev LBl (F : Type) [Flt F] (l : Str) (x : Said α) : Prop := Only (LibBlames F l) x

section
variable {l : Str}

theorem lbl {x : Said α} (h : Bl F l x) : LBl F l x := h.mono fun _ => .common

theorem words_quoted (l : Str) : HasWords l (splitFinish (l.foldl (splitStep none) ⟨0, [], false, false, []⟩)) :=
  (C74_split l _).1 rfl

theorem lbl_fill {w : Str} (h : WordOf l w) : LBl F l (fill w) := by
  unfold fill
  refine bl_ite (fun _ => bl_ok _) fun h1 => bl_ite (fun _ => bl_ok _) fun h2 => bl_ite (fun _ => bl_ok _) fun h3 =>
    bl_err (.fill h ?_)
  intro o ho
  simp [fills, h1, h2, h3] at ho

theorem lbl_pinOrientation {w : Str} (h : WordOf l w) : LBl F l (pinOrientation w) := by
  unfold pinOrientation
  refine bl_ite (fun _ => bl_ok _) fun h1 => bl_ite (fun _ => bl_ok _) fun h2 => bl_ite (fun _ => bl_ok _) fun h3 =>
    bl_ite (fun _ => bl_ok _) fun h4 => bl_err (.pinSide h ?_)
  intro o ho
  simp [pinSides, h1, h2, h3, h4] at ho

theorem lbl_pinType {w : Str} (h : WordOf l w) : LBl F l (pinType w) := by
  unfold pinType
  refine bl_ite (fun _ => bl_ok _) fun h1 => bl_ite (fun _ => bl_ok _) fun h2 => bl_ite (fun _ => bl_ok _) fun h3 =>
    bl_ite (fun _ => bl_ok _) fun h4 => bl_ite (fun _ => bl_ok _) fun h5 => bl_ite (fun _ => bl_ok _) fun h6 =>
    bl_ite (fun _ => bl_ok _) fun h7 => bl_ite (fun _ => bl_ok _) fun h8 => bl_ite (fun _ => bl_ok _) fun h9 =>
    bl_ite (fun _ => bl_ok _) fun h10 => bl_ite (fun _ => bl_ok _) fun h11 => bl_err (.pinType h ?_)
  intro o ho
  simp [pinTypes, h1, h2, h3, h4, h5, h6, h7, h8, h9, h10, h11] at ho

theorem lbl_pinShape {w : Str} (h : WordOf l w) : LBl F l (pinShape w) := by
  unfold pinShape
  refine bl_ite (fun _ => bl_ok _) fun h0 => ?_
  have hw : ∃ x, (if startsWith w (str! "N") then w.drop 1 else w) = x ∧ (w = x ∧ w.head? ≠ some 'N' ∨ w = 'N' :: x) := by
    cases w with
    | nil => simp at h0
    | cons c w =>
      by_cases hc : c = 'N'
      · subst hc; exact ⟨w, rfl, .inr rfl⟩
      · refine ⟨c :: w, if_neg ?_, .inl ⟨rfl, by simp [hc]⟩⟩
        simp [startsWith, hc]; exact fun e => hc e.symm
  obtain ⟨x, hx, hw⟩ := hw
  dsimp only
  rw [hx]
  refine bl_ite (fun _ => bl_ok _) fun h1 => bl_ite (fun _ => bl_ok _) fun h2 => bl_ite (fun _ => bl_ok _) fun h3 =>
    bl_ite (fun _ => bl_ok _) fun h4 => bl_ite (fun _ => bl_ok _) fun h5 => bl_ite (fun _ => bl_ok _) fun h6 =>
    bl_ite (fun _ => bl_ok _) fun h7 => bl_ite (fun _ => bl_ok _) fun h8 => bl_ite (fun _ => bl_ok _) fun h9 =>
    bl_err (.pinShape h (hw.imp And.left id) ?_)
  have hno : ∀ k, (x, k) ∉ pinShapes := by
    intro k hk
    simp [pinShapes, h1, h2, h3, h4, h5, h6, h7, h8, h9] at hk
  rintro b k (⟨rfl, _⟩ | ⟨y, hy, ⟨rfl, _⟩ | ⟨rfl, hne, _⟩⟩)
  · simp at h0
  · rcases hw with ⟨rfl, h⟩ | h
    · simp at h
    · rw [← (List.cons.inj h).2] at hno; exact hno k hy
  · rcases hw with ⟨rfl, _⟩ | rfl
    · exact hno k hy
    · simp [pinShapes] at hy

theorem lbl_number {w : Str} (h : WordOf l w) : LBl F l (i64R l (w.drop 1)) := by
  unfold i64R
  cases hi : i64FromStr (w.drop 1) with
  | some i => exact bl_ok _
  | none =>
    refine bl_err (.number h fun i hw => ?_)
    rw [(i64FromStr_iff _ i).2 hw] at hi
    cases hi

theorem bl_idx' {v : List Str} {n : Nat} {P : Str → Prop} : Only P (idx v n) := by
  unfold idx
  split
  · exact bl_ok _
  · exact bl_panic

theorem lbl_field (hl : l.head? = some 'F') : LBl F l (parseField l : Said (Field F)) := by
  have hv := words_quoted l
  show LBl F l (if _ then _ else _ : Said (Field F))
  generalize splitFinish (l.foldl (splitStep none) ⟨0, [], false, false, []⟩) = v at hv ⊢
  have hw : ∀ w ∈ v, WordOf l w := fun w h => ⟨v, .inl ⟨_, hv⟩, h⟩
  refine bl_ite (fun h => bl_err (.field hl hv h.1 h.2)) fun hlen => ?_
  refine bl_bind bl_idx' fun n hn => ?_
  refine bl_bind (lbl_number (hw n (idx_mem hn))) fun i hi => ?_
  refine bl_bind ?_ fun _ _ => ?_
  · unfold fieldName
    refine bl_ite (fun _ => bl_idx') fun h10 => ?_
    refine bl_ite (fun _ => bl_ok _) fun h0 => bl_ite (fun _ => bl_ok _) fun h1 => bl_ite (fun _ => bl_ok _) fun h2 =>
      bl_ite (fun _ => bl_ok _) fun h3 => bl_err ?_
    refine .nameless (n := n) (i := i) hv (by omega) ?_ ?_ ?_
    · unfold idx at hn
      split at hn
      · cases hn; assumption
      · cases hn
    · rw [← i64FromStr_iff]
      unfold i64R at hi
      split at hi
      · cases hi; assumption
      · cases hi
    · intro s hs
      simp [fixedNames, h0, h1, h2, h3] at hs
  refine bl_idx hw fun _ _ => ?_
  refine bl_idx hw fun w hw' => bl_bind (lbl (bl_f64 hw')) fun _ _ => ?_
  refine bl_idx hw fun w hw' => bl_bind (lbl (bl_f64 hw')) fun _ _ => ?_
  refine bl_idx hw fun w hw' => bl_bind (lbl (bl_i64 hw')) fun _ _ => ?_
  refine bl_idx hw fun w3 h3 => bl_charAt0 fun c r hc => bl_bind (lbl (bl_orientation (r := r) (hc ▸ h3))) fun _ _ => ?_
  refine bl_idx hw fun w hw' => bl_bind (lbl (bl_boolString hw')) fun _ _ => ?_
  refine bl_idx hw fun w3 h3 => bl_charAt0 fun c r hc => bl_bind (lbl (bl_justify (r := r) (hc ▸ h3))) fun _ _ => ?_
  refine bl_idx hw fun w3 h3 => bl_charAt0 fun c r hc => bl_bind (lbl (bl_justify (r := r) (hc ▸ h3))) fun _ _ => ?_
  refine bl_idx hw fun w3 h3 => bl_charAt fun c hc => bl_bind (lbl (bl_bool h3 hc)) fun _ _ => ?_
  refine bl_idx hw fun w3 h3 => bl_charAt fun c hc => bl_bind (lbl (bl_bool h3 hc)) fun _ _ => ?_
  exact bl_ok _

theorem lbl_pin (hl : str! "X " <+: l) : LBl F l (parsePin l) := by
  have hv := words_quoted l
  show LBl F l (if _ then _ else _ : Said Pin)
  generalize splitFinish (l.foldl (splitStep none) ⟨0, [], false, false, []⟩) = v at hv ⊢
  have hw : ∀ w ∈ v, WordOf l w := fun w h => ⟨v, .inl ⟨_, hv⟩, h⟩
  refine bl_ite (fun h => bl_err (.pin hl hv h.1 h.2)) fun hlen => ?_
  refine bl_idx hw fun _ _ => bl_idx hw fun _ _ => ?_
  refine bl_idx hw fun w hw' => bl_bind (lbl (bl_i64 hw')) fun _ _ => ?_
  refine bl_idx hw fun w hw' => bl_bind (lbl (bl_i64 hw')) fun _ _ => ?_
  refine bl_idx hw fun w hw' => bl_bind (lbl (bl_i64 hw')) fun _ _ => ?_
  refine bl_idx hw fun w hw' => bl_bind (lbl_pinOrientation hw') fun _ _ => ?_
  refine bl_idx hw fun w hw' => bl_bind (lbl (bl_i64 hw')) fun _ _ => ?_
  refine bl_idx hw fun w hw' => bl_bind (lbl (bl_i64 hw')) fun _ _ => ?_
  refine bl_idx hw fun w hw' => bl_bind (lbl (bl_i64 hw')) fun _ _ => ?_
  refine bl_idx hw fun w hw' => bl_bind (lbl (bl_i64 hw')) fun _ _ => ?_
  refine bl_idx hw fun w hw' => bl_bind (lbl_pinType hw') fun _ _ => ?_
  exact bl_ite (fun _ => bl_idx hw fun w hw' => bl_bind (lbl_pinShape hw') fun _ _ => bl_ok _) fun _ => bl_ok _

theorem lbl_rect (hl : str! "S " <+: l) : LBl F l (parseRect l) := by
  have hv := words_quoted l
  show LBl F l (if _ then _ else _ : Said Rectangle)
  generalize splitFinish (l.foldl (splitStep none) ⟨0, [], false, false, []⟩) = v at hv ⊢
  have hw : ∀ w ∈ v, WordOf l w := fun w h => ⟨v, .inl ⟨_, hv⟩, h⟩
  refine bl_ite (fun h => bl_err (.rect hl hv h)) fun hlen => ?_
  refine bl_idx hw fun w hw' => bl_bind (lbl (bl_i64 hw')) fun _ _ => ?_
  refine bl_idx hw fun w hw' => bl_bind (lbl (bl_i64 hw')) fun _ _ => ?_
  refine bl_idx hw fun w hw' => bl_bind (lbl (bl_i64 hw')) fun _ _ => ?_
  refine bl_idx hw fun w hw' => bl_bind (lbl (bl_i64 hw')) fun _ _ => ?_
  refine bl_idx hw fun w hw' => bl_bind (lbl (bl_i64 hw')) fun _ _ => ?_
  refine bl_idx hw fun w hw' => bl_bind (lbl (bl_i64 hw')) fun _ _ => ?_
  refine bl_idx hw fun w hw' => bl_bind (lbl (bl_i64 hw')) fun _ _ => ?_
  exact bl_idx hw fun w hw' => bl_bind (lbl_fill hw') fun _ _ => bl_ok _

theorem lbl_draw (l : Str) : LBl F l (parseDrawLine l) := by
  unfold parseDrawLine
  refine bl_ite (fun h => ?_) fun _ => bl_ite (fun h => ?_) fun _ => bl_ok _
  · exact bl_bind (lbl_pin (List.isPrefixOf_iff_prefix.1 h)) fun _ _ => bl_ok _
  · exact bl_bind (lbl_rect (List.isPrefixOf_iff_prefix.1 h)) fun _ _ => bl_ok _

theorem lbl_def (l : Str) : LBl F l (parseDef l : Said (Symbol F)) := by
  have hv := words_quoted l
  show LBl F l (if _ then _ else _ : Said (Symbol F))
  generalize splitFinish (l.foldl (splitStep none) ⟨0, [], false, false, []⟩) = v at hv ⊢
  have hw : ∀ w ∈ v, WordOf l w := fun w h => ⟨v, .inl ⟨_, hv⟩, h⟩
  refine bl_ite (fun h => bl_err (.definition hv h)) fun hlen => ?_
  refine bl_idx hw fun w hw' => bl_bind (lbl (bl_assume hw')) fun _ _ => ?_
  refine bl_idx hw fun _ _ => bl_idx hw fun _ _ => ?_
  refine bl_idx hw fun w hw' => bl_bind (lbl (bl_f64 hw')) fun _ _ => ?_
  refine bl_idx hw fun w hw' => bl_bind (lbl (bl_boolString hw')) fun _ _ => ?_
  refine bl_idx hw fun w hw' => bl_bind (lbl (bl_boolString hw')) fun _ _ => ?_
  refine bl_idx hw fun w hw' => bl_bind (lbl (bl_i64 hw')) fun _ _ => ?_
  refine bl_idx hw fun w hw' => bl_bind (lbl (bl_boolString hw')) fun _ _ => ?_
  exact bl_idx hw fun w hw' => bl_bind (lbl (bl_boolString hw')) fun _ _ => bl_ok _

end

/-! ## The first line at fault -/

/-- After the lines `b` the reader succeeds with these lines, whatever follows. -/
def Done (f : List Str → Said (α × List Str)) (b r : List Str) : Prop := ∀ z, ∃ x, f (b ++ r ++ z) = .ok (x, z)

/-- After the lines `b` the reader can still succeed, whatever follows. -/
def Via (f : List Str → Said (α × List Str)) (b : List Str) : Prop := ∃ r, (∀ l ∈ r, '\n' ∉ l) ∧ Done f b r

/-- If the reader fails then because the file ends, or at the first line after which it must fail. -/
def Tr (F : Type) [Flt F] (f : List Str → Said (α × List Str)) : Prop :=
  ∀ p m, f p = .err m → (m = str! "end of file reached" ∧ Via f p) ∨
    ∃ b l a, p = b ++ l :: a ∧ LibBlames F l m ∧ (∀ a', f (b ++ l :: a') = .err m) ∧ Via f b

/-- Reading some lines first: what goes on after them fails in the same way. -/
theorem tr_prefix {f k : List Str → Said (α × List Str)} (c : List Str) (h : ∀ z, f (c ++ z) = k z) {p : List Str} {m : Str}
    (ht : (m = str! "end of file reached" ∧ Via k p) ∨
      ∃ b l a, p = b ++ l :: a ∧ LibBlames F l m ∧ (∀ a', k (b ++ l :: a') = .err m) ∧ Via k b) :
    (m = str! "end of file reached" ∧ Via f (c ++ p)) ∨
      ∃ b l a, c ++ p = b ++ l :: a ∧ LibBlames F l m ∧ (∀ a', f (b ++ l :: a') = .err m) ∧ Via f b := by
  have hv : ∀ b, Via k b → Via f (c ++ b) := by
    rintro b ⟨r, h0, h1⟩
    refine ⟨r, h0, fun z => ?_⟩
    obtain ⟨x, hx⟩ := h1 z
    exact ⟨x, by rw [List.append_assoc, List.append_assoc, h, ← List.append_assoc]; exact hx⟩
  rcases ht with ⟨hm, h1⟩ | ⟨b, l, a, rfl, h1, h2, h3⟩
  · exact .inl ⟨hm, hv _ h1⟩
  · exact .inr ⟨c ++ b, l, a, by rw [List.append_assoc], h1, fun a' => by rw [List.append_assoc, h]; exact h2 a', hv _ h3⟩

/-- A line that must be this one. -/
def ass (e : Str) (k : List Str → Said (α × List Str)) (p : List Str) : Said (α × List Str) := assumeLine e p >>= k

theorem ass_cons (e : Str) (k : List Str → Said (α × List Str)) (z : List Str) : ass e k (e :: z) = k z := by
  unfold ass assumeLine
  dsimp only
  rw [if_neg (by simp)]
  rfl

theorem done_ass {e : Str} {k : List Str → Said (α × List Str)} {r : List Str} (h : Done k [] r) : Done (ass e k) [] (e :: r) :=
  fun z => by
    obtain ⟨x, hx⟩ := h z
    exact ⟨x, by rw [List.nil_append, List.cons_append, ass_cons]; exact hx⟩

theorem tr_ass {e : Str} {k : List Str → Said (α × List Str)} (hk : Tr F k) (hv : Via (ass e k) [])
    (he0 : e ∈ fixedLines := by decide) : Tr F (ass e k) := by
  intro p m h
  cases p with
  | nil => cases h; exact .inl ⟨rfl, hv⟩
  | cons s p =>
    by_cases hs : s = e
    · subst hs
      rw [ass_cons] at h
      exact tr_prefix [s] (fun z => ass_cons s k z) (hk p m h)
    · have he : ∀ z, ass e k (s :: z) = .err (str! "expected '" ++ e ++ str! "', got '" ++ s ++ str! "'") := by
        intro z
        unfold ass assumeLine
        dsimp only
        rw [if_pos hs]; rfl
      rw [he] at h
      cases h
      exact .inr ⟨[], s, p, rfl, .common (.line he0 hs), he, hv⟩

/-- A line that is read. -/
def step (g : Str → Said α) (k : α → List Str → Said (β × List Str)) (p : List Str) : Said (β × List Str) :=
  here p >>= fun s => g s >>= fun a => k a (Sch.next p)

theorem tr_step {g : Str → Said α} {k : α → List Str → Said (β × List Str)} (hg : ∀ s, LBl F s (g s))
    (hv : Via (step g k) []) (hk : ∀ a, Tr F (k a)) : Tr F (step g k) := by
  intro p m h
  cases p with
  | nil => cases h
  | cons s rest =>
    have he : ∀ rest, step g k (s :: rest) = g s >>= fun a => k a rest := fun _ => rfl
    rw [he] at h
    rcases bind_eq_err.1 h with h | ⟨a, ha, h⟩
    · exact .inr ⟨[], s, rest, rfl, hg s m h, fun a' => by rw [List.nil_append, he, h]; rfl, hv⟩
    · exact tr_prefix [s] (fun z => by rw [show [s] ++ z = s :: z from rfl, he, ha]; rfl) (hk a rest m h)

/-- The last lines of a symbol. -/
def closing : List Str := [str! "DRAW", str! "ENDDRAW", str! "ENDDEF", str! "#"]

/-- The end of a symbol. -/
def parseEnd (x : α) : List Str → Said (α × List Str) := ass (str! "ENDDEF") (ass (str! "#") fun p => .ok (x, p))

theorem done_end (x : α) : Done (parseEnd x) [] [str! "ENDDEF", str! "#"] :=
  done_ass (done_ass (r := []) fun z => ⟨x, rfl⟩)

theorem tr_end (x : α) : Tr F (parseEnd x) :=
  tr_ass (tr_ass (fun p m h => by cases h) ⟨_, by decide, done_ass (r := []) fun z => ⟨x, rfl⟩⟩) ⟨_, by decide, done_end x⟩

/-- The drawings and the end. -/
def parseTail (f : List Draw → α) (acc : List Draw) (p : List Str) : Said (α × List Str) :=
  parseDraws acc p >>= fun r => parseEnd (f r.1) r.2

theorem parseTail_done (f : List Draw → α) (acc : List Draw) (z : List Str) :
    parseTail f acc (str! "ENDDRAW" :: z) = parseEnd (f acc) z := by
  unfold parseTail
  rw [parseDraws]
  rfl

theorem done_tail (f : List Draw → α) (acc : List Draw) : Done (parseTail f acc) [] [str! "ENDDRAW", str! "ENDDEF", str! "#"] :=
  fun z => by
    obtain ⟨x, hx⟩ := done_end (f acc) z
    exact ⟨x, by rw [← hx]; exact parseTail_done f acc _⟩

theorem tr_tail (f : List Draw → α) (p : List Str) : ∀ (acc : List Draw) (m : Str), parseTail f acc p = .err m →
    (m = str! "end of file reached" ∧ Via (parseTail f acc) p) ∨
    ∃ b l a, p = b ++ l :: a ∧ LibBlames F l m ∧ (∀ a', parseTail f acc (b ++ l :: a') = .err m) ∧ Via (parseTail f acc) b := by
  induction p with
  | nil =>
    intro acc m h
    have hm : m = str! "end of file reached" := by cases h; rfl
    exact .inl ⟨hm, _, by decide, done_tail f acc⟩
  | cons s p ih =>
    intro acc m h
    by_cases hs : s = str! "ENDDRAW"
    · subst hs
      rw [parseTail_done] at h
      exact tr_prefix [_] (fun z => parseTail_done f acc z) (tr_end _ p m h)
    · have he : ∀ z, parseTail f acc (s :: z) = parseDrawLine s >>= fun d => parseTail f (acc ++ [d]) z := by
        intro z
        unfold parseTail
        rw [parseDraws, if_neg hs, Said.bind_assoc]
      rw [he] at h
      rcases bind_eq_err.1 h with h | ⟨d, hd, h⟩
      · exact .inr ⟨[], s, p, rfl, lbl_draw s m h, fun a' => by rw [List.nil_append, he, h]; rfl, _, by decide, done_tail f acc⟩
      · exact tr_prefix [s] (fun z => by rw [show [s] ++ z = s :: z from rfl, he, hd]; rfl) (ih _ m h)

/-- From the line of other names on. -/
def parseNames (f : List Str → List Draw → α) (p : List Str) : Said (α × List Str) :=
  parseAliases p >>= fun r => ass (str! "DRAW") (parseTail (f r.1) []) r.2

theorem done_draw (f : List Draw → α) : Done (ass (str! "DRAW") (parseTail f [])) [] closing := done_ass (done_tail f [])

theorem tr_draw (f : List Draw → α) : Tr F (ass (str! "DRAW") (parseTail f [])) :=
  tr_ass (fun p m => tr_tail f p [] m) ⟨_, by decide, done_draw f⟩

theorem done_names (f : List Str → List Draw → α) : Done (parseNames f) [] closing := fun z => by
  obtain ⟨x, hx⟩ := done_draw (f []) z
  exact ⟨x, hx⟩

theorem tr_names (f : List Str → List Draw → α) : Tr F (parseNames f) := by
  intro p m h
  cases p with
  | nil => cases h
  | cons s p =>
    by_cases hs : startsWith s (str! "ALIAS") = true
    · have he : ∀ z, parseNames f (s :: z) = ass (str! "DRAW")
          (parseTail (f ((splitFinish (s.foldl (splitStep none) ⟨0, [], false, false, []⟩)).drop 1)) []) z := by
        intro z
        unfold parseNames parseAliases
        rw [show here (s :: z) = .ok s from rfl, bind_ok, if_pos hs]
        rfl
      rw [he] at h
      exact tr_prefix [s] (fun z => he z) (tr_draw _ p m h)
    · have he : ∀ z, parseNames f (s :: z) = ass (str! "DRAW") (parseTail (f []) []) (s :: z) := by
        intro z
        unfold parseNames parseAliases
        rw [show here (s :: z) = .ok s from rfl, bind_ok, if_neg hs]
        rfl
      rw [he] at h
      rcases tr_draw (F := F) (f []) (s :: p) m h with ⟨hm, r, h0, h1⟩ | ⟨b, l, a, hp, h1, h2, r, h0, h3⟩
      · refine .inl ⟨hm, r, h0, fun z => ?_⟩
        obtain ⟨x, hx⟩ := h1 z
        exact ⟨x, by rw [List.cons_append, List.cons_append, he]; exact hx⟩
      · cases b with
        | nil =>
          obtain ⟨rfl, rfl⟩ := List.cons.inj hp
          exact .inr ⟨[], s, p, rfl, h1, fun a' => by rw [List.nil_append, he]; exact h2 a', _, by decide, done_names f⟩
        | cons c b =>
          obtain ⟨rfl, rfl⟩ := List.cons.inj hp
          refine .inr ⟨s :: b, l, a, rfl, h1, fun a' => by rw [List.cons_append, he]; exact h2 a', r, h0, fun z => ?_⟩
          obtain ⟨x, hx⟩ := h3 z
          exact ⟨x, by rw [List.cons_append, List.cons_append, he]; exact hx⟩

theorem skipFplist_split (p : List Str) : skipFplist p = [] ∧ str! "$ENDFPLIST" ∉ p ∨
    ∃ c, p = c ++ skipFplist p ∧ ∀ z, skipFplist (c ++ z) = z := by
  induction p with
  | nil => exact .inl ⟨rfl, by simp⟩
  | cons s p ih =>
    by_cases hs : s = str! "$ENDFPLIST"
    · subst hs
      exact .inr ⟨[str! "$ENDFPLIST"], rfl, fun z => rfl⟩
    · have he : ∀ z, skipFplist (s :: z) = skipFplist z := fun z => by rw [skipFplist, if_neg hs]
      rcases ih with ⟨h1, h2⟩ | ⟨c, h1, h2⟩
      · exact .inl ⟨by rw [he, h1], by simp [h2]; exact fun e => hs e.symm⟩
      · exact .inr ⟨s :: c, by rw [he, List.cons_append, ← h1], fun z => by rw [List.cons_append, he, h2]⟩

/-- From the list of footprints on. -/
def parseRest (f : List Str → List Draw → α) (p : List Str) : Said (α × List Str) :=
  here p >>= fun h => parseNames f (if h = str! "$FPLIST" then skipFplist (Sch.next p) else p)

theorem done_rest (f : List Str → List Draw → α) : Done (parseRest f) [] closing := fun z => by
  obtain ⟨x, hx⟩ := done_names f z
  exact ⟨x, hx⟩

theorem tr_rest (f : List Str → List Draw → α) : Tr F (parseRest f) := by
  intro p m h
  cases p with
  | nil => cases h
  | cons s p =>
    by_cases hs : s = str! "$FPLIST"
    · subst hs
      have he : ∀ z, parseRest f (str! "$FPLIST" :: z) = parseNames f (skipFplist z) := fun z => rfl
      rw [he] at h
      rcases skipFplist_split p with ⟨h1, _⟩ | ⟨c, h1, h2⟩
      · rw [h1] at h; cases h
      · have := tr_prefix (f := parseRest f) (str! "$FPLIST" :: c) (fun z => by rw [List.cons_append, he, h2])
          (tr_names (F := F) f _ m h)
        rw [List.cons_append, ← h1] at this
        exact this
    · have he : ∀ z, parseRest f (s :: z) = parseNames f (s :: z) := by
        intro z
        unfold parseRest
        rw [show here (s :: z) = .ok s from rfl, bind_ok, if_neg hs]
      rw [he] at h
      rcases tr_names (F := F) f (s :: p) m h with ⟨hm, r, h0, h1⟩ | ⟨b, l, a, hp, h1, h2, r, h0, h3⟩
      · refine .inl ⟨hm, r, h0, fun z => ?_⟩
        obtain ⟨x, hx⟩ := h1 z
        exact ⟨x, by rw [List.cons_append, List.cons_append, he]; exact hx⟩
      · cases b with
        | nil =>
          obtain ⟨rfl, rfl⟩ := List.cons.inj hp
          exact .inr ⟨[], s, p, rfl, h1, fun a' => by rw [List.nil_append, he]; exact h2 a', _, by decide, done_rest f⟩
        | cons c b =>
          obtain ⟨rfl, rfl⟩ := List.cons.inj hp
          refine .inr ⟨s :: b, l, a, rfl, h1, fun a' => by rw [List.cons_append, he]; exact h2 a', r, h0, fun z => ?_⟩
          obtain ⟨x, hx⟩ := h3 z
          exact ⟨x, by rw [List.cons_append, List.cons_append, he]; exact hx⟩

/-- From the fields on. -/
def parseBody (f : List (Field F) → List Str → List Draw → α) (acc : List (Field F)) (p : List Str) : Said (α × List Str) :=
  parseFields acc p >>= fun r => parseRest (f r.1) r.2

theorem done_body (f : List (Field F) → List Str → List Draw → α) (acc : List (Field F)) : Done (parseBody f acc) [] closing :=
  fun z => by
    obtain ⟨x, hx⟩ := done_rest (f acc) z
    refine ⟨x, ?_⟩
    rw [← hx]
    unfold parseBody
    rw [List.nil_append, closing, List.cons_append, parseFields]
    rfl

theorem tr_body (f : List (Field F) → List Str → List Draw → α) (p : List Str) : ∀ (acc : List (Field F)) (m : Str),
    parseBody f acc p = .err m → (m = str! "end of file reached" ∧ Via (parseBody f acc) p) ∨
    ∃ b l a, p = b ++ l :: a ∧ LibBlames F l m ∧ (∀ a', parseBody f acc (b ++ l :: a') = .err m) ∧ Via (parseBody f acc) b := by
  induction p with
  | nil => intro acc m h; cases h
  | cons s p ih =>
    intro acc m h
    cases s with
    | nil =>
      unfold parseBody at h
      rw [parseFields] at h
      cases h
    | cons c s =>
      by_cases hc : c = 'F'
      · subst hc
        have he : ∀ z, parseBody f acc (('F' :: s) :: z) = parseField ('F' :: s) >>= fun d => parseBody f (acc ++ [d]) z := by
          intro z
          unfold parseBody
          rw [parseFields, show charAt ('F' :: s) 0 = .ok 'F' from rfl, bind_ok, if_pos rfl, Said.bind_assoc]
        rw [he] at h
        rcases bind_eq_err.1 h with h | ⟨d, hd, h⟩
        · exact .inr ⟨[], _, p, rfl, lbl_field rfl m h, fun a' => by rw [List.nil_append, he, h]; rfl, _, by decide, done_body f acc⟩
        · exact tr_prefix [_] (fun z => by rw [show ∀ s : Str, [s] ++ z = s :: z from fun _ => rfl, he, hd]; rfl) (ih _ m h)
      · have he : ∀ z, parseBody f acc ((c :: s) :: z) = parseRest (f acc) ((c :: s) :: z) := by
          intro z
          unfold parseBody
          rw [parseFields, show charAt (c :: s) 0 = .ok c from rfl, bind_ok, if_neg hc]
          rfl
        rw [he] at h
        rcases tr_rest (F := F) (f acc) _ m h with ⟨hm, r, h0, h1⟩ | ⟨b, l, a, hp, h1, h2, r, h0, h3⟩
        · refine .inl ⟨hm, r, h0, fun z => ?_⟩
          obtain ⟨x, hx⟩ := h1 z
          exact ⟨x, by rw [List.cons_append, List.cons_append, he]; exact hx⟩
        · cases b with
          | nil =>
            obtain ⟨rfl, rfl⟩ := List.cons.inj hp
            exact .inr ⟨[], _, p, rfl, h1, fun a' => by rw [List.nil_append, he]; exact h2 a', _, by decide, done_body f acc⟩
          | cons d b =>
            obtain ⟨rfl, rfl⟩ := List.cons.inj hp
            refine .inr ⟨_ :: b, l, a, rfl, h1, fun a' => by rw [List.cons_append, he]; exact h2 a', r, h0, fun z => ?_⟩
            obtain ⟨x, hx⟩ := h3 z
            exact ⟨x, by rw [List.cons_append, List.cons_append, he]; exact hx⟩

/-- A definition that is accepted if there is a number. -/
def plain : Str := str! "DEF R R 0 0 N N 1 F N"

theorem def_ok (hz : ∃ x : F, Flt.ofStr (str! "0") = some x) : ∃ s : Symbol F, (parseDef plain : Said (Symbol F)) = .ok s := by
  obtain ⟨x, hx⟩ := hz
  refine ⟨{ (Symbol.new (str! "R") (str! "R") : Symbol F) with
    textOffset := x, drawPinnumber := false, drawPinname := false, unitCount := 1, unitLocked := false, isPower := false }, ?_⟩
  unfold parseDef
  rw [show Sch.Msg.splitQ plain = .ok [str! "DEF", str! "R", str! "R", str! "0", str! "0", str! "N", str! "N", str! "1", str! "F", str! "N"]
    by decide]
  rw [Said.bind_ok, if_neg (by decide)]
  simp only [idx, Sch.Msg.f64R, hx, Said.bind_ok, List.getElem?_cons_succ, List.getElem?_cons_zero]
  rfl

theorem noLf_plain : ∀ l ∈ plain :: closing, '\n' ∉ l := by decide

/-- From the definition on. -/
def parseWhole : List Str → Said (Symbol F × List Str) :=
  step parseDef fun s => parseBody (fun fields aliases draw => { s with fields, aliases, draw }) []

/-- A whole symbol. -/
theorem parseSymbol_eq (q : Str) (p : List Str) : (parseSymbol (q :: p) : Said (Symbol F × List Str)) =
    ass (str! "#") parseWhole p := by
  unfold parseSymbol ass parseWhole step parseBody parseRest parseNames ass parseTail parseEnd ass
  simp only [Said.bind_assoc]
  rfl

theorem done_def (hz : ∃ x : F, Flt.ofStr (str! "0") = some x) :
    Done (parseWhole : List Str → Said (Symbol F × List Str)) [] (plain :: closing) := fun z => by
  obtain ⟨s, hs⟩ := def_ok hz
  obtain ⟨x, hx⟩ := done_body (fun fields aliases draw => { s with fields, aliases, draw }) [] z
  refine ⟨x, ?_⟩
  rw [← hx]
  unfold parseWhole step
  rw [List.nil_append, List.cons_append, show here (plain :: (closing ++ z)) = .ok plain from rfl, Said.bind_ok, hs, Said.bind_ok]
  rfl

theorem tr_whole (hz : ∃ x : F, Flt.ofStr (str! "0") = some x) : Tr F (parseWhole : List Str → Said (Symbol F × List Str)) :=
  tr_step lbl_def ⟨_, noLf_plain, done_def hz⟩ fun _ p m => tr_body _ p [] m

theorem noLf_symbol : ∀ l ∈ str! "#" :: plain :: closing, '\n' ∉ l := by decide

theorem tr_symbol (hz : ∃ x : F, Flt.ofStr (str! "0") = some x) (p : List Str) (m : Str)
    (h : (parseSymbol p : Said (Symbol F × List Str)) = .err m) :
    (m = str! "end of file reached" ∧ Via (parseSymbol : List Str → Said (Symbol F × List Str)) p) ∨
    ∃ b l a, p = b ++ l :: a ∧ LibBlames F l m ∧ (∀ a', (parseSymbol (b ++ l :: a') : Said (Symbol F × List Str)) = .err m) ∧
      Via (parseSymbol : List Str → Said (Symbol F × List Str)) b ∧ b ≠ [] := by
  have hd := done_def (F := F) hz
  have ht := tr_ass (e := str! "#") (tr_whole (F := F) hz) ⟨_, noLf_symbol, done_ass hd⟩
  cases p with
  | nil =>
    have : (parseSymbol [] : Said (Symbol F × List Str)) = .err (str! "end of file reached") := rfl
    rw [this] at h
    cases h
    refine .inl ⟨rfl, [] :: str! "#" :: plain :: closing, by simpa using noLf_symbol, fun z => ?_⟩
    obtain ⟨x, hx⟩ := done_ass (e := str! "#") hd z
    refine ⟨x, ?_⟩
    rw [List.nil_append, List.cons_append, parseSymbol_eq]
    exact hx
  | cons q p =>
    rw [parseSymbol_eq] at h
    have := ht p m h
    rcases this with ⟨hm, r, h0, h1⟩ | ⟨b, l, a, rfl, h1, h2, r, h0, h3⟩
    · refine .inl ⟨hm, r, h0, fun z => ?_⟩
      obtain ⟨x, hx⟩ := h1 z
      exact ⟨x, by rw [List.cons_append, List.cons_append, parseSymbol_eq]; exact hx⟩
    · refine .inr ⟨q :: b, l, a, rfl, h1, fun a' => by rw [List.cons_append, parseSymbol_eq]; exact h2 a', ⟨r, h0, fun z => ?_⟩,
        by simp⟩
      obtain ⟨x, hx⟩ := h3 z
      exact ⟨x, by rw [List.cons_append, List.cons_append, parseSymbol_eq]; exact hx⟩

theorem symbol_prefix (p p' : List Str) (s : Symbol F) (h : parseSymbol p = .ok (s, p')) :
    ∃ c, p = c ++ p' ∧ c ≠ [] ∧ ∀ z, (parseSymbol (c ++ z) : Said (Symbol F × List Str)) = .ok (s, z) := by
  have h' : Lib.parseSymbol p = .ok (s, p') := by rw [← parseSymbol_forget, h]; rfl
  obtain ⟨c, hp, hc⟩ := (Lib.symbol_iff p p' s).1 h'
  have hz : ∀ z, (parseSymbol (c ++ z) : Said (Symbol F × List Str)) = .ok (s, z) := fun z => by
    rw [← forget_eq_ok, parseSymbol_forget]
    exact (Lib.symbol_iff _ _ s).2 ⟨c, rfl, hc⟩
  refine ⟨c, hp, ?_, hz⟩
  rintro rfl
  have := hz []
  cases this

theorem parseSymbols_more {n : Nat} {acc : List (Symbol F)} {p : List Str} (h0 : p ≠ [])
    (h1 : p.head? ≠ some (str! "#End Library")) :
    parseSymbols (n + 1) acc p = parseSymbol p >>= fun r => parseSymbols n (acc ++ [r.1]) r.2 := by
  cases p with
  | nil => exact absurd rfl h0
  | cons s p =>
    rw [parseSymbols, if_neg (by simpa using h1)]

theorem tr_symbols (hz : ∃ x : F, Flt.ofStr (str! "0") = some x) (n : Nat) : ∀ (acc : List (Symbol F)) (p : List Str) (m : Str),
    parseSymbols n acc p = .err m →
    (m = str! "end of file reached" ∧
      ∃ r, (∀ l ∈ r, '\n' ∉ l) ∧ ∀ n', (p ++ r).length ≤ n' → ∃ x, parseSymbols n' acc (p ++ r) = .ok x) ∨
    ∃ b l a, p = b ++ l :: a ∧ LibBlames F l m ∧
      (∀ a' n', (b ++ l :: a').length ≤ n' → parseSymbols n' acc (b ++ l :: a') = .err m) ∧
      ∃ r, (∀ l ∈ r, '\n' ∉ l) ∧ ∀ n', (b ++ r).length ≤ n' → ∃ x, parseSymbols n' acc (b ++ r) = .ok x := by
  induction n with
  | zero => intro acc p m h; cases p <;> cases h
  | succ n ih =>
    intro acc p m h
    have h0 : p ≠ [] := by rintro rfl; cases h
    have hE : p.head? ≠ some (str! "#End Library") := by
      intro e
      obtain ⟨q, rfl⟩ : ∃ q, p = str! "#End Library" :: q := by
        cases p with
        | nil => cases e
        | cons s p => exact ⟨p, by rw [List.head?_cons] at e; cases e; rfl⟩
      rw [parseSymbols, if_pos rfl] at h
      cases h
    have hhead : ∀ b c : List Str, b ≠ [] → b <+: p → (b ++ c).head? ≠ some (str! "#End Library") := by
      rintro b c hb ⟨q, rfl⟩
      cases b with
      | nil => exact absurd rfl hb
      | cons s b => simpa using hE
    have hgood : ∀ b, b ≠ [] → b <+: p → Via (parseSymbol : List Str → Said (Symbol F × List Str)) b →
        ∃ r, (∀ l ∈ r, '\n' ∉ l) ∧ ∀ n', (b ++ r).length ≤ n' → ∃ x, parseSymbols n' acc (b ++ r) = .ok x := by
      rintro b hb hbp ⟨r, hrn, h3⟩
      refine ⟨r, hrn, fun n' hn => ?_⟩
      obtain ⟨x, h4⟩ := h3 []
      rw [List.append_nil] at h4
      cases n' with
      | zero => exact absurd (List.append_eq_nil_iff.1 (List.eq_nil_of_length_eq_zero (Nat.le_zero.1 hn))).1 hb
      | succ n' =>
        refine ⟨acc ++ [x], ?_⟩
        rw [parseSymbols_more (by simp [hb]) (hhead b r hb hbp), h4]
        cases n' <;> rfl
    rw [parseSymbols_more h0 hE] at h
    rcases bind_eq_err.1 h with h | ⟨⟨s, q⟩, hq, hk⟩
    · rcases tr_symbol hz p m h with ⟨hm, h1⟩ | ⟨b, l, a, rfl, h1, h2, h3, hb⟩
      · exact .inl ⟨hm, hgood p h0 (List.prefix_refl _) h1⟩
      · refine .inr ⟨b, l, a, rfl, h1, fun a' n' hn => ?_, hgood b hb (List.prefix_append _ _) h3⟩
        cases n' with
        | zero => simp at hn
        | succ n' =>
          rw [parseSymbols_more (by simp) (hhead b _ hb (List.prefix_append _ _)), h2]; rfl
    · obtain ⟨c, rfl, hc0, hc⟩ := symbol_prefix p q s hq
      have hcp : c <+: c ++ q := List.prefix_append _ _
      have hlen : 1 ≤ c.length := List.length_pos_iff.2 hc0
      have hgo : ∀ z n', (c ++ z).length ≤ n' → ∃ k, z.length ≤ k ∧
          parseSymbols n' acc (c ++ z) = parseSymbols k (acc ++ [s]) z := by
        intro z n' hn
        rw [List.length_append] at hn
        cases n' with
        | zero => omega
        | succ n' =>
          refine ⟨n', by omega, ?_⟩
          rw [parseSymbols_more (by simp [hc0]) (hhead c z hc0 hcp), hc]
          rfl
      rcases ih _ q m hk with ⟨hm, r, hr, h3⟩ | ⟨b, l, a, rfl, h1, h2, r, hr, h3⟩
      · refine .inl ⟨hm, r, hr, fun n' hn => ?_⟩
        rw [List.append_assoc] at hn ⊢
        obtain ⟨k, hk, e⟩ := hgo _ n' hn
        rw [e]; exact h3 k hk
      · refine .inr ⟨c ++ b, l, a, by rw [List.append_assoc], h1, fun a' n' hn => ?_, r, hr, fun n' hn => ?_⟩
        · rw [List.append_assoc] at hn ⊢
          obtain ⟨k, hk, e⟩ := hgo _ n' hn
          rw [e]; exact h2 a' k hk
        · rw [List.append_assoc] at hn ⊢
          obtain ⟨k, hk, e⟩ := hgo _ n' hn
          rw [e]; exact h3 k hk

end Verif.Lib.Msg
