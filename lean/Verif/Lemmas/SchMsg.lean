import Verif.Model.SchematicMsg
import Verif.Spec.Blame
import Verif.Lemmas.SchGrammar
import Verif.Props.C74
/-!
# Lemmas about the messages of the schematic reader
-/

set_option linter.unusedSectionVars false

namespace Verif.Said
open Verif

variable {α β γ : Type}

@[simp] theorem bind_ok (a : α) (f : α → Said β) : (Said.ok a >>= f) = f a := rfl
@[simp] theorem bind_err (m : Str) (f : α → Said β) : (Said.err m >>= f) = .err m := rfl
@[simp] theorem bind_panic (f : α → Said β) : (Said.panic >>= f) = .panic := rfl
@[simp] theorem bind_diverge (f : α → Said β) : (Said.diverge >>= f) = .diverge := rfl

theorem bind_assoc (x : Said α) (f : α → Said β) (g : β → Said γ) : ((x >>= f) >>= g) = x >>= fun a => f a >>= g := by
  cases x <;> rfl

@[simp] theorem forget_ok (a : α) : (Said.ok a).forget = .ok a := rfl
@[simp] theorem forget_err (m : Str) : (Said.err m : Said α).forget = .err .other := rfl
@[simp] theorem forget_panic : (Said.panic : Said α).forget = .panic := rfl
@[simp] theorem forget_diverge : (Said.diverge : Said α).forget = .diverge := rfl

@[simp] theorem forget_bind (x : Said α) (f : α → Said β) : (x >>= f).forget = x.forget >>= fun a => (f a).forget := by
  cases x <;> rfl

@[simp] theorem forget_ite (c : Prop) [Decidable c] (x y : Said α) :
    (if c then x else y).forget = if c then x.forget else y.forget := apply_ite _ _ _ _

theorem forget_eq_ok {x : Said α} {a : α} : x.forget = .ok a ↔ x = .ok a := by
  cases x <;> simp [forget]

theorem bind_eq_ok {x : Said α} {f : α → Said β} {b : β} : (x >>= f) = .ok b ↔ ∃ a, x = .ok a ∧ f a = .ok b := by
  cases x <;> simp

theorem bind_eq_err {x : Said α} {f : α → Said β} {m : Str} :
    (x >>= f) = .err m ↔ x = .err m ∨ ∃ a, x = .ok a ∧ f a = .err m := by
  cases x <;> simp

end Verif.Said

namespace Verif.Sch.Msg
open Verif Spec Said

variable {F : Type} [Flt F]

/-! ## Without the messages it is the reader -/

@[simp] theorem splitN_forget (n : Nat) (s : Str) : (splitN n s).forget = Verif.splitN n s := by
  simp only [splitN, Verif.splitN, splitInt, forget_ite, forget_ok, forget_err]

@[simp] theorem splitQ_forget (s : Str) : (splitQ s).forget = Verif.splitQ s := rfl

@[simp] theorem here_forget (p : List Str) : (here p).forget = Sch.here p := by cases p <;> rfl

@[simp] theorem assumeLine_forget (e : Str) (p : List Str) : (assumeLine e p).forget = Sch.assumeLine e p := by
  cases p <;> simp only [assumeLine, Sch.assumeLine, forget_ite, forget_ok, forget_err]

@[simp] theorem charAt_forget (s : Str) (n : Nat) : (charAt s n).forget = Sch.charAt s n := by
  unfold charAt Sch.charAt; cases s[n]? <;> rfl

@[simp] theorem i64R_forget (l s : Str) : (i64R l s).forget = Sch.i64R s := by
  unfold i64R Sch.i64R; cases i64FromStr s <;> rfl

@[simp] theorem f64R_forget (l s : Str) : (f64R l s : Said F).forget = Sch.f64R s := by
  unfold f64R Sch.f64R; cases (Flt.ofStr s : Option F) <;> rfl

@[simp] theorem boolFromString_forget (s t f : Str) : (boolFromString s t f).forget = Sch.boolFrom s t f := by
  simp only [boolFromString, Sch.boolFrom, forget_ite, forget_ok, forget_err]

@[simp] theorem boolFrom_forget (s t f : Char) : (boolFrom s t f).forget = Sch.boolFrom s t f := by
  simp only [boolFrom, Sch.boolFrom, forget_ite, forget_ok, forget_err]

@[simp] theorem assumeString_forget (e s : Str) : (assumeString e s).forget = Sch.assumeString e s := by
  simp only [assumeString, Sch.assumeString, forget_ite, forget_ok, forget_err]

@[simp] theorem idx_forget (v : List Str) (n : Nat) : (idx v n).forget = Sch.idx v n := by
  unfold idx Sch.idx; cases v[n]? <;> rfl

@[simp] theorem orientation_forget (c : Char) : (orientation c).forget = Orientation.new c := by
  simp only [orientation, Orientation.new, forget_ite, forget_ok, forget_err]

@[simp] theorem justify_forget (c : Char) : (justify c).forget = Justify.new c := by
  simp only [justify, Justify.new, forget_ite, forget_ok, forget_err]

@[simp] theorem field_forget (l : Str) (v : List Str) : (field l v : Said (Field F)).forget = Field.new v := by
  unfold field Field.new
  simp only [forget_ite, forget_bind, forget_ok, forget_err, i64R_forget, f64R_forget, idx_forget, charAt_forget,
    orientation_forget, justify_forget, boolFrom_forget, boolFromString_forget]

@[simp] theorem wordAndQstring_forget (n s : Str) : (wordAndQstring n s).forget = Sch.wordAndQstring n s := by
  unfold wordAndQstring Sch.wordAndQstring
  simp only [forget_bind, splitN_forget, idx_forget, assumeString_forget]

theorem parseDescription_forget (p : List Str) : (parseDescription p).forget = Sch.parseDescription p := by
  unfold parseDescription Sch.parseDescription
  simp only [forget_ite, forget_bind, forget_ok, forget_err, i64R_forget, idx_forget, here_forget, splitN_forget,
    wordAndQstring_forget, assumeString_forget]

theorem parseComponentL_forget (s : Str) (d : Component F) : (parseComponentL s d).forget = Sch.parseComponentL s d := by
  unfold parseComponentL Sch.parseComponentL
  simp only [forget_bind, forget_ok, idx_forget, splitN_forget]

theorem parseComponentP_forget (s : Str) (d : Component F) : (parseComponentP s d).forget = Sch.parseComponentP s d := by
  unfold parseComponentP Sch.parseComponentP
  simp only [forget_bind, forget_ok, idx_forget, splitN_forget, i64R_forget]

theorem parseComponentF_forget (s : Str) (d : Component F) : (parseComponentF s d).forget = Sch.parseComponentF s d := by
  unfold parseComponentF Sch.parseComponentF
  simp only [forget_bind, forget_ok, splitQ_forget, field_forget]

theorem parseRotation_forget (s : Str) : (parseRotation s).forget = Sch.parseRotation s := by
  unfold parseRotation Sch.parseRotation
  simp only [forget_ite, forget_bind, forget_ok, forget_err, idx_forget, i64R_forget]

theorem parseSheetS_forget (s : Str) (d : Sheet) : (parseSheetS s d).forget = Sch.parseSheetS s d := by
  unfold parseSheetS Sch.parseSheetS
  simp only [forget_bind, forget_ok, idx_forget, splitN_forget, i64R_forget]

theorem parseSheetU_forget (s : Str) (d : Sheet) : (parseSheetU s d).forget = Sch.parseSheetU s d := by
  unfold parseSheetU Sch.parseSheetU
  simp only [forget_bind, forget_ok, idx_forget, splitN_forget]

@[simp] theorem parseLabelForm_forget (s : Str) : (parseLabelForm s).forget = Sch.parseLabelForm s := by
  simp only [parseLabelForm, Sch.parseLabelForm, forget_ite, forget_ok, forget_err]

@[simp] theorem parseLabelSide_forget (s : Str) : (parseLabelSide s).forget = Sch.parseLabelSide s := by
  simp only [parseLabelSide, Sch.parseLabelSide, forget_ite, forget_ok, forget_err]

theorem parseSheetLabel_forget (s : Str) : (parseSheetLabel s).forget = Sch.parseSheetLabel s := by
  unfold parseSheetLabel Sch.parseSheetLabel
  simp only [forget_bind, forget_ok, idx_forget, splitN_forget, i64R_forget, parseLabelForm_forget, parseLabelSide_forget]

theorem parseSheetF_forget (l : Str) (s : Sheet) (f : Str) : (parseSheetF l s f).forget = Sch.parseSheetF l s f := by
  unfold parseSheetF Sch.parseSheetF
  simp only [forget_ite, forget_bind, forget_ok, idx_forget, splitN_forget, i64R_forget, parseSheetLabel_forget]

theorem parseWire_forget (p : List Str) : (parseWire p).forget = Sch.parseWire p := by
  unfold parseWire Sch.parseWire
  simp only [forget_ite, forget_bind, forget_ok, forget_err, idx_forget, here_forget, i64R_forget]

theorem parsePos_forget (s : Str) : (parsePos s).forget = Sch.parsePos s := by
  unfold parsePos Sch.parsePos
  simp only [forget_ite, forget_bind, forget_ok, forget_err, idx_forget, i64R_forget]

@[simp] theorem parseTextType_forget (l s : Str) : (parseTextType l s).forget = Sch.parseTextType s := by
  simp only [parseTextType, Sch.parseTextType, forget_ite, forget_ok, forget_err]

theorem parseText_forget (p : List Str) : (parseText p).forget = Sch.parseText p := by
  unfold parseText Sch.parseText
  simp only [forget_ite, forget_bind, forget_ok, forget_err, idx_forget, here_forget, i64R_forget, parseTextType_forget]

theorem parseComponentLoop_forget : ∀ (n : Nat) (p : List Str) (d : Component F), p.length ≤ n →
    (parseComponentLoop d p).forget = Sch.parseComponentLoop d p := by
  intro n
  induction n with
  | zero =>
    intro p d hn
    cases p with
    | nil => rw [parseComponentLoop.eq_def, Sch.parseComponentLoop.eq_def]; rfl
    | cons => simp at hn
  | succ n ih =>
    intro p d hn
    cases p with
    | nil => rw [parseComponentLoop.eq_def, Sch.parseComponentLoop.eq_def]; rfl
    | cons s rest =>
      have ih' : ∀ d : Component F, (parseComponentLoop d rest).forget = Sch.parseComponentLoop d rest :=
        fun d => ih rest d (by simpa using hn)
      rw [parseComponentLoop.eq_def, Sch.parseComponentLoop.eq_def]
      dsimp only
      simp only [forget_ite, forget_bind, forget_ok, parseComponentL_forget, parseComponentP_forget, parseComponentF_forget, ih']
      cases rest with
      | nil => rfl
      | cons s2 rest2 =>
        have ih2 : ∀ d : Component F, (parseComponentLoop d rest2).forget = Sch.parseComponentLoop d rest2 :=
          fun d => ih rest2 d (by simp at hn; omega)
        dsimp only
        simp only [forget_bind, parseRotation_forget, ih2]

theorem parseSheetLoop_forget (p : List Str) : ∀ s : Sheet, (parseSheetLoop s p).forget = Sch.parseSheetLoop s p := by
  induction p with
  | nil => intro s; rfl
  | cons l p ih =>
    intro s
    rw [parseSheetLoop, Sch.parseSheetLoop]
    cases firstWord l with
    | none => simp only [forget_ite, forget_ok, ih]
    | some w => simp only [forget_ite, forget_bind, forget_ok, ih, parseSheetS_forget, parseSheetU_forget, parseSheetF_forget]

theorem parseItem_forget (sch : Schematic F) (p : List Str) : (parseItem sch p).forget = Sch.parseItem sch p := by
  unfold parseItem Sch.parseItem
  rw [forget_bind, here_forget]
  congr 1; funext s
  cases firstWord s with
  | none => rfl
  | some w =>
    simp only [forget_ite, forget_bind, forget_ok, parseDescription_forget, parseWire_forget, parsePos_forget, parseText_forget,
      parseComponent, parseSheet, Sch.parseComponent, Sch.parseSheet, parseSheetLoop_forget,
      parseComponentLoop_forget _ _ _ (Nat.le_refl _)]

theorem parseItems_forget (n : Nat) : ∀ (sch : Schematic F) (p : List Str),
    (parseItems n sch p).forget = Sch.parseItems n sch p := by
  induction n with
  | zero => intro sch p; cases p <;> rfl
  | succ n ih =>
    intro sch p
    cases p with
    | nil => rfl
    | cons s p =>
      rw [parseItems, Sch.parseItems, forget_bind, parseItem_forget]
      · congr 1; funext r; exact ih _ _
      all_goals simp

theorem parseLines_forget (fn : Option Str) (v : List Str) :
    (parseLines fn v : Said (Schematic F)).forget = Sch.parseLines fn v := by
  unfold parseLines Sch.parseLines
  simp only [forget_ite, forget_bind, forget_err, assumeLine_forget, here_forget, parseItems_forget]

/-! ## Each message is about the line it was made for -/

section
variable {α β : Type}

/-- If it fails, its message is one of these. -/
def Only (P : Str → Prop) (x : Said α) : Prop := ∀ m, x = .err m → P m

/-- If it fails, the message is true of the line. -/
abbrev Bl (F : Type) [Flt F] (l : Str) (x : Said α) : Prop := Only (Blames F l) x

variable {l : Str} {P Q : Str → Prop}

theorem bl_ok (a : α) : Only P (.ok a) := fun m h => by cases h

theorem bl_panic : Only P (.panic : Said α) := fun m h => by cases h

theorem bl_err {m : Str} (h : P m) : Only P (.err m : Said α) := fun m' h' => by cases h'; exact h

theorem Only.mono {x : Said α} (h : Only P x) (hpq : ∀ m, P m → Q m) : Only Q x := fun m hm => hpq m (h m hm)

theorem bl_bind {x : Said α} {f : α → Said β} (hx : Only P x) (hf : ∀ a, x = .ok a → Only P (f a)) : Only P (x >>= f) := by
  intro m h
  rcases bind_eq_err.1 h with h | ⟨a, ha, h⟩
  · exact hx m h
  · exact hf a ha m h

theorem bl_ite {c : Prop} [Decidable c] {x y : Said α} (hx : c → Only P x) (hy : ¬ c → Only P y) :
    Only P (if c then x else y) := by
  split
  · exact hx ‹_›
  · exact hy ‹_›

theorem idx_mem {v : List Str} {n : Nat} {w : Str} (h : idx v n = .ok w) : w ∈ v := by
  unfold idx at h
  split at h
  · cases h; exact List.mem_of_getElem? ‹_›
  · cases h

theorem bl_idx {v : List Str} {n : Nat} {f : Str → Said β} (hv : ∀ w ∈ v, WordOf l w)
    (h : ∀ w, WordOf l w → Only P (f w)) : Only P (idx v n >>= f) := by
  refine bl_bind ?_ fun w hw => h w (hv w (idx_mem hw))
  unfold idx
  split
  · exact bl_ok _
  · exact bl_panic

theorem bl_i64 {w : Str} (hw : WordOf l w) : Bl F l (i64R l w) := by
  unfold i64R
  cases h : i64FromStr w with
  | some i => exact bl_ok _
  | none =>
    refine bl_err (.int hw fun i hi => ?_)
    rw [(i64FromStr_iff w i).2 hi] at h
    cases h

theorem bl_f64 {w : Str} (hw : WordOf l w) : Bl F l (f64R l w : Said F) := by
  unfold f64R
  cases h : (Flt.ofStr w : Option F) with
  | some i => exact bl_ok _
  | none =>
    refine bl_err (.float hw fun x hx => ?_)
    unfold FloatWord at hx
    rw [h] at hx
    cases hx

theorem bl_split {n : Nat} {f : List Str → Said β} (h : ∀ v, (∀ w ∈ v, WordOf l w) → Bl F l (f v)) :
    Bl F l (splitN n l >>= f) := by
  have hs : ∃ ws, Cut (some n) l ws ∧
      splitN n l = if ws.length < n then .err (str! "expecting " ++ showNat n ++ str! " elements in " ++ l) else .ok ws := by
    obtain ⟨ws, hc⟩ := Split.cut_total l.length (some n) l (Nat.le_refl _)
    have : splitFinish (l.foldl (splitStep (some n)) ⟨0, [], false, false, []⟩) = ws := by
      simpa using Split.cut_run hc 0 []
    exact ⟨ws, hc, by unfold splitN; rw [this]⟩
  obtain ⟨ws, hc, hs⟩ := hs
  rw [hs]
  split
  · exact bl_err (.few hc ‹_›)
  · exact h ws fun w hw => ⟨ws, .inl ⟨_, hc⟩, hw⟩

theorem words_of (l : Str) : ∀ w ∈ splitWs l, WordOf l w :=
  fun _ h => ⟨_, .inr ((splitWs_iff l _).1 rfl), h⟩

theorem bl_assume {e w : Str} (hw : WordOf l w) (he : e ∈ fixedWords := by decide) : Bl F l (assumeString e w) := by
  unfold assumeString
  exact bl_ite (fun h => bl_err (.word he hw fun e => h e.symm)) (fun _ => bl_ok _)

theorem bl_entry (name : Str) (he : name ∈ fixedWords := by decide) : Bl F l (wordAndQstring name l) := by
  unfold wordAndQstring
  refine bl_split fun v hv => bl_idx hv fun w hw => bl_bind (bl_assume hw he) fun _ _ => ?_
  unfold idx
  split
  · exact bl_ok _
  · exact bl_panic

theorem charAt_mem {s : Str} {n : Nat} {c : Char} (h : charAt s n = .ok c) : c ∈ s := by
  unfold charAt at h
  split at h
  · cases h; exact List.mem_of_getElem? ‹_›
  · cases h

theorem bl_charAt {s : Str} {n : Nat} {f : Char → Said β} (h : ∀ c, c ∈ s → Only P (f c)) : Only P (charAt s n >>= f) := by
  refine bl_bind ?_ fun c hc => h c (charAt_mem hc)
  unfold charAt
  split
  · exact bl_ok _
  · exact bl_panic

theorem bl_charAt0 {s : Str} {f : Char → Said β} (h : ∀ c r, s = c :: r → Only P (f c)) : Only P (charAt s 0 >>= f) := by
  cases s with
  | nil => exact bl_panic
  | cons c r => exact h c r rfl

theorem bl_orientation {c : Char} {r : Str} (h : WordOf l (c :: r)) : Bl F l (orientation c) := by
  unfold orientation
  refine bl_ite (fun _ => bl_ok _) fun h1 => bl_ite (fun _ => bl_ok _) fun h2 => bl_err (.direction h ?_)
  intro o ho
  simp [directions, h1, h2] at ho

theorem bl_justify {c : Char} {r : Str} (h : WordOf l (c :: r)) : Bl F l (justify c) := by
  unfold justify
  refine bl_ite (fun _ => bl_ok _) fun h1 => bl_ite (fun _ => bl_ok _) fun h2 => bl_ite (fun _ => bl_ok _) fun h3 =>
    bl_ite (fun _ => bl_ok _) fun h4 => bl_ite (fun _ => bl_ok _) fun h5 => bl_err (.alignment h ?_)
  intro o ho
  simp [alignments, h1, h2, h3, h4, h5] at ho

theorem bl_boolString {w t f : Str} (h : WordOf l w) (ht : (t, f) ∈ yesNo := by decide) : Bl F l (boolFromString w t f) := by
  unfold boolFromString
  exact bl_ite (fun _ => bl_ok _) fun h1 => bl_ite (fun _ => bl_ok _) fun h2 => bl_err (.choice ht h h1 h2)

theorem bl_bool {w : Str} {c t f : Char} (h : WordOf l w) (hc : c ∈ w) (ht : (t, f) ∈ yesNoLetters := by decide) : Bl F l (boolFrom c t f) := by
  unfold boolFrom
  exact bl_ite (fun _ => bl_ok _) fun h1 => bl_ite (fun _ => bl_ok _) fun h2 => bl_err (.character ht h hc h1 h2)

theorem bl_labelForm {w : Str} (h : WordOf l w) : Bl F l (parseLabelForm w) := by
  unfold parseLabelForm
  refine bl_ite (fun _ => bl_ok _) fun h1 => bl_ite (fun _ => bl_ok _) fun h2 => bl_ite (fun _ => bl_ok _) fun h3 =>
    bl_ite (fun _ => bl_ok _) fun h4 => bl_ite (fun _ => bl_ok _) fun h5 => bl_err (.form h ?_)
  intro o ho
  simp [labelForms, h1, h2, h3, h4, h5] at ho

theorem bl_labelSide {w : Str} (h : WordOf l w) : Bl F l (parseLabelSide w) := by
  unfold parseLabelSide
  refine bl_ite (fun _ => bl_ok _) fun h1 => bl_ite (fun _ => bl_ok _) fun h2 => bl_ite (fun _ => bl_ok _) fun h3 =>
    bl_ite (fun _ => bl_ok _) fun h4 => bl_err (.side h ?_)
  intro o ho
  simp [labelSides, h1, h2, h3, h4] at ho

theorem bl_textType {w : Str} (h : WordOf l w) : Bl F l (parseTextType l w) := by
  unfold parseTextType
  refine bl_ite (fun _ => bl_ok _) fun h1 => bl_ite (fun _ => bl_ok _) fun h2 => bl_ite (fun _ => bl_ok _) fun h3 =>
    bl_ite (fun _ => bl_ok _) fun h4 => bl_err (.textKind h ?_)
  intro o ho
  simp [textKinds, h1, h2, h3, h4] at ho

end

theorem bl_field (l : Str) : Bl F l (splitQ l >>= fun v => (field l v : Said (Field F))) := by
  have hv : HasWords l (splitFinish (l.foldl (splitStep none) ⟨0, [], false, false, []⟩)) :=
    (C74_split l _).1 rfl
  show Bl F l (field l (splitFinish (l.foldl (splitStep none) ⟨0, [], false, false, []⟩)))
  generalize splitFinish (l.foldl (splitStep none) ⟨0, [], false, false, []⟩) = v at hv
  have hw : ∀ w ∈ v, WordOf l w := fun w h => ⟨v, .inl ⟨_, hv⟩, h⟩
  unfold field
  refine bl_ite (fun h => bl_err (.parts hv h.1 h.2)) fun hlen => ?_
  refine bl_bind ?_ fun n hn => ?_
  · unfold idx; split
    · exact bl_ok _
    · exact bl_panic
  refine bl_bind (bl_i64 (hw n (idx_mem hn))) fun i hi => ?_
  lift_lets
  intro jp
  have hj : ∀ a, Bl F l (jp a) := ?_
  rotate_left
  · intro name
    refine bl_idx hw fun _ _ => bl_idx hw fun w3 h3 => bl_charAt0 fun c r hc => ?_
    refine bl_bind (bl_orientation (r := r) (hc ▸ h3)) fun _ _ => ?_
    refine bl_idx hw fun w hw' => bl_bind (bl_f64 hw') fun _ _ => ?_
    refine bl_idx hw fun w hw' => bl_bind (bl_f64 hw') fun _ _ => ?_
    refine bl_idx hw fun w hw' => bl_bind (bl_i64 hw') fun _ _ => ?_
    refine bl_idx hw fun w hw' => bl_bind (bl_boolString hw') fun _ _ => ?_
    refine bl_idx hw fun w3 h3 => bl_charAt0 fun c r hc => bl_bind (bl_justify (r := r) (hc ▸ h3)) fun _ _ => ?_
    refine bl_idx hw fun w3 h3 => bl_charAt0 fun c r hc => bl_bind (bl_justify (r := r) (hc ▸ h3)) fun _ _ => ?_
    refine bl_idx hw fun w3 h3 => bl_charAt fun c hc => bl_bind (bl_bool h3 hc) fun _ _ => ?_
    refine bl_idx hw fun w3 h3 => bl_charAt fun c hc => bl_bind (bl_bool h3 hc) fun _ _ => ?_
    exact bl_ok _
  clear_value jp
  refine bl_ite (fun _ => bl_idx hw fun _ _ => hj _) fun h11 => ?_
  refine bl_ite (fun _ => hj _) fun h0 => bl_ite (fun _ => hj _) fun h1 => bl_ite (fun _ => hj _) fun h2 =>
    bl_ite (fun _ => hj _) fun h3 => bl_err ?_
  refine .nameless (n := n) (i := i) hv (by omega) ?_ ?_ ?_
  · unfold idx at hn
    split at hn
    · cases hn; assumption
    · cases hn
  · rw [← i64FromStr_iff]
    unfold i64R at hi
    split at hi
    · cases hi; assumption
    · cases hi
  · intro s hs
    simp [fixedNames, h0, h1, h2, h3] at hs

theorem bl_componentL (l : Str) (d : Component F) : Bl F l (parseComponentL l d) :=
  bl_split fun _ hv => bl_idx hv fun _ _ => bl_idx hv fun _ _ => bl_ok _

theorem bl_componentP (l : Str) (d : Component F) : Bl F l (parseComponentP l d) :=
  bl_split fun _ hv => bl_idx hv fun _ hw => bl_bind (bl_i64 hw) fun _ _ => bl_idx hv fun _ hw =>
    bl_bind (bl_i64 hw) fun _ _ => bl_ok _

theorem bl_componentF (l : Str) (d : Component F) : Bl F l (parseComponentF l d) := by
  unfold parseComponentF
  rw [← Said.bind_assoc]
  exact bl_bind (bl_field l) fun _ _ => bl_ok _

theorem showNat_four : str! "4" = showNat 4 := by decide
theorem showNat_three : str! "3" = showNat 3 := by decide

theorem bl_rotation (l : Str) : Bl F l (parseRotation l) := by
  unfold parseRotation
  have hs := (splitWs_iff l _).1 rfl
  have hv := words_of l
  generalize splitWs l = v at hs hv ⊢
  refine bl_ite (fun h => bl_err ?_) fun _ => ?_
  · rw [wrongCount, showNat_four]; exact .count hs h
  refine bl_idx hv fun _ hw => bl_bind (bl_i64 hw) fun _ _ => ?_
  refine bl_idx hv fun _ hw => bl_bind (bl_i64 hw) fun _ _ => ?_
  refine bl_idx hv fun _ hw => bl_bind (bl_i64 hw) fun _ _ => ?_
  exact bl_idx hv fun _ hw => bl_bind (bl_i64 hw) fun _ _ => bl_ok _

theorem bl_sheetS (l : Str) (s : Sheet) : Bl F l (parseSheetS l s) :=
  bl_split fun _ hv => bl_idx hv fun _ hw => bl_bind (bl_i64 hw) fun _ _ => bl_idx hv fun _ hw =>
    bl_bind (bl_i64 hw) fun _ _ => bl_idx hv fun _ hw => bl_bind (bl_i64 hw) fun _ _ => bl_idx hv fun _ hw =>
    bl_bind (bl_i64 hw) fun _ _ => bl_ok _

theorem bl_sheetU (l : Str) (s : Sheet) : Bl F l (parseSheetU l s) :=
  bl_split fun _ hv => bl_idx hv fun _ _ => bl_ok _

theorem bl_sheetLabel (l : Str) : Bl F l (parseSheetLabel l) :=
  bl_split fun _ hv => bl_idx hv fun _ _ => bl_idx hv fun _ hw => bl_bind (bl_labelForm hw) fun _ _ =>
    bl_idx hv fun _ hw => bl_bind (bl_labelSide hw) fun _ _ => bl_idx hv fun _ hw =>
    bl_bind (bl_i64 hw) fun _ _ => bl_idx hv fun _ hw => bl_bind (bl_i64 hw) fun _ _ => bl_idx hv fun _ hw =>
    bl_bind (bl_i64 hw) fun _ _ => bl_ok _

theorem bl_sheetF (l w : Str) (s : Sheet) (hw : firstWord l = some ('F' :: w)) : Bl F l (parseSheetF l s ('F' :: w)) := by
  have hword : WordOf l ('F' :: w) := by
    obtain ⟨ws, h⟩ := (firstWord_iff ..).1 hw
    exact ⟨_, .inr h, List.mem_cons_self ..⟩
  unfold parseSheetF
  refine bl_bind ?_ fun i _ => ?_
  · show Bl F l (i64R l w)
    unfold i64R
    cases h : i64FromStr w with
    | some i => exact bl_ok _
    | none =>
      refine bl_err (.number hword fun i hi => ?_)
      rw [(i64FromStr_iff w i).2 hi] at h
      cases h
  refine bl_ite (fun _ => ?_) fun _ => bl_ite (fun _ => ?_) fun _ => ?_
  · exact bl_split fun _ hv => bl_idx hv fun _ _ => bl_idx hv fun _ hw => bl_bind (bl_i64 hw) fun _ _ => bl_ok _
  · exact bl_split fun _ hv => bl_idx hv fun _ _ => bl_idx hv fun _ hw => bl_bind (bl_i64 hw) fun _ _ => bl_ok _
  · exact bl_bind (bl_sheetLabel l) fun _ _ => bl_ok _

theorem bl_pos (l : Str) : Bl F l (parsePos l) := by
  unfold parsePos
  have hs := (splitWs_iff l _).1 rfl
  have hv := words_of l
  generalize splitWs l = v at hs hv ⊢
  refine bl_ite (fun h => bl_err ?_) fun _ => ?_
  · rw [wrongCount, showNat_four]; exact .count hs h
  refine bl_idx hv fun _ hw => bl_bind (bl_i64 hw) fun _ _ => ?_
  exact bl_idx hv fun _ hw => bl_bind (bl_i64 hw) fun _ _ => bl_ok _

end Verif.Sch.Msg
