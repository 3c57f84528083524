import Verif.Model.SchematicApi
/-!
# Reading a schematic: the readers of the sections never diverge and never move backwards
-/

namespace Verif
open Flt

set_option linter.unusedSectionVars false

namespace Res

/-- The call terminates. -/
def Ends {α : Type} (x : Res α) : Prop := x ≠ .diverge

theorem ends_bind {α β : Type} {x : Res α} {f : α → Res β} (h : x.Ends)
    (hf : ∀ a, x = .ok a → (f a).Ends) : (x >>= f).Ends := by
  intro hd
  rcases Res.bind_eq_diverge.1 hd with h' | ⟨a, ha, h'⟩
  · exact h h'
  · exact hf a ha h'

theorem ends_ok {α : Type} (a : α) : (Res.ok a).Ends := by intro h; cases h
theorem ends_err {α : Type} (e : Err) : (Res.err e : Res α).Ends := by intro h; cases h
theorem ends_panic {α : Type} : (Res.panic : Res α).Ends := by intro h; cases h

theorem ends_ite {α : Type} {c : Prop} [Decidable c] {a b : Res α} (ha : a.Ends) (hb : b.Ends) :
    (if c then a else b).Ends := by split <;> assumption

end Res

open Res

theorem splitInt_ends (n : Option Nat) (s : Str) : (splitInt n s).Ends := by
  unfold splitInt
  split
  · exact ends_ite (ends_err _) (ends_ok _)
  · exact ends_ok _

namespace Sch

variable {F : Type} [Flt F]

theorem here_ends (p : List Str) : (here p).Ends := by
  unfold here; split
  · exact ends_panic
  · exact ends_ok _

theorem idx_ends (v : List Str) (n : Nat) : (idx v n).Ends := by
  unfold idx; split
  · exact ends_ok _
  · exact ends_panic

theorem charAt_ends (v : Str) (n : Nat) : (charAt v n).Ends := by
  unfold charAt; split
  · exact ends_ok _
  · exact ends_panic

theorem i64R_ends (s : Str) : (i64R s).Ends := by
  unfold i64R; split
  · exact ends_ok _
  · exact ends_err _

theorem f64R_ends (s : Str) : (f64R s : Res F).Ends := by
  unfold f64R; split
  · exact ends_ok _
  · exact ends_err _

theorem boolFrom_ends {α : Type} [DecidableEq α] (x t f : α) : (boolFrom x t f).Ends := by
  unfold boolFrom
  exact ends_ite (ends_ok _) (ends_ite (ends_ok _) (ends_err _))

theorem assumeString_ends (a b : Str) : (assumeString a b).Ends := by
  unfold assumeString
  exact ends_ite (ends_err _) (ends_ok _)

theorem splitN_ends (n : Nat) (s : Str) : (splitN n s).Ends := splitInt_ends _ _
theorem splitQ_ends (s : Str) : (splitQ s).Ends := splitInt_ends _ _

theorem Orientation.new_ends (c : Char) : (Orientation.new c).Ends := by
  unfold Orientation.new
  repeat' with_reducible first | exact ends_ok _ | exact ends_err _ | apply ends_ite

theorem Justify.new_ends (c : Char) : (Justify.new c).Ends := by
  unfold Justify.new
  repeat' with_reducible first | exact ends_ok _ | exact ends_err _ | apply ends_ite

theorem parseLabelForm_ends (s : Str) : (parseLabelForm s).Ends := by
  unfold parseLabelForm
  repeat' with_reducible first | exact ends_ok _ | exact ends_err _ | apply ends_ite

theorem parseLabelSide_ends (s : Str) : (parseLabelSide s).Ends := by
  unfold parseLabelSide
  repeat' with_reducible first | exact ends_ok _ | exact ends_err _ | apply ends_ite

theorem parseTextType_ends (s : Str) : (parseTextType s).Ends := by
  unfold parseTextType
  repeat' with_reducible first | exact ends_ok _ | exact ends_err _ | apply ends_ite

open Lean.Parser.Tactic in
/-- Show that a straight-line reader ends, from the readers it calls. -/
macro "ends" : tactic => `(tactic|
  repeat' with_reducible first
    | exact ends_ok _ | exact ends_err _ | exact ends_panic
    | exact here_ends _ | exact idx_ends _ _ | exact charAt_ends _ _ | exact i64R_ends _
    | exact f64R_ends _ | exact boolFrom_ends _ _ _ | exact assumeString_ends _ _
    | exact splitN_ends _ _ | exact splitQ_ends _ | exact Orientation.new_ends _
    | exact Justify.new_ends _ | exact parseLabelForm_ends _ | exact parseLabelSide_ends _
    | exact parseTextType_ends _
    | apply ends_ite
    | (refine ends_bind ?_ fun _ _ => ?_))

theorem Field.new_ends (v : List Str) : (Field.new v : Res (Field F)).Ends := by
  unfold Field.new; ends

theorem wordAndQstring_ends (n s : Str) : (wordAndQstring n s).Ends := by
  unfold wordAndQstring; ends

theorem parseDescription_ends (p : List Str) : (parseDescription p).Ends := by
  unfold parseDescription
  repeat' with_reducible first
    | exact wordAndQstring_ends _ _ | exact here_ends _ | exact idx_ends _ _
    | exact i64R_ends _ | exact splitN_ends _ _ | exact assumeString_ends _ _ | exact ends_ok _
    | exact ends_err _ | apply ends_ite | (refine ends_bind ?_ fun _ _ => ?_)

theorem parseComponentL_ends (s : Str) (d : Component F) : (parseComponentL s d).Ends := by
  unfold parseComponentL; ends

theorem parseComponentP_ends (s : Str) (d : Component F) : (parseComponentP s d).Ends := by
  unfold parseComponentP; ends

theorem parseComponentF_ends (s : Str) (d : Component F) : (parseComponentF s d).Ends := by
  unfold parseComponentF
  refine ends_bind (splitQ_ends _) fun _ _ => ends_bind (Field.new_ends _) fun _ _ => ends_ok _

theorem parseRotation_ends (s : Str) : (parseRotation s).Ends := by
  unfold parseRotation; ends

/-- The loop over the lines of a component ends and returns a rest of the lines. -/
theorem parseComponentLoop_ends : ∀ (n : Nat) (p : List Str) (d : Component F), p.length ≤ n →
    (parseComponentLoop d p).Ends ∧
    ∀ d' p', parseComponentLoop d p = .ok (d', p') → p'.length ≤ p.length
  | _, [], d, _ => by
    rw [parseComponentLoop]
    exact ⟨ends_panic, by intro _ _ h; cases h⟩
  | 0, _ :: _, _, h => by simp at h
  | n + 1, s :: rest, d, h => by
    have hr : rest.length ≤ n := by simpa using h
    have ih := fun d : Component F => parseComponentLoop_ends n rest d hr
    have ih2 : ∀ {x : Res (Component F)}, x.Ends →
        (x >>= fun d => parseComponentLoop d rest).Ends ∧
        ∀ d' p', (x >>= fun d => parseComponentLoop d rest) = .ok (d', p') →
          p'.length ≤ (s :: rest).length := by
      intro x hx
      refine ⟨ends_bind hx fun a _ => (ih a).1, ?_⟩
      intro d' p' h
      obtain ⟨a, _, h⟩ := Res.bind_eq_ok.1 h
      have := (ih a).2 d' p' h
      simp only [List.length_cons]; omega
    have ih3 : ∀ d : Component F, (parseComponentLoop d rest).Ends ∧
        ∀ d' p', parseComponentLoop d rest = .ok (d', p') → p'.length ≤ (s :: rest).length := by
      intro d
      refine ⟨(ih d).1, fun d' p' h => ?_⟩
      have := (ih d).2 d' p' h
      simp only [List.length_cons]; omega
    rw [parseComponentLoop.eq_def]
    simp only
    split
    · refine ⟨ends_ok _, ?_⟩
      intro d' p' h; cases h; exact (Nat.le_refl _)
    split
    · exact ih2 (parseComponentL_ends s d)
    split
    · exact ih3 _
    split
    · exact ih2 (parseComponentP_ends s d)
    split
    · exact ih2 (parseComponentF_ends s d)
    split
    · split
      · exact ⟨ends_panic, by intro _ _ h; cases h⟩
      · rename_i s2 rest2
        have hr2 : rest2.length ≤ n := by simp only [List.length_cons] at hr; omega
        refine ⟨ends_bind (parseRotation_ends s2) fun a _ =>
          (parseComponentLoop_ends n rest2 ({ d with rotation := a } : Component F) hr2).1, ?_⟩
        intro d' p' h
        obtain ⟨a, _, h⟩ := Res.bind_eq_ok.1 h
        have := (parseComponentLoop_ends n rest2 ({ d with rotation := a } : Component F) hr2).2 d' p' h
        simp only [List.length_cons]; omega
    split
    · exact ih3 _
    · exact ih3 _

theorem parseSheetS_ends (s : Str) (d : Sheet) : (parseSheetS s d).Ends := by
  unfold parseSheetS; ends

theorem parseSheetU_ends (s : Str) (d : Sheet) : (parseSheetU s d).Ends := by
  unfold parseSheetU; ends

theorem parseSheetLabel_ends (s : Str) : (parseSheetLabel s).Ends := by
  unfold parseSheetLabel; ends

theorem parseSheetF_ends (s : Str) (d : Sheet) (f : Str) : (parseSheetF s d f).Ends := by
  unfold parseSheetF
  repeat' with_reducible first
    | exact parseSheetLabel_ends _ | exact idx_ends _ _
    | exact i64R_ends _ | exact splitN_ends _ _ | exact ends_ok _
    | apply ends_ite | (refine ends_bind ?_ fun _ _ => ?_)

/-- The loop over the lines of a sheet ends and returns a rest of the lines. -/
theorem parseSheetLoop_ends : ∀ (p : List Str) (d : Sheet),
    (parseSheetLoop d p).Ends ∧
    ∀ d' p', parseSheetLoop d p = .ok (d', p') → p'.length ≤ p.length
  | [], d => by
    rw [parseSheetLoop]
    exact ⟨ends_panic, by intro _ _ h; cases h⟩
  | s :: rest, d => by
    have ih := fun d => parseSheetLoop_ends rest d
    have ih2 : ∀ {x : Res Sheet}, x.Ends →
        (x >>= fun d => parseSheetLoop d rest).Ends ∧
        ∀ d' p', (x >>= fun d => parseSheetLoop d rest) = .ok (d', p') →
          p'.length ≤ (s :: rest).length := by
      intro x hx
      refine ⟨ends_bind hx fun a _ => (ih a).1, ?_⟩
      intro d' p' h
      obtain ⟨a, _, h⟩ := Res.bind_eq_ok.1 h
      have := (ih a).2 d' p' h
      simp only [List.length_cons]; omega
    have ih3 : ∀ d, (parseSheetLoop d rest).Ends ∧
        ∀ d' p', parseSheetLoop d rest = .ok (d', p') → p'.length ≤ (s :: rest).length := by
      intro d
      refine ⟨(ih d).1, fun d' p' h => ?_⟩
      have := (ih d).2 d' p' h
      simp only [List.length_cons]; omega
    rw [parseSheetLoop]
    split
    · refine ⟨ends_ok _, ?_⟩
      intro d' p' h; cases h; exact (Nat.le_refl _)
    split
    · split
      · exact ih2 (parseSheetS_ends s d)
      split
      · exact ih2 (parseSheetU_ends s d)
      split
      · exact ih2 (parseSheetF_ends s d _)
      · exact ih3 _
    · exact ih3 _

theorem parseWire_ends (p : List Str) : (parseWire p).Ends := by
  unfold parseWire; ends

theorem parsePos_ends (s : Str) : (parsePos s).Ends := by
  unfold parsePos; ends

theorem parseText_ends (p : List Str) : (parseText p).Ends := by
  unfold parseText; ends

theorem assumeLine_ends (e : Str) (p : List Str) : (assumeLine e p).Ends := by
  unfold assumeLine; split
  · exact ends_err _
  · exact ends_ite (ends_err _) (ends_ok _)

theorem next_length (p : List Str) : (next p).length ≤ p.length := by
  simp [next]

/-- The rest a reader returns is at most as long as what it got. -/
def Forward {α : Type} (p : List Str) (x : Res (α × List Str)) : Prop :=
  x.Ends ∧ ∀ a p', x = .ok (a, p') → p'.length ≤ p.length

theorem forward_bind {α β : Type} {p : List Str} {x : Res α} {f : α → Res (β × List Str)}
    (h : x.Ends) (hf : ∀ a, Forward p (f a)) : Forward p (x >>= f) := by
  refine ⟨ends_bind h fun a _ => (hf a).1, ?_⟩
  intro b p' hb
  obtain ⟨a, _, hb⟩ := Res.bind_eq_ok.1 hb
  exact (hf a).2 b p' hb

theorem forward_map {α β : Type} {p : List Str} {x : Res (α × List Str)}
    {f : α × List Str → Res (β × List Str)} (h : Forward p x)
    (hf : ∀ a q, ∃ b, f (a, q) = .ok (b, q)) : Forward p (x >>= f) := by
  refine ⟨ends_bind h.1 fun a _ => ?_, ?_⟩
  · obtain ⟨b, hb⟩ := hf a.1 a.2
    rw [hb]; exact ends_ok _
  intro b p' hb
  obtain ⟨⟨a, q⟩, ha, hb⟩ := Res.bind_eq_ok.1 hb
  obtain ⟨b', hb'⟩ := hf a q
  rw [hb'] at hb
  cases hb
  exact h.2 a _ ha

theorem forward_ite {α : Type} {p : List Str} {c : Prop} [Decidable c] {x y : Res (α × List Str)}
    (hx : Forward p x) (hy : Forward p y) : Forward p (if c then x else y) := by
  split <;> assumption

theorem forward_ok {α : Type} {p q : List Str} (a : α) (h : q.length ≤ p.length) :
    Forward p (.ok (a, q)) := ⟨ends_ok _, by intro _ _ h'; cases h'; exact h⟩

theorem forward_err {α : Type} {p : List Str} (e : Err) : Forward p (.err e : Res (α × List Str)) :=
  ⟨ends_err _, by intro _ _ h'; cases h'⟩

theorem forward_panic {α : Type} {p : List Str} : Forward p (.panic : Res (α × List Str)) :=
  ⟨ends_panic, by intro _ _ h'; cases h'⟩

theorem parseWire_forward (p : List Str) : Forward p (parseWire p) := by
  unfold parseWire
  repeat' with_reducible first
    | exact forward_err _ | exact forward_ok _ (next_length _)
    | apply forward_ite | (refine forward_bind ?_ fun _ => ?_)
  all_goals ends

theorem parseText_forward (p : List Str) : Forward p (parseText p) := by
  unfold parseText
  repeat' with_reducible first
    | exact forward_err _ | exact forward_ok _ (next_length _)
    | apply forward_ite | (refine forward_bind ?_ fun _ => ?_)
  all_goals ends

theorem parseDescription_forward (p : List Str) : Forward p (parseDescription p) := by
  refine ⟨parseDescription_ends p, ?_⟩
  intro d p' h
  unfold parseDescription at h
  obtain ⟨_, _, h⟩ := Res.bind_eq_ok.1 h
  obtain ⟨_, _, h⟩ := Res.bind_eq_ok.1 h
  obtain ⟨_, _, h⟩ := Res.bind_eq_ok.1 h
  obtain ⟨_, _, h⟩ := Res.bind_eq_ok.1 h
  obtain ⟨_, _, h⟩ := Res.bind_eq_ok.1 h
  obtain ⟨_, _, h⟩ := Res.bind_eq_ok.1 h
  obtain ⟨_, _, h⟩ := Res.bind_eq_ok.1 h
  obtain ⟨_, _, h⟩ := Res.bind_eq_ok.1 h
  obtain ⟨_, _, h⟩ := Res.bind_eq_ok.1 h
  obtain ⟨_, _, h⟩ := Res.bind_eq_ok.1 h
  split at h
  · cases h
  · iterate 22 obtain ⟨_, _, h⟩ := Res.bind_eq_ok.1 h
    simp only [Res.ok.injEq, Prod.mk.injEq] at h
    rw [← h.2]
    simp only [next, List.length_drop]
    omega

theorem parseItem_forward (sch : Schematic F) (p : List Str) : Forward p (parseItem sch p) := by
  unfold parseItem
  refine forward_bind (here_ends p) fun s => ?_
  split
  · exact forward_panic
  · refine forward_ite (forward_map (parseDescription_forward p) fun _ _ => ⟨_, rfl⟩) ?_
    refine forward_ite ?_ ?_
    · refine forward_map ⟨(parseComponentLoop_ends (F := F) _ _ _ (Nat.le_refl _)).1, fun a p' h => ?_⟩ fun _ _ => ⟨_, rfl⟩
      exact Nat.le_trans ((parseComponentLoop_ends (F := F) _ _ _ (Nat.le_refl _)).2 a p' h) (next_length p)
    refine forward_ite ?_ ?_
    · refine forward_map ⟨(parseSheetLoop_ends _ _).1, fun a p' h => ?_⟩ fun _ _ => ⟨_, rfl⟩
      exact Nat.le_trans ((parseSheetLoop_ends _ _).2 a p' h) (next_length p)
    refine forward_ite (forward_ok _ (Nat.le_refl _)) ?_
    refine forward_ite (forward_map (parseWire_forward p) fun _ _ => ⟨_, rfl⟩) ?_
    refine forward_ite (forward_bind (parsePos_ends s) fun _ => forward_ok _ (Nat.le_refl _)) ?_
    refine forward_ite (forward_bind (parsePos_ends s) fun _ => forward_ok _ (Nat.le_refl _)) ?_
    exact forward_ite (forward_map (parseText_forward p) fun _ _ => ⟨_, rfl⟩) (forward_ok _ (Nat.le_refl _))

theorem parseItems_ends : ∀ (n : Nat) (sch : Schematic F) (p : List Str), p.length ≤ n →
    (parseItems n sch p).Ends
  | n, sch, [], _ => by rw [parseItems.eq_def]; cases n <;> exact ends_ok _
  | 0, _, _ :: _, h => by simp at h
  | n + 1, sch, s :: p, h => by
    rw [parseItems.eq_def]
    refine ends_bind (parseItem_forward sch (s :: p)).1 ?_
    rintro ⟨sch', p'⟩ hp
    have := (parseItem_forward sch (s :: p)).2 _ _ hp
    refine parseItems_ends n sch' (next p') ?_
    simp only [next, List.length_drop, List.length_cons] at *
    omega

theorem parseLines_ends (f : Option Str) (v : List Str) : (parseLines f v : Res (Schematic F)).Ends := by
  unfold parseLines
  refine ends_bind (assumeLine_ends _ _) fun p _ => ends_bind (here_ends _) fun s _ => ?_
  refine ends_ite (ends_err _) ?_
  exact ends_bind (assumeLine_ends _ _) fun p _ => parseItems_ends _ _ _ (Nat.le_refl _)

theorem parse_ends (f : Option Str) (s : Str) : (parse f s : Res (Schematic F)).Ends :=
  parseLines_ends f _

end Sch

end Verif
