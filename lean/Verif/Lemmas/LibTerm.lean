import Verif.Lemmas.SchTerm
import Verif.Model.SymbolLib
/-!
# Reading a symbol library: every call ends and every symbol uses up lines
-/

namespace Verif.Lib
open Verif Flt Res
open Verif.Sch (here next assumeLine charAt i64R f64R boolFrom assumeString idx Orientation Justify
  here_ends idx_ends charAt_ends i64R_ends f64R_ends boolFrom_ends assumeString_ends splitN_ends splitQ_ends)

set_option linter.unusedSectionVars false

variable {F : Type} [Flt F]

theorem PinOrientation.make_ends (s : Str) : (PinOrientation.make s).Ends := by
  unfold PinOrientation.make
  repeat' with_reducible first | exact ends_ok _ | exact ends_err _ | apply ends_ite

theorem PinType.make_ends (s : Str) : (PinType.make s).Ends := by
  unfold PinType.make
  repeat' with_reducible first | exact ends_ok _ | exact ends_err _ | apply ends_ite

theorem PinShape.make_ends (s : Str) : (PinShape.make s).Ends := by
  unfold PinShape.make
  repeat' with_reducible first | exact ends_ok _ | exact ends_err _ | apply ends_ite

theorem Fill.make_ends (s : Str) : (Fill.make s).Ends := by
  unfold Fill.make
  repeat' with_reducible first | exact ends_ok _ | exact ends_err _ | apply ends_ite

/-- Show that a straight-line reader ends, from the readers it calls. -/
macro "lends" : tactic => `(tactic|
  repeat' with_reducible first
    | exact ends_ok _ | exact ends_err _ | exact ends_panic
    | exact here_ends _ | exact idx_ends _ _ | exact charAt_ends _ _ | exact i64R_ends _
    | exact f64R_ends _ | exact boolFrom_ends _ _ _ | exact assumeString_ends _ _
    | exact splitN_ends _ _ | exact splitQ_ends _ | exact Orientation.new_ends _
    | exact Justify.new_ends _ | exact PinOrientation.make_ends _ | exact PinType.make_ends _
    | exact PinShape.make_ends _ | exact Fill.make_ends _
    | apply ends_ite
    | (refine ends_bind ?_ fun _ _ => ?_))

theorem parseField_ends (l : Str) : (parseField l : Res (Field F)).Ends := by
  unfold parseField; lends

theorem parsePin_ends (l : Str) : (parsePin l).Ends := by
  unfold parsePin; lends

theorem parseRect_ends (l : Str) : (parseRect l).Ends := by
  unfold parseRect; lends

theorem parseDef_ends (l : Str) : (parseDef l : Res (Symbol F)).Ends := by
  unfold parseDef; lends

theorem parseDrawLine_ends (l : Str) : (parseDrawLine l).Ends := by
  unfold parseDrawLine
  refine ends_ite (ends_bind (parsePin_ends _) fun _ _ => ends_ok _)
    (ends_ite (ends_bind (parseRect_ends _) fun _ _ => ends_ok _) (ends_ok _))

theorem parseFields_ends (p : List Str) : ∀ acc : List (Field F), (parseFields acc p).Ends ∧
    ∀ r p', parseFields acc p = .ok (r, p') → p'.length ≤ p.length := by
  induction p with
  | nil => intro acc; exact ⟨ends_panic, by intro _ _ h; cases h⟩
  | cons s rest ih =>
    intro acc
    rw [parseFields]
    constructor
    · refine ends_bind (charAt_ends _ _) fun c _ => ends_ite ?_ (ends_ok _)
      exact ends_bind (parseField_ends _) fun f _ => (ih _).1
    · intro r p' h
      obtain ⟨c, _, h⟩ := Res.bind_eq_ok.1 h
      split at h
      · obtain ⟨f, _, h⟩ := Res.bind_eq_ok.1 h
        have := (ih _).2 r p' h
        simp only [List.length_cons]; omega
      · cases h; exact Nat.le_refl _

theorem skipFplist_length (p : List Str) : (skipFplist p).length ≤ p.length := by
  induction p with
  | nil => exact Nat.le_refl _
  | cons s rest ih =>
    rw [skipFplist]
    split
    · simp
    · simp only [List.length_cons]; omega

theorem parseDraws_ends (p : List Str) : ∀ acc : List Draw, (parseDraws acc p).Ends ∧
    ∀ r p', parseDraws acc p = .ok (r, p') → p'.length ≤ p.length := by
  induction p with
  | nil =>
    intro acc
    refine ⟨ends_ok _, ?_⟩
    intro r p' h
    cases h; exact Nat.le_refl _
  | cons s rest ih =>
    intro acc
    rw [parseDraws]
    constructor
    · refine ends_ite (ends_ok _) ?_
      exact ends_bind (parseDrawLine_ends _) fun f _ => (ih _).1
    · intro r p' h
      split at h
      · cases h; simp
      · obtain ⟨f, _, h⟩ := Res.bind_eq_ok.1 h
        have := (ih _).2 r p' h
        simp only [List.length_cons]; omega

theorem parseAliases_ends (p : List Str) : (parseAliases p).Ends ∧
    ∀ r p', parseAliases p = .ok (r, p') → p'.length ≤ p.length := by
  unfold parseAliases
  constructor
  · exact ends_bind (here_ends _) fun s _ => ends_ite (ends_bind (splitQ_ends _) fun _ _ => ends_ok _) (ends_ok _)
  · intro r p' h
    obtain ⟨s, _, h⟩ := Res.bind_eq_ok.1 h
    split at h
    · obtain ⟨v, _, h⟩ := Res.bind_eq_ok.1 h
      cases h
      simp [next]
    · cases h; exact Nat.le_refl _

theorem assumeLine_ends (e : Str) (p : List Str) : (assumeLine e p).Ends ∧
    ∀ p', assumeLine e p = .ok p' → p'.length + 1 ≤ p.length := by
  unfold assumeLine
  cases p with
  | nil => exact ⟨ends_err _, by intro _ h; cases h⟩
  | cons s rest =>
    refine ⟨ends_ite (ends_err _) (ends_ok _), ?_⟩
    intro p' h
    simp only at h
    split at h
    · cases h
    · cases h; simp

/-- Reading a symbol ends, and leaves fewer lines. -/
theorem parseSymbol_ends (p : List Str) : (parseSymbol p : Res (Symbol F × List Str)).Ends ∧
    ∀ (r : Symbol F) p', parseSymbol p = .ok (r, p') → p'.length < p.length := by
  unfold parseSymbol
  constructor
  · refine ends_bind (assumeLine_ends _ _).1 fun p1 _ => ?_
    refine ends_bind (here_ends _) fun l _ => ?_
    refine ends_bind (parseDef_ends _) fun s _ => ?_
    refine ends_bind (parseFields_ends _ _).1 fun x _ => ?_
    refine ends_bind (here_ends _) fun h _ => ?_
    refine ends_bind (parseAliases_ends _).1 fun y _ => ?_
    refine ends_bind (assumeLine_ends _ _).1 fun p2 _ => ?_
    refine ends_bind (parseDraws_ends _ _).1 fun z _ => ?_
    refine ends_bind (assumeLine_ends _ _).1 fun p3 _ => ?_
    refine ends_bind (assumeLine_ends _ _).1 fun p4 _ => ?_
    exact ends_ok _
  · intro r p' h
    obtain ⟨p1, h1, h⟩ := Res.bind_eq_ok.1 h
    obtain ⟨l, _, h⟩ := Res.bind_eq_ok.1 h
    obtain ⟨s, _, h⟩ := Res.bind_eq_ok.1 h
    obtain ⟨⟨fs, p2⟩, h2, h⟩ := Res.bind_eq_ok.1 h
    obtain ⟨hh, _, h⟩ := Res.bind_eq_ok.1 h
    obtain ⟨⟨as, p3⟩, h3, h⟩ := Res.bind_eq_ok.1 h
    obtain ⟨p4, h4, h⟩ := Res.bind_eq_ok.1 h
    obtain ⟨⟨ds, p5⟩, h5, h⟩ := Res.bind_eq_ok.1 h
    obtain ⟨p6, h6, h⟩ := Res.bind_eq_ok.1 h
    obtain ⟨p7, h7, h⟩ := Res.bind_eq_ok.1 h
    cases h
    have e1 := (assumeLine_ends _ _).2 _ h1
    have e2 := (parseFields_ends _ _).2 _ _ h2
    have e3 := (parseAliases_ends _).2 _ _ h3
    have e4 := (assumeLine_ends _ _).2 _ h4
    have e5 := (parseDraws_ends _ _).2 _ _ h5
    have e6 := (assumeLine_ends _ _).2 _ h6
    have e7 := (assumeLine_ends _ _).2 _ h7
    have e8 : (if hh = str! "$FPLIST" then skipFplist (next p2) else p2).length ≤ p2.length := by
      split
      · have := skipFplist_length (next p2)
        simp only [next, List.length_drop] at this ⊢
        omega
      · exact Nat.le_refl _
    simp only [next, List.length_drop] at e1 e2 e3 e8
    have e9 : (next p2).length ≤ p2.length := by simp [next]
    omega

theorem parseSymbols_ends : ∀ (n : Nat) (acc : List (Symbol F)) (p : List Str), p.length ≤ n →
    (parseSymbols n acc p).Ends
  | _, acc, [], _ => by rw [parseSymbols]; exact ends_ok _
  | 0, _, _ :: _, h => by simp at h
  | n + 1, acc, l :: rest, h => by
    rw [parseSymbols]
    refine ends_ite (ends_ok _) (ends_bind (parseSymbol_ends _).1 ?_)
    rintro ⟨s, p⟩ hp
    have := (parseSymbol_ends _).2 _ _ hp
    exact parseSymbols_ends n _ p (by omega)

theorem parseStr_ends (t : Str) : (parseStr t : Res (SymbolLib F)).Ends := by
  unfold parseStr parseLines
  refine ends_bind (assumeLine_ends _ _).1 fun p1 _ => ?_
  refine ends_bind (assumeLine_ends _ _).1 fun p2 _ => ?_
  refine ends_bind (assumeLine_ends _ _).1 fun p3 _ => ?_
  exact ends_bind (parseSymbols_ends _ _ _ (Nat.le_refl _)) fun _ _ => ends_ok _

end Verif.Lib
