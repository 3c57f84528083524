import Verif.Lemmas.LibPanic
import Verif.Lemmas.LibTerm
import Verif.Lemmas.Lines
/-!
# Reading a symbol library: a symbol that was read does not depend on what follows it
-/

set_option linter.unusedSectionVars false

namespace Verif
open Flt Res Spec

/-- The text ends at the end of a line, or is empty. -/
def Spec.WholeLines (u : Str) : Prop := u = [] ∨ ∃ v, u = v ++ ['\n']

theorem linesAux_append (cur v b : Str) : linesAux cur (v ++ '\n' :: b) = linesAux cur (v ++ ['\n']) ++ lines b := by
  induction v generalizing cur with
  | nil => simp [linesAux, lines]
  | cons c v ih =>
    simp only [List.cons_append, linesAux]
    split
    · rw [ih]; rfl
    · exact ih _

theorem lines_append {u : Str} (h : WholeLines u) (b : Str) : lines (u ++ b) = lines u ++ lines b := by
  rcases h with rfl | ⟨v, rfl⟩
  · rfl
  · have := linesAux_append [] v b
    simpa [lines, List.append_assoc] using this

theorem Spec.WholeLines.append {a b : Str} (ha : WholeLines a) (hb : WholeLines b) : WholeLines (a ++ b) := by
  rcases hb with rfl | ⟨v, rfl⟩
  · simpa using ha
  · exact Or.inr ⟨a ++ v, by simp⟩

namespace Lib
open Verif.Sch (here next assumeLine)

variable {F : Type} [Flt F]

theorem parseFields_local {acc fs : List (Field F)} {p p' : List Str} (more : List Str)
    (h : parseFields acc p = .ok (fs, p')) : parseFields acc (p ++ more) = .ok (fs, p' ++ more) := by
  induction p generalizing acc with
  | nil => cases h
  | cons s rest ih =>
    rw [parseFields] at h
    rw [List.cons_append, parseFields]
    obtain ⟨c, hc, h⟩ := Res.bind_eq_ok.1 h
    rw [hc, Res.bind_ok]
    split at h
    · rename_i hF
      obtain ⟨f, hf, h⟩ := Res.bind_eq_ok.1 h
      rw [if_pos hF, hf, Res.bind_ok, ih h]
    · rename_i hF
      cases h
      rw [if_neg hF]
      rfl

theorem skipFplist_local {p : List Str} (more : List Str) (h : skipFplist p ≠ []) :
    skipFplist (p ++ more) = skipFplist p ++ more := by
  induction p with
  | nil => exact absurd rfl h
  | cons s p ih =>
    rw [skipFplist] at h
    rw [List.cons_append, skipFplist, skipFplist]
    split
    · rfl
    · rename_i hne
      rw [if_neg hne] at h
      exact ih h

theorem parseDraws_local {acc ds : List Draw} {p p' : List Str} (more : List Str) (hp : p' ≠ [])
    (h : parseDraws acc p = .ok (ds, p')) : parseDraws acc (p ++ more) = .ok (ds, p' ++ more) := by
  induction p generalizing acc with
  | nil => cases h; exact absurd rfl hp
  | cons s rest ih =>
    rw [parseDraws] at h
    rw [List.cons_append, parseDraws]
    split at h
    · rename_i he
      cases h
      rw [if_pos he]
    · rename_i he
      obtain ⟨d, hd, h⟩ := Res.bind_eq_ok.1 h
      rw [if_neg he, hd, Res.bind_ok, ih h]

theorem assumeLine_local {e : Str} {p p' : List Str} (more : List Str) (h : assumeLine e p = .ok p') :
    assumeLine e (p ++ more) = .ok (p' ++ more) := by
  unfold assumeLine at h ⊢
  split at h
  · cases h
  · split at h
    · cases h
    · rename_i hne
      cases h
      simp only [List.cons_append]
      rw [if_neg hne]

theorem assumeLine_cons {e : Str} {p p' : List Str} (h : assumeLine e p = .ok p') : p = e :: p' := by
  unfold assumeLine at h
  split at h
  · cases h
  · split at h
    · cases h
    · rename_i hne
      cases h
      simpa using hne

theorem here_local {p : List Str} {s : Str} (more : List Str) (h : here p = .ok s) : here (p ++ more) = .ok s := by
  cases p with
  | nil => cases h
  | cons x p => exact h

theorem next_local {p : List Str} (more : List Str) (h : p ≠ []) : next (p ++ more) = next p ++ more := by
  cases p with
  | nil => exact absurd rfl h
  | cons x p => rfl

theorem parseAliases_local {p p' as : List Str} (more : List Str) (h : parseAliases p = .ok (as, p')) :
    parseAliases (p ++ more) = .ok (as, p' ++ more) := by
  unfold parseAliases at h ⊢
  obtain ⟨s, hs, h⟩ := Res.bind_eq_ok.1 h
  rw [here_local more hs, Res.bind_ok]
  have hne : p ≠ [] := by rintro rfl; cases hs
  split at h
  · rename_i hA
    obtain ⟨v, hv, h⟩ := Res.bind_eq_ok.1 h
    cases h
    rw [if_pos hA, hv, Res.bind_ok, next_local more hne]
  · rename_i hA
    cases h
    rw [if_neg hA]

/-- Reading a symbol does not depend on what follows it; the last line it takes is `#`. -/
theorem parseSymbol_local {p p' : List Str} {s : Symbol F} (more : List Str) (h : parseSymbol p = .ok (s, p')) :
    parseSymbol (p ++ more) = .ok (s, p' ++ more) ∧ (str! "#" :: p') <:+ p := by
  unfold parseSymbol at h ⊢
  obtain ⟨p1, h1, h⟩ := Res.bind_eq_ok.1 h
  obtain ⟨l, hl, h⟩ := Res.bind_eq_ok.1 h
  obtain ⟨s0, hs0, h⟩ := Res.bind_eq_ok.1 h
  obtain ⟨⟨fields, p2⟩, hf, h⟩ := Res.bind_eq_ok.1 h
  simp only at h
  obtain ⟨h0, hh, h⟩ := Res.bind_eq_ok.1 h
  generalize hp3e : (if h0 = str! "$FPLIST" then skipFplist (next p2) else p2) = p3 at h
  obtain ⟨⟨aliases, p4⟩, ha, h⟩ := Res.bind_eq_ok.1 h
  simp only at h
  obtain ⟨p5, h5, h⟩ := Res.bind_eq_ok.1 h
  obtain ⟨⟨draw, p6⟩, hd, h⟩ := Res.bind_eq_ok.1 h
  simp only at h
  obtain ⟨p7, h7, h⟩ := Res.bind_eq_ok.1 h
  obtain ⟨p8, h8, h⟩ := Res.bind_eq_ok.1 h
  have e8 := assumeLine_cons h8
  have e7 := assumeLine_cons h7
  have hpne : p ≠ [] := by rintro rfl; cases h1
  have hp1ne : p1 ≠ [] := by rintro rfl; cases hl
  have hp2ne : p2 ≠ [] := by rintro rfl; cases hh
  have hp3ne : p3 ≠ [] := by
    rintro rfl
    cases ha
  have hp6ne : p6 ≠ [] := by rw [e7]; simp
  have e3 : (if h0 = str! "$FPLIST" then skipFplist (next (p2 ++ more)) else p2 ++ more) = p3 ++ more := by
    rw [← hp3e]
    split
    · rename_i he
      rw [if_pos he] at hp3e
      rw [next_local more hp2ne, skipFplist_local more (by rw [hp3e]; exact hp3ne)]
    · rfl
  cases h
  constructor
  · rw [next_local more hpne, assumeLine_local more h1, Res.bind_ok, here_local more hl, Res.bind_ok, hs0, Res.bind_ok,
      next_local more hp1ne, parseFields_local more hf, Res.bind_ok]
    simp only
    rw [here_local more hh, Res.bind_ok]
    simp only [e3]
    rw [parseAliases_local more ha, Res.bind_ok]
    simp only
    rw [assumeLine_local more h5, Res.bind_ok, parseDraws_local more hp6ne hd, Res.bind_ok]
    simp only
    rw [assumeLine_local more h7, Res.bind_ok, assumeLine_local more h8, Res.bind_ok]
  · rw [← e8]
    have s3 : p3 <:+ p2 := by
      rw [← hp3e]
      split
      · exact (skipFplist_suffix _).trans (next_suffix _)
      · exact List.suffix_refl _
    exact (assumeLine_suffix h7).trans ((parseDraws_suffix hd).trans
      ((assumeLine_suffix h5).trans ((parseAliases_suffix ha).trans (s3.trans ((parseFields_suffix hf).1.trans
        ((next_suffix _).trans ((assumeLine_suffix h1).trans (next_suffix _))))))))

/-- More fuel does not change the result. -/
theorem parseSymbols_fuel {n : Nat} {acc : List (Symbol F)} {p : List Str} (k : Nat)
    (h : parseSymbols n acc p ≠ .diverge) : parseSymbols (n + k) acc p = parseSymbols n acc p := by
  induction n generalizing acc p with
  | zero =>
    cases p with
    | nil => cases k <;> rfl
    | cons x p => exact absurd rfl h
  | succ n ih =>
    cases p with
    | nil => rw [Nat.add_right_comm]; rfl
    | cons x p =>
      rw [Nat.add_right_comm, parseSymbols, parseSymbols]
      rw [parseSymbols] at h
      split
      · rfl
      · rename_i hne
        rw [if_neg hne] at h
        cases hs : (parseSymbol (x :: p) : Res (Symbol F × List Str)) with
        | ok r =>
          rw [hs] at h
          exact ih h
        | _ => rfl

/-- The symbols read so far are kept in front. -/
theorem parseSymbols_acc (n : Nat) (acc : List (Symbol F)) (p : List Str) :
    parseSymbols n acc p = (parseSymbols n [] p >>= fun l => .ok (acc ++ l)) := by
  induction n generalizing acc p with
  | zero => cases p <;> simp [parseSymbols]
  | succ n ih =>
    cases p with
    | nil => simp [parseSymbols]
    | cons x p =>
      rw [parseSymbols, parseSymbols]
      split
      · simp
      · cases hs : (parseSymbol (x :: p) : Res (Symbol F × List Str)) with
        | ok r =>
          simp only [Res.bind_ok]
          rw [ih (acc ++ [r.1]), ih ([] ++ [r.1]), Res.bind_assoc]
          simp
        | _ => rfl

/-- After symbols without an end mark reading goes on with what follows. -/
theorem parseSymbols_continue {n : Nat} {acc r : List (Symbol F)} {p : List Str} (m : Nat) (q : List Str)
    (he : str! "#End Library" ∉ p) (h : parseSymbols n acc p = .ok r) (hq : parseSymbols m r q ≠ .diverge) :
    parseSymbols (n + m) acc (p ++ q) = parseSymbols m r q := by
  induction n generalizing acc p with
  | zero =>
    cases p with
    | nil => cases h; simp
    | cons x p => cases h
  | succ n ih =>
    cases p with
    | nil =>
      cases h
      rw [Nat.add_comm, List.nil_append]
      exact parseSymbols_fuel _ hq
    | cons x p =>
      have hx : x ≠ str! "#End Library" := fun e => he (by rw [e]; exact List.mem_cons_self)
      rw [parseSymbols, if_neg hx] at h
      obtain ⟨⟨s, p'⟩, hs, h⟩ := Res.bind_eq_ok.1 h
      obtain ⟨h1, h2⟩ := parseSymbol_local q hs
      rw [Nat.add_right_comm, List.cons_append, parseSymbols, if_neg hx, ← List.cons_append, h1, Res.bind_ok]
      refine ih ?_ h
      intro hm
      exact he (h2.subset (List.mem_cons_of_mem _ hm))

/-- What follows the end mark is not read. -/
theorem parseSymbols_endMark {n : Nat} {acc r : List (Symbol F)} {p : List Str} (m : Nat) (more : List Str)
    (h : parseSymbols n acc (p ++ [str! "#End Library"]) = .ok r) :
    parseSymbols (n + m) acc (p ++ str! "#End Library" :: more) = .ok r := by
  induction n generalizing acc p with
  | zero => cases p <;> cases h
  | succ n ih =>
    obtain ⟨x, p1, hx⟩ : ∃ x p1, p ++ [str! "#End Library"] = x :: p1 := by
      cases p with
      | nil => exact ⟨_, _, rfl⟩
      | cons x p => exact ⟨_, _, rfl⟩
    have hx2 : p ++ str! "#End Library" :: more = x :: (p1 ++ more) := by
      have : p ++ str! "#End Library" :: more = (p ++ [str! "#End Library"]) ++ more := by simp
      rw [this, hx]; rfl
    rw [hx, parseSymbols] at h
    rw [hx2, Nat.add_right_comm, parseSymbols]
    split at h
    · rename_i he
      cases h
      rw [if_pos he]
    · rename_i he
      rw [if_neg he]
      obtain ⟨⟨s, p'⟩, hs, h⟩ := Res.bind_eq_ok.1 h
      obtain ⟨h1, h2⟩ := parseSymbol_local more hs
      rw [List.cons_append] at h1
      rw [h1, Res.bind_ok]
      rw [← hx] at h2
      obtain ⟨a, ha⟩ := h2
      obtain ⟨q, rfl⟩ : ∃ q, p' = q ++ [str! "#End Library"] := by
        cases hc : p'.getLast? with
        | none =>
          rw [List.getLast?_eq_none_iff] at hc
          subst hc
          have := congrArg List.getLast? ha
          simp at this
        | some y =>
          rw [List.getLast?_eq_some_iff] at hc
          obtain ⟨q, rfl⟩ := hc
          refine ⟨q, ?_⟩
          have := congrArg List.getLast? ha
          simp only [List.getLast?_append, List.getLast?_cons, Option.some_or, Option.getD_some, Option.some.injEq] at this
          have hy : y = str! "#End Library" := this
          rw [hy]
      have := ih h
      simpa using this

end Lib
end Verif
