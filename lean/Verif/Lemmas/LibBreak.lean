import Verif.Lemmas.SchBreak
import Verif.Lemmas.LibPanic
import Verif.Lemmas.LibTerm
import Verif.Spec.SymbolPanics
import Verif.Props.C75
/-!
# Lemmas: where the reader of symbol libraries panics, exactly
-/

set_option linter.unusedSimpArgs false

namespace Verif.Lib
open Verif Res Spec
open Verif.Sch (here next assumeLine charAt i64R f64R boolFrom assumeString idx Orientation Justify
  bind_panic_quiet charAt_bind f64R_bind i64R_bind tableRead_quiet)

variable {F : Type} [Flt F]

/-- A field line makes the reader panic exactly if a letter is missing in it. -/
theorem field_breaks (line : Str) : (parseField line : Res (Field F)) = .panic ↔ ShortSymField F line := by
  have hb : ∀ (w : Str) b, boolFrom w (str! "V") (str! "I") = .ok b ↔ Choice (str! "V") (str! "I") w b :=
    fun w b => Sch.boolFrom_iff _ _ _ _ (by decide)
  have hb1 : ∀ (w : Char) b, boolFrom w 'I' 'N' = .ok b ↔ Choice 'I' 'N' w b :=
    fun w b => Sch.boolFrom_iff _ _ _ _ (by decide)
  have hd : ∀ {β : Type} (c : Char) (f : Orientation → Res β),
      (Orientation.new c >>= f) = .panic ↔ ∃ o, (c, o) ∈ directions ∧ f o = .panic := by
    intro β c f
    simp only [bind_panic_quiet (Sch.Orientation.new_quiet c), Sch.direction_iff]
  have hj : ∀ {β : Type} (c : Char) (f : Justify → Res β),
      (Justify.new c >>= f) = .panic ↔ ∃ o, (c, o) ∈ alignments ∧ f o = .panic := by
    intro β c f
    simp only [bind_panic_quiet (Sch.Justify.new_quiet c), Sch.alignment_iff]
  have h7 : ∀ {β : Type} (w : Str) (f : Bool → Res β), (boolFrom w (str! "V") (str! "I") >>= f) = .panic ↔
      ∃ b, Choice (str! "V") (str! "I") w b ∧ f b = .panic := by
    intro β c f
    simp only [bind_panic_quiet (Sch.boolFrom_quiet _ _ _), hb]
  have h8 : ∀ {β : Type} (w : Char) (f : Bool → Res β), (boolFrom w 'I' 'N' >>= f) = .panic ↔
      ∃ b, Choice 'I' 'N' w b ∧ f b = .panic := by
    intro β c f
    simp only [bind_panic_quiet (Sch.boolFrom_quiet _ _ _), hb1]
  have h9 : ∀ {β : Type} (w : Char) (g : Bool → β), ¬ (boolFrom w 'B' 'N' >>= fun b => Res.ok (g b)) = .panic := by
    intro β c f
    rw [bind_panic_quiet (Sch.boolFrom_quiet _ _ _)]
    rintro ⟨_, _, h⟩
    cases h
  have hn : ∀ {β : Type} (i : Int) (f : Str → Res β), (tableRead fixedNames i >>= f) = .panic ↔
      ∃ n, (i, n) ∈ fixedNames ∧ f n = .panic := by
    intro β c f
    simp only [bind_panic_quiet (tableRead_quiet _ _), tableRead_iff fixedNames (by decide)]
  have tail : ∀ (c g h j : Str) (k : Orientation → Bool → Justify → Justify → Bool → Bool → Field F),
      (do
        let orientation ← Orientation.new (← charAt c 0)
        let visible ← boolFrom g (str! "V") (str! "I")
        let hjustify ← Justify.new (← charAt h 0)
        let vjustify ← Justify.new (← charAt j 0)
        let italic ← boolFrom (← charAt j 1) 'I' 'N'
        let bold ← boolFrom (← charAt j 2) 'B' 'N'
        Res.ok (k orientation visible hjustify vjustify italic bold)) = .panic ↔
      SymLetterMissing c g h j := by
    intro c g h j k
    unfold SymLetterMissing
    simp only [charAt_bind, hd, hj, h7, h8, h9, and_false, exists_false, or_false,
      Nat.le_zero, List.length_eq_zero_iff]
    refine or_congr Iff.rfl ?_
    constructor
    · rintro ⟨c0, hc, o, ho, v, hv, hh⟩
      cases c with
      | nil => cases hc
      | cons c1 c =>
        cases hc
        refine ⟨⟨_, _, _, rfl, ho⟩, hv.imp And.left And.left, ?_⟩
        rcases hh with hh | ⟨c1, hc, o, ho, hh⟩
        · exact .inl hh
        right
        cases h with
        | nil => cases hc
        | cons c2 h =>
          cases hc
          refine ⟨⟨_, _, _, rfl, ho⟩, ?_⟩
          rcases hh with hh | ⟨c1, hc, o, ho, hh⟩
          · exact .inl hh
          right
          cases j with
          | nil => cases hc
          | cons c2 j =>
            cases hc
            refine ⟨_, ⟨_, _, _, rfl, ho⟩, ?_⟩
            rcases hh with hh | ⟨c1, hc, b, hb, hh⟩
            · left
              cases j with
              | nil => rfl
              | cons => simp at hh
            · right
              match j, hc, hh with
              | [c], hc, hh =>
                cases hc
                rcases hb with ⟨rfl, _⟩ | ⟨rfl, _⟩
                · exact .inl rfl
                · exact .inr rfl
              | _ :: _ :: _, hc, hh => simp at hh
    · rintro ⟨⟨c0, r, o, rfl, ho⟩, hv, hh⟩
      have hv : ∃ b, Choice (str! "V") (str! "I") g b := by
        rcases hv with h | h
        · exact ⟨true, .inl ⟨h, rfl⟩⟩
        · exact ⟨false, .inr ⟨h, rfl⟩⟩
      obtain ⟨v, hv⟩ := hv
      refine ⟨c0, rfl, o, ho, v, hv, ?_⟩
      rcases hh with hh | ⟨⟨c1, r, o, rfl, ho⟩, hh⟩
      · exact .inl hh
      refine .inr ⟨c1, rfl, o, ho, ?_⟩
      rcases hh with hh | ⟨c2, ⟨c3, r, o, e, ho⟩, hh⟩
      · exact .inl hh
      cases e
      rcases hh with rfl | rfl | rfl
      · exact .inr ⟨c2, rfl, o, ho, .inl (by simp)⟩
      · exact .inr ⟨c2, rfl, o, ho, .inr ⟨'I', rfl, true, .inl ⟨rfl, rfl⟩, by simp⟩⟩
      · exact .inr ⟨c2, rfl, o, ho, .inr ⟨'N', rfl, false, .inr ⟨rfl, rfl⟩, by simp⟩⟩
  have fixed : ∀ i, (∃ n, (i, n) ∈ fixedNames) ↔ i ∈ fixedNames.map Prod.fst := by simp
  rw [parseField_eq, bind_panic_quiet (Sch.splitQ_quiet _)]
  constructor
  · rintro ⟨v, hv, h⟩
    rw [C74_split] at hv
    split at h
    · cases h
    · rename_i hl
      have hl : v.length = 9 ∨ v.length = 10 := by omega
      rcases hl with hl | hl
      · match v, hl with
        | [z, a, d, e, f, c, g, i, j], _ =>
          simp only [fieldName, idx, Res.bind_ok, List.getElem?_cons_succ, List.getElem?_cons_zero, List.length_cons,
            List.length_nil, Nat.reduceAdd, Nat.reduceEqDiff, if_false, i64R_bind, f64R_bind, hn, tail] at h
          obtain ⟨n, h1, nm, h2, x, h3, y, h4, s, h5, h6⟩ := h
          exact ⟨_, _, _, _, _, _, _, _, _, [], hv, ⟨n, h1, .inl ⟨rfl, (fixed _).1 ⟨nm, h2⟩⟩⟩, ⟨x, h3⟩, ⟨y, h4⟩, ⟨s, h5⟩, h6⟩
      · match v, hl with
        | [z, a, d, e, f, c, g, i, j, k], _ =>
          simp only [fieldName, idx, Res.bind_ok, List.getElem?_cons_succ, List.getElem?_cons_zero, List.length_cons,
            List.length_nil, Nat.reduceAdd, if_true, i64R_bind, f64R_bind, tail] at h
          obtain ⟨n, h1, x, h3, y, h4, s, h5, h6⟩ := h
          exact ⟨_, _, _, _, _, _, _, _, _, [k], hv, ⟨n, h1, .inr rfl⟩, ⟨x, h3⟩, ⟨y, h4⟩, ⟨s, h5⟩, h6⟩
  · rintro ⟨z, a, d, e, f, c, g, i, j, name, hv, ⟨n, h1, h2⟩, ⟨x, h3⟩, ⟨y, h4⟩, ⟨s, h5⟩, h6⟩
    refine ⟨_, (C74_split ..).2 hv, ?_⟩
    rcases h2 with ⟨rfl, h2⟩ | h2
    · obtain ⟨nm, h2⟩ := (fixed _).2 h2
      rw [if_neg (by simp)]
      simp only [fieldName, idx, Res.bind_ok, List.getElem?_cons_succ, List.getElem?_cons_zero, List.length_cons,
        List.length_nil, Nat.reduceAdd, Nat.reduceEqDiff, if_false, i64R_bind, f64R_bind, hn, tail, List.append_nil,
        List.cons_append, List.nil_append]
      exact ⟨n, h1, nm, h2, x, h3, y, h4, s, h5, h6⟩
    · match name, h2 with
      | [k], _ =>
        rw [if_neg (by simp)]
        simp only [fieldName, idx, Res.bind_ok, List.getElem?_cons_succ, List.getElem?_cons_zero, List.length_cons,
          List.length_nil, Nat.reduceAdd, if_true, i64R_bind, f64R_bind, tail, List.cons_append, List.nil_append]
        exact ⟨n, h1, x, h3, y, h4, s, h5, h6⟩

/-- The lines of a list of fields. -/
def FieldsDone (F : Type) [Flt F] (ls : List Str) : Prop :=
  ∀ l ∈ ls, (∃ r, l = 'F' :: r) ∧ ∃ f : Field F, FieldLine l f

theorem fields_breaks (acc : List (Field F)) (p : List Str) : parseFields acc p = .panic ↔
    ∃ ls rest, p = ls ++ rest ∧ FieldsDone F ls ∧
      (rest = [] ∨ (∃ q, rest = [] :: q) ∨ ∃ r q, rest = ('F' :: r) :: q ∧ ShortSymField F ('F' :: r)) := by
  induction p generalizing acc with
  | nil => exact iff_of_true rfl ⟨[], [], rfl, by simp [FieldsDone], .inl rfl⟩
  | cons s p ih =>
    rw [parseFields]
    cases s with
    | nil => exact iff_of_true rfl ⟨[], _, rfl, by simp [FieldsDone], .inr (.inl ⟨p, rfl⟩)⟩
    | cons c r =>
      rw [show charAt (c :: r) 0 = .ok c from rfl, Res.bind_ok]
      by_cases hc : c = 'F'
      · subst hc
        rw [if_pos rfl, Res.bind_eq_panic, field_breaks]
        constructor
        · rintro (h | ⟨f, hf, h⟩)
          · exact ⟨[], _, rfl, by simp [FieldsDone], .inr (.inr ⟨r, p, rfl, h⟩)⟩
          · obtain ⟨ls, rest, rfl, hd, hr⟩ := (ih _).1 h
            refine ⟨_ :: ls, rest, rfl, ?_, hr⟩
            intro l hl
            rcases List.mem_cons.1 hl with rfl | hl
            · exact ⟨⟨r, rfl⟩, f, (field_iff ..).1 hf⟩
            · exact hd l hl
        · rintro ⟨ls, rest, e, hd, hr⟩
          cases ls with
          | nil =>
            rw [List.nil_append] at e
            subst e
            rcases hr with h | ⟨q, h⟩ | ⟨r', q, h, hs⟩
            · cases h
            · cases h
            · cases h
              exact .inl hs
          | cons l ls =>
            simp only [List.cons_append, List.cons.injEq] at e
            obtain ⟨rfl, rfl⟩ := e
            obtain ⟨_, f, hf⟩ := hd _ List.mem_cons_self
            exact .inr ⟨f, (field_iff ..).2 hf, (ih _).2 ⟨ls, rest, rfl, fun l hl => hd l (List.mem_cons_of_mem _ hl), hr⟩⟩
      · rw [if_neg hc]
        refine iff_of_false (by simp) ?_
        rintro ⟨ls, rest, e, hd, hr⟩
        cases ls with
        | nil =>
          rw [List.nil_append] at e
          subst e
          rcases hr with h | ⟨q, h⟩ | ⟨r', q, h, hs⟩
          · cases h
          · cases h
          · cases h
            exact hc rfl
        | cons l ls =>
          simp only [List.cons_append, List.cons.injEq] at e
          obtain ⟨⟨r', e1⟩, _⟩ := hd _ List.mem_cons_self
          rw [← e.1] at e1
          exact hc (List.cons.inj e1).1

theorem skip_nil (p : List Str) : skipFplist p = [] ↔ str! "$ENDFPLIST" ∉ p.dropLast := by
  refine ⟨skipFplist_nil, ?_⟩
  induction p with
  | nil => intro _; rfl
  | cons s p ih =>
    intro h
    rw [skipFplist]
    cases p with
    | nil => split <;> rfl
    | cons t p =>
      rw [List.dropLast_cons_cons, List.mem_cons, not_or] at h
      rw [if_neg (fun e => h.1 e.symm)]
      exact ih h.2

theorem aliases_breaks (p : List Str) : parseAliases p = .panic ↔ p = [] := by
  refine ⟨parseAliases_panic, ?_⟩
  rintro rfl
  rfl

theorem fieldsDone_iff (ls : List Str) : FieldsDone F ls ↔
    ∃ gs, List.Forall₂ (fun l f => (∃ r, l = 'F' :: r) ∧ FieldLine (F := F) l f) ls gs := by
  constructor
  · intro h
    induction ls with
    | nil => exact ⟨[], .nil⟩
    | cons l ls ih =>
      obtain ⟨h1, f, h2⟩ := h l List.mem_cons_self
      obtain ⟨gs, hg⟩ := ih fun l hl => h l (List.mem_cons_of_mem _ hl)
      exact ⟨f :: gs, .cons ⟨h1, h2⟩ hg⟩
  · rintro ⟨gs, h⟩
    induction h with
    | nil => simp [FieldsDone]
    | cons h _ ih =>
      intro l hl
      rcases List.mem_cons.1 hl with rfl | hl
      · exact ⟨h.1, _, h.2⟩
      · exact ih l hl

/-- The rest of a symbol after its fields makes the reader panic only in the list of
footprint filters. -/
theorem symbol_breaks (p : List Str) : (parseSymbol p : Res (Symbol F × List Str)) = .panic ↔ SymbolBreaks F p := by
  have key : (parseSymbol p : Res (Symbol F × List Str)) = .panic ↔ ∃ x q, p = x :: str! "#" :: q ∧
      (q = [] ∨ ∃ d r, q = d :: r ∧ (∃ s : Symbol F, DefLine d s) ∧
        ((parseFields [] r : Res (List (Field F) × List Str)) = .panic ∨
          ∃ fs : List (Field F), ∃ b, parseFields [] r = .ok (fs, str! "$FPLIST" :: b) ∧ skipFplist b = [])) := by
    unfold parseSymbol
    rw [bind_panic_quiet (assumeLine_quiet _ _)]
    constructor
    · rintro ⟨q, h1, h⟩
      rw [assume_iff] at h1
      cases p with
      | nil => simp [next] at h1
      | cons x p =>
        simp only [next, List.drop_succ_cons, List.drop_zero] at h1
        subst h1
        refine ⟨x, q, rfl, ?_⟩
        cases q with
        | nil => exact .inl rfl
        | cons d r =>
          refine .inr ⟨d, r, rfl, ?_⟩
          rw [show here (d :: r) = .ok d from rfl, Res.bind_ok, bind_panic_quiet (parseDef_quiet _)] at h
          obtain ⟨s, hs, h⟩ := h
          refine ⟨⟨s, (def_iff ..).1 ⟨s, hs, rfl⟩⟩, ?_⟩
          rw [show next (d :: r) = r from rfl, Res.bind_eq_panic] at h
          rcases h with h | ⟨⟨fs, p2⟩, hf, h⟩
          · exact .inl h
          right
          obtain ⟨ls, gs, h2, e2, h3, c, t, u, rfl, hc⟩ := (fields_iff ..).1 hf
          dsimp only at h
          rw [show here ((c :: t) :: u) = .ok (c :: t) from rfl, Res.bind_ok] at h
          rw [Res.bind_eq_panic, aliases_breaks] at h
          rcases h with h | ⟨⟨as, p3⟩, ha, h⟩
          · split at h
            · rename_i e
              rw [e] at hf
              exact ⟨fs, u, hf, h⟩
            · cases h
          · dsimp only at h
            rw [bind_panic_quiet (assumeLine_quiet _ _)] at h
            obtain ⟨p4, _, h⟩ := h
            rw [bind_panic_quiet (parseDraws_quiet _ _)] at h
            obtain ⟨⟨ds, p5⟩, _, h⟩ := h
            dsimp only at h
            rw [bind_panic_quiet (assumeLine_quiet _ _)] at h
            obtain ⟨p6, _, h⟩ := h
            rw [bind_panic_quiet (assumeLine_quiet _ _)] at h
            obtain ⟨p7, _, h⟩ := h
            cases h
    · rintro ⟨x, q, rfl, h⟩
      refine ⟨q, (assume_iff ..).2 rfl, ?_⟩
      rcases h with rfl | ⟨d, r, rfl, ⟨s, hs⟩, h⟩
      · rfl
      · obtain ⟨t, ht, _⟩ := (def_iff ..).2 hs
        rw [show here (d :: r) = .ok d from rfl, Res.bind_ok, ht, Res.bind_ok, show next (d :: r) = r from rfl]
        rcases h with h | ⟨fs, b, hf, hb⟩
        · rw [h]
          rfl
        · rw [hf, Res.bind_ok]
          dsimp only
          rw [show here (str! "$FPLIST" :: b) = .ok (str! "$FPLIST") from rfl, Res.bind_ok, if_pos rfl,
            show next (str! "$FPLIST" :: b) = b from rfl, hb]
          rfl
  rw [key]
  constructor
  · rintro ⟨x, q, rfl, rfl | ⟨d, r, rfl, hd, h⟩⟩
    · exact .comment
    · rcases h with h | ⟨fs, b, hf, hb⟩
      · obtain ⟨ls, rest, rfl, hl, h'⟩ := (fields_breaks ..).1 h
        have hs : SymbolStart F (x :: str! "#" :: d :: ls) := ⟨x, d, ls, rfl, hd, hl⟩
        rcases h' with rfl | ⟨q, rfl⟩ | ⟨r, q, rfl, h'⟩
        · rw [List.append_nil]
          exact .cut hs
        · exact .empty (ls := x :: str! "#" :: d :: ls) hs
        · exact .field (ls := x :: str! "#" :: d :: ls) hs h'
      · obtain ⟨ls, gs, rfl, _, h3, _⟩ := (fields_iff ..).1 hf
        exact .filters (ls := x :: str! "#" :: d :: ls) ⟨x, d, ls, rfl, hd, (fieldsDone_iff _).2 ⟨gs, h3⟩⟩ ((skip_nil b).1 hb)
  · intro h
    cases h with
    | @comment x => exact ⟨x, [], rfl, .inl rfl⟩
    | cut h =>
      obtain ⟨x, d, fields, rfl, hd, hf⟩ := h
      exact ⟨x, _, rfl, .inr ⟨d, _, rfl, hd, .inl ((fields_breaks ..).2 ⟨fields, [], by simp, hf, .inl rfl⟩)⟩⟩
    | @empty _ rest h =>
      obtain ⟨x, d, fields, rfl, hd, hf⟩ := h
      exact ⟨x, _, rfl, .inr ⟨d, _, rfl, hd, .inl ((fields_breaks ..).2 ⟨fields, _, rfl, hf, .inr (.inl ⟨_, rfl⟩)⟩)⟩⟩
    | @field _ r rest h hs =>
      obtain ⟨x, d, fields, rfl, hd, hf⟩ := h
      exact ⟨x, _, rfl, .inr ⟨d, _, rfl, hd, .inl ((fields_breaks ..).2 ⟨fields, _, rfl, hf, .inr (.inr ⟨_, _, rfl, hs⟩)⟩)⟩⟩
    | @filters _ b h hb =>
      obtain ⟨x, d, fields, rfl, hd, hf⟩ := h
      obtain ⟨gs, hg⟩ := (fieldsDone_iff fields).1 hf
      exact ⟨x, _, rfl, .inr ⟨d, _, rfl, hd, .inr ⟨gs, b, (fields_iff ..).2 ⟨fields, gs, rfl, by simp, hg, _, _, _, rfl, by decide⟩,
        (skip_nil b).2 hb⟩⟩⟩

theorem symbols_breaks (n : Nat) (acc : List (Symbol F)) (p : List Str) (hn : p.length ≤ n) :
    parseSymbols n acc p = .panic ↔ ∃ (symbols : List (List Str)) (b : List Str), p = symbols.flatten ++ b ∧
      (∀ a ∈ symbols, (∃ s : Symbol F, SymbolLines a s) ∧ a.head? ≠ some (str! "#End Library")) ∧
      SymbolBreaks F b ∧ b.head? ≠ some (str! "#End Library") := by
  have hne : ∀ {a : List Str} {s : Symbol F}, SymbolLines a s → ∃ x y, a = x :: y := by
    rintro a s ⟨x, _, _, _, _, _, rfl, _⟩
    exact ⟨_, _, rfl⟩
  have hbne : ∀ {b : List Str}, SymbolBreaks F b → ∃ x y, b = x :: y := by
    intro b h
    have : ∀ {ls : List Str}, SymbolStart F ls → ∃ x y, ls = x :: y := by
      rintro ls ⟨x, d, fs, rfl, _⟩
      exact ⟨_, _, rfl⟩
    cases h with
    | comment => exact ⟨_, _, rfl⟩
    | cut h => exact this h
    | empty h => obtain ⟨x, y, rfl⟩ := this h; exact ⟨_, _, rfl⟩
    | field h => obtain ⟨x, y, rfl⟩ := this h; exact ⟨_, _, rfl⟩
    | filters h => obtain ⟨x, y, rfl⟩ := this h; exact ⟨_, _, rfl⟩
  induction n generalizing acc p with
  | zero =>
    cases p with
    | cons => simp at hn
    | nil =>
      refine iff_of_false (by simp [parseSymbols]) ?_
      rintro ⟨symbols, b, h, _, hb, _⟩
      obtain ⟨x, y, rfl⟩ := hbne hb
      simp at h
  | succ n ih =>
    cases p with
    | nil =>
      refine iff_of_false (by simp [parseSymbols]) ?_
      rintro ⟨symbols, b, h, _, hb, _⟩
      obtain ⟨x, y, rfl⟩ := hbne hb
      simp at h
    | cons l p =>
      rw [parseSymbols]
      constructor
      · intro h
        split at h
        · cases h
        · rename_i hl
          rcases Res.bind_eq_panic.1 h with h' | ⟨⟨s, q⟩, hp, h'⟩
          · exact ⟨[], _, rfl, by simp, (symbol_breaks _).1 h', by simpa using hl⟩
          · obtain ⟨a, ha, hs⟩ := (symbol_iff ..).1 hp
            obtain ⟨x, y, rfl⟩ := hne hs
            simp only [List.cons_append, List.cons.injEq] at ha
            obtain ⟨rfl, rfl⟩ := ha
            have hlen : q.length ≤ n := by
              simp at hn
              omega
            obtain ⟨symbols, b, rfl, h1, h2, h3⟩ := (ih _ _ hlen).1 h'
            refine ⟨(l :: y) :: symbols, b, by simp, ?_, h2, h3⟩
            intro a ha
            rcases List.mem_cons.1 ha with rfl | ha
            · exact ⟨⟨s, hs⟩, by simpa using hl⟩
            · exact h1 a ha
      · rintro ⟨symbols, b, h, h1, h2, h3⟩
        cases symbols with
        | nil =>
          simp only [List.flatten_nil, List.nil_append] at h
          subst h
          rw [if_neg (by simpa using h3), (symbol_breaks _).2 h2]
          rfl
        | cons a symbols =>
          obtain ⟨⟨s, hs⟩, hh⟩ := h1 a List.mem_cons_self
          obtain ⟨x, y, rfl⟩ := hne hs
          simp only [List.flatten_cons, List.cons_append, List.append_assoc, List.cons.injEq] at h
          obtain ⟨rfl, rfl⟩ := h
          rw [if_neg (by simpa using hh), (symbol_iff (l :: (y ++ (symbols.flatten ++ b))) (symbols.flatten ++ b) s).2 ⟨l :: y, rfl, hs⟩, Res.bind_ok]
          refine (ih _ _ ?_).2 ⟨symbols, b, rfl, fun a ha => h1 a (List.mem_cons_of_mem _ ha), h2, h3⟩
          simp at hn ⊢
          omega

theorem lines_breaks (ls : List Str) : (parseLines ls : Res (SymbolLib F)) = .panic ↔ LibraryPanics F ls := by
  unfold parseLines
  simp only [bind_panic_quiet (assumeLine_quiet _ _), assume_iff, Res.bind_eq_panic, reduceCtorEq, and_false,
    exists_false, or_false, symbols_breaks _ _ _ (Nat.le_refl _)]
  constructor
  · rintro ⟨_, rfl, _, rfl, _, rfl, symbols, b, rfl, h⟩
    exact ⟨symbols, b, rfl, h⟩
  · rintro ⟨symbols, b, rfl, h⟩
    exact ⟨_, rfl, _, rfl, _, rfl, symbols, b, rfl, h⟩

end Verif.Lib
