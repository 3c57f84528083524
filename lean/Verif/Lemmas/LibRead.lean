import Verif.Spec.SymbolResave
import Verif.Lemmas.LibCodec
import Verif.Lemmas.SchBack
/-!
# What a symbol library that was read looks like
-/

set_option linter.unusedSectionVars false
set_option linter.unusedSimpArgs false

namespace Verif
open Flt Spec

/-- The parts of a text without quotes are words, when all of it is split. -/
theorem splitQ_word {s : Str} {v : List Str} (h : splitQ s = .ok v) (hq : '"' ∉ s) {i : Nat} {w : Str}
    (hw : Sch.idx v i = .ok w) (hs : '\n' ∉ s) : Word w := by
  have hquot := splitQ_part h hw hs
  refine ⟨?_, hquot, ?_⟩
  all_goals
    have hv : v = splitFinish (s.foldl (splitStep none) ⟨0, [], false, false, []⟩) := by
      unfold splitQ splitInt at h
      exact (Res.ok.inj h).symm
    have hinv := split_bareInv none s hq ⟨0, [], false, false, []⟩ ⟨rfl, by simp, rfl, rfl, by simp⟩
    generalize s.foldl (splitStep none) ⟨0, [], false, false, []⟩ = st at hv hinv
    obtain ⟨h1, h2, _, h4, h5⟩ := hinv
    have hw' : v[i]? = some w := by
      unfold Sch.idx at hw
      split at hw
      · cases hw; assumption
      · cases hw
    have key : w ≠ [] ∧ ' ' ∉ w := by
      unfold splitFinish at hv
      rw [h4] at hv
      split at hv
      · rename_i hne
        subst hv
        simp only [List.reverse_cons] at hw'
        by_cases hlt : i < st.v.reverse.length
        · rw [List.getElem?_append_left hlt] at hw'
          exact h2 w (by simpa using List.mem_of_getElem? hw')
        · rw [List.getElem?_append_right (by omega)] at hw'
          have hlen : i = st.i := by
            simp only [List.length_reverse] at hlt hw'
            rw [List.getElem?_eq_some_iff] at hw'
            obtain ⟨hlt2, _⟩ := hw'
            simp only [List.length_cons, List.length_nil] at hlt2
            omega
          have he : st.cur.reverse = w := by
            have := List.mem_of_getElem? hw'
            rw [List.mem_singleton] at this
            exact this.symm
          subst he
          have : none ≠ some st.i := fun e => by cases e
          exact ⟨by simpa using hne, by simpa using h5 this⟩
      · subst hv
        exact h2 w (by simpa using List.mem_of_getElem? hw')
  · exact key.1
  · exact key.2

namespace Lib
open Verif.Sch (here next assumeLine charAt i64R f64R boolFrom assumeString idx Orientation Justify i64R_range)

variable {F : Type} [Flt F]

variable {ch : Char} [LineBreak ch]

theorem parseField_read {line : Str} {f : Field F} (hl : ch ∉ line) (h : parseField line = .ok f) :
    ReadFieldBut ch f := by
  unfold parseField at h
  obtain ⟨v, hv, h⟩ := Res.bind_eq_ok.1 h
  have hq : ∀ i w, idx v i = .ok w → QuotBut ch w := fun i w hw => splitQ_part hv hw hl
  split at h
  · cases h
  obtain ⟨v0, _, h⟩ := Res.bind_eq_ok.1 h
  obtain ⟨i, hi, h⟩ := Res.bind_eq_ok.1 h
  have key : ∀ name, QuotBut ch name → (do
      let value ← idx v 1
      let x ← f64R (← idx v 2)
      let y ← f64R (← idx v 3)
      let dimension ← i64R (← idx v 4)
      let orientation ← Orientation.new (← charAt (← idx v 5) 0)
      let visible ← boolFrom (← idx v 6) (str! "V") (str! "I")
      let hjustify ← Justify.new (← charAt (← idx v 7) 0)
      let vjustify ← Justify.new (← charAt (← idx v 8) 0)
      let italic ← boolFrom (← charAt (← idx v 8) 1) 'I' 'N'
      let bold ← boolFrom (← charAt (← idx v 8) 2) 'B' 'N'
      Res.ok ({ i, value, x, y, dimension, orientation, visible, hjustify, vjustify, italic, bold, name } : Field F)) =
        .ok f → ReadFieldBut ch f := by
    intro name hn h
    obtain ⟨value, h1, h⟩ := Res.bind_eq_ok.1 h
    obtain ⟨_, _, h⟩ := Res.bind_eq_ok.1 h
    obtain ⟨x, _, h⟩ := Res.bind_eq_ok.1 h
    obtain ⟨_, _, h⟩ := Res.bind_eq_ok.1 h
    obtain ⟨y, _, h⟩ := Res.bind_eq_ok.1 h
    obtain ⟨_, _, h⟩ := Res.bind_eq_ok.1 h
    obtain ⟨dim, hd, h⟩ := Res.bind_eq_ok.1 h
    simp only [Res.bind_eq_ok] at h
    obtain ⟨_, _, _, _, o, _, _, _, vis, _, _, _, _, _, hj, _, _, _, _, _, vj, _, _, _, _, _, it, _, _, _, _, _, bo, _, h⟩ := h
    cases h
    exact ⟨i64R_range hi, i64R_range hd, hq _ _ h1, hn⟩
  split at h
  · obtain ⟨name, hn, h⟩ := Res.bind_eq_ok.1 h
    exact key name (hq _ _ hn) h
  split at h
  · exact key _ (by brk) h
  split at h
  · exact key _ (by brk) h
  split at h
  · exact key _ (by brk) h
  split at h
  · exact key _ (by brk) h
  · cases h

/-- The names in a pin line are parts of the line; everything else is in range. -/
theorem parsePin_parts {line : Str} {p : Pin} (h : parsePin line = .ok p) (P : Str → Prop)
    (hP : ∀ v i w, splitQ line = .ok v → idx v i = .ok w → P w) :
    P p.name ∧ P p.number ∧ inI64 p.x ∧ inI64 p.y ∧ inI64 p.len ∧ inI64 p.numSize ∧ inI64 p.nameSize ∧
      inI64 p.unit ∧ inI64 p.convert := by
  unfold parsePin at h
  obtain ⟨v, hv, h⟩ := Res.bind_eq_ok.1 h
  split at h
  · cases h
  obtain ⟨name, h1, h⟩ := Res.bind_eq_ok.1 h
  obtain ⟨number, h2, h⟩ := Res.bind_eq_ok.1 h
  obtain ⟨_, _, h⟩ := Res.bind_eq_ok.1 h
  obtain ⟨x, h3, h⟩ := Res.bind_eq_ok.1 h
  obtain ⟨_, _, h⟩ := Res.bind_eq_ok.1 h
  obtain ⟨y, h4, h⟩ := Res.bind_eq_ok.1 h
  obtain ⟨_, _, h⟩ := Res.bind_eq_ok.1 h
  obtain ⟨len, h5, h⟩ := Res.bind_eq_ok.1 h
  obtain ⟨_, _, h⟩ := Res.bind_eq_ok.1 h
  obtain ⟨o, _, h⟩ := Res.bind_eq_ok.1 h
  obtain ⟨_, _, h⟩ := Res.bind_eq_ok.1 h
  obtain ⟨ns, h7, h⟩ := Res.bind_eq_ok.1 h
  obtain ⟨_, _, h⟩ := Res.bind_eq_ok.1 h
  obtain ⟨nas, h8, h⟩ := Res.bind_eq_ok.1 h
  obtain ⟨_, _, h⟩ := Res.bind_eq_ok.1 h
  obtain ⟨u, h9, h⟩ := Res.bind_eq_ok.1 h
  obtain ⟨_, _, h⟩ := Res.bind_eq_ok.1 h
  obtain ⟨c, h10, h⟩ := Res.bind_eq_ok.1 h
  obtain ⟨_, _, h⟩ := Res.bind_eq_ok.1 h
  obtain ⟨pt, _, h⟩ := Res.bind_eq_ok.1 h
  have hall := And.intro (hP v 1 name hv h1) (And.intro (hP v 2 number hv h2) (And.intro (i64R_range h3) (And.intro (i64R_range h4)
    (And.intro (i64R_range h5) (And.intro (i64R_range h7) (And.intro (i64R_range h8)
      (And.intro (i64R_range h9) (i64R_range h10))))))))
  split at h
  · obtain ⟨s, _, h⟩ := Res.bind_eq_ok.1 h
    obtain ⟨sh, _, h⟩ := Res.bind_eq_ok.1 h
    cases h
    exact hall
  · cases h
    exact hall

theorem parseRect_read {line : Str} {r : Rectangle} (h : parseRect line = .ok r) : FitsRect r := by
  unfold parseRect at h
  obtain ⟨v, hv, h⟩ := Res.bind_eq_ok.1 h
  split at h
  · cases h
  simp only [Res.bind_eq_ok] at h
  obtain ⟨_, _, _, h1, _, _, _, h2, _, _, _, h3, _, _, _, h4, _, _, _, h5, _, _, _, h6, _, _, _, h7, _, _, _, _, h⟩ := h
  cases h
  exact ⟨i64R_range h1, i64R_range h2, i64R_range h3, i64R_range h4, i64R_range h5, i64R_range h6, i64R_range h7⟩

theorem parseDrawLine_read {line : Str} {d : Draw} (hl : ch ∉ line) (hne : line ≠ str! "ENDDRAW")
    (h : parseDrawLine line = .ok d) : ReadDrawBut ch d := by
  unfold parseDrawLine at h
  split at h
  · obtain ⟨p, hp, h⟩ := Res.bind_eq_ok.1 h
    cases h
    exact parsePin_parts hp (QuotBut ch) fun v i w hv hw => splitQ_part hv hw hl
  rename_i h1
  split at h
  · obtain ⟨p, hp, h⟩ := Res.bind_eq_ok.1 h
    cases h
    exact parseRect_read hp
  rename_i h2
  cases h
  exact ⟨hl, by simpa using h1, by simpa using h2, hne⟩

theorem parseFields_read {acc : List (Field F)} {p p' : List Str} {fs : List (Field F)}
    (hp : ∀ l ∈ p, ch ∉ l) (ha : ∀ f ∈ acc, ReadFieldBut ch f) (h : parseFields acc p = .ok (fs, p')) :
    (∀ f ∈ fs, ReadFieldBut ch f) ∧ (∀ l ∈ p', ch ∉ l) := by
  induction p generalizing acc with
  | nil => cases h
  | cons s rest ih =>
    rw [parseFields] at h
    obtain ⟨c, _, h⟩ := Res.bind_eq_ok.1 h
    rw [List.forall_mem_cons] at hp
    split at h
    · obtain ⟨f, hf, h⟩ := Res.bind_eq_ok.1 h
      refine ih hp.2 ?_ h
      simp only [List.mem_append, List.mem_singleton]
      rintro g (hg | rfl)
      · exact ha g hg
      · exact parseField_read hp.1 hf
    · cases h
      exact ⟨ha, List.forall_mem_cons.2 hp⟩

theorem parseDraws_read {acc : List Draw} {p p' : List Str} {ds : List Draw}
    (hp : ∀ l ∈ p, ch ∉ l) (ha : ∀ f ∈ acc, ReadDrawBut ch f) (h : parseDraws acc p = .ok (ds, p')) :
    (∀ f ∈ ds, ReadDrawBut ch f) ∧ (∀ l ∈ p', ch ∉ l) := by
  induction p generalizing acc with
  | nil => cases h; exact ⟨ha, by simp⟩
  | cons s rest ih =>
    rw [parseDraws] at h
    rw [List.forall_mem_cons] at hp
    split at h
    · cases h
      exact ⟨ha, hp.2⟩
    · rename_i hne
      obtain ⟨d, hd, h⟩ := Res.bind_eq_ok.1 h
      refine ih hp.2 ?_ h
      simp only [List.mem_append, List.mem_singleton]
      rintro g (hg | rfl)
      · exact ha g hg
      · exact parseDrawLine_read hp.1 hne hd

/-- The name and reference of a symbol are parts of the `DEF` line. -/
theorem parseDef_parts {line : Str} {s : Symbol F} (h : parseDef line = .ok s) (P : Str → Prop)
    (hP : ∀ v i w, splitQ line = .ok v → idx v i = .ok w → P w) :
    P s.name ∧ P s.reference ∧ inI64 s.unitCount := by
  unfold parseDef at h
  obtain ⟨v, hv, h⟩ := Res.bind_eq_ok.1 h
  split at h
  · cases h
  obtain ⟨_, _, h⟩ := Res.bind_eq_ok.1 h
  obtain ⟨_, _, h⟩ := Res.bind_eq_ok.1 h
  obtain ⟨n, h1, h⟩ := Res.bind_eq_ok.1 h
  obtain ⟨r, h2, h⟩ := Res.bind_eq_ok.1 h
  simp only [Res.bind_eq_ok] at h
  obtain ⟨_, _, _, _, _, _, _, _, _, _, _, _, _, _, _, hu, _, _, _, _, _, _, _, _, h⟩ := h
  cases h
  exact ⟨hP v 1 n hv h1, hP v 2 r hv h2, i64R_range hu⟩

theorem parseAliases_parts {p p' : List Str} {as : List Str} (h : parseAliases p = .ok (as, p')) (P : Str → Prop)
    (hP : ∀ s v i w, s ∈ p → splitQ s = .ok v → idx v i = .ok w → P w) :
    (∀ a ∈ as, P a) ∧ (p' = p ∨ p' = next p) := by
  unfold parseAliases at h
  obtain ⟨s, hs, h⟩ := Res.bind_eq_ok.1 h
  split at h
  · obtain ⟨v, hv, h⟩ := Res.bind_eq_ok.1 h
    cases h
    refine ⟨?_, Or.inr rfl⟩
    intro a ha
    have hm : s ∈ p := by
      cases p with
      | nil => cases hs
      | cons x p => cases hs; exact List.mem_cons_self
    obtain ⟨i, hi⟩ := List.mem_iff_getElem?.1 (List.mem_of_mem_drop ha)
    exact hP s v i a hm hv (by unfold idx; rw [hi])
  · cases h
    exact ⟨by simp, Or.inl rfl⟩

theorem skipFplist_sub (p : List Str) : ∀ l ∈ skipFplist p, l ∈ p := by
  induction p with
  | nil => simp [skipFplist]
  | cons s p ih =>
    intro l hl
    rw [skipFplist] at hl
    split at hl
    · exact List.mem_cons_of_mem _ hl
    · exact List.mem_cons_of_mem _ (ih l hl)

theorem next_sub (p : List Str) : ∀ l ∈ next p, l ∈ p := fun _ h => List.mem_of_mem_drop h

theorem assumeLine_ok {e : Str} {p p' : List Str} (h : assumeLine e p = .ok p') : p = e :: p' := by
  unfold assumeLine at h
  split at h
  · cases h
  · split at h
    · cases h
    · rename_i hne
      cases h
      simpa using hne

theorem assumeLine_sub {e : Str} {p p' : List Str} (h : assumeLine e p = .ok p') : ∀ l ∈ p', l ∈ p := by
  rw [assumeLine_ok h]
  exact fun l hl => List.mem_cons_of_mem _ hl

theorem parseSymbol_read {p p' : List Str} {s : Symbol F} (hp : ∀ l ∈ p, ch ∉ l)
    (h : parseSymbol p = .ok (s, p')) : ReadSymbolBut ch s ∧ (∀ l ∈ p', ch ∉ l) := by
  unfold parseSymbol at h
  obtain ⟨p1, h1, h⟩ := Res.bind_eq_ok.1 h
  have hp1 : ∀ l ∈ p1, ch ∉ l := fun l hl => hp l (next_sub _ _ (assumeLine_sub h1 l hl))
  obtain ⟨l, hl, h⟩ := Res.bind_eq_ok.1 h
  have hlm : l ∈ p1 := by
    cases p1 with
    | nil => cases hl
    | cons x p => cases hl; exact List.mem_cons_self
  obtain ⟨s0, hs0, h⟩ := Res.bind_eq_ok.1 h
  obtain ⟨⟨fields, p2⟩, hf, h⟩ := Res.bind_eq_ok.1 h
  obtain ⟨hfr, hp2⟩ := parseFields_read (fun l hl => hp1 l (next_sub _ _ hl)) (by simp) hf
  simp only at h
  obtain ⟨h', _, h⟩ := Res.bind_eq_ok.1 h
  generalize hp3e : (if h' = str! "$FPLIST" then skipFplist (next p2) else p2) = p3 at h
  have hp3 : ∀ l ∈ p3, ch ∉ l := by
    intro l hl
    rw [← hp3e] at hl
    split at hl
    · exact hp2 l (next_sub _ _ (skipFplist_sub _ l hl))
    · exact hp2 l hl
  obtain ⟨⟨aliases, p4⟩, ha, h⟩ := Res.bind_eq_ok.1 h
  simp only at h
  obtain ⟨har, hp4⟩ := parseAliases_parts ha (QuotBut ch) fun s v i w hs hv hw => splitQ_part hv hw (hp3 s hs)
  have hp4' : ∀ l ∈ p4, ch ∉ l := by
    rcases hp4 with rfl | rfl
    · exact hp3
    · exact fun l hl => hp3 l (next_sub _ _ hl)
  obtain ⟨p5, h5, h⟩ := Res.bind_eq_ok.1 h
  obtain ⟨⟨draw, p6⟩, hd, h⟩ := Res.bind_eq_ok.1 h
  obtain ⟨hdr, hp6⟩ := parseDraws_read (fun l hl => hp4' l (assumeLine_sub h5 l hl)) (by simp) hd
  simp only at h
  obtain ⟨p7, h7, h⟩ := Res.bind_eq_ok.1 h
  obtain ⟨p8, h8, h⟩ := Res.bind_eq_ok.1 h
  cases h
  obtain ⟨a1, a2, a3⟩ := parseDef_parts hs0 (QuotBut ch) fun v i w hv hw => splitQ_part hv hw (hp1 l hlm)
  exact ⟨⟨a1, a2, a3, hfr, har, hdr⟩, fun l hl => hp6 l (assumeLine_sub h7 l (assumeLine_sub h8 l hl))⟩

theorem parseSymbols_read {n : Nat} {acc ss : List (Symbol F)} {p : List Str} (hp : ∀ l ∈ p, ch ∉ l)
    (ha : ∀ s ∈ acc, ReadSymbolBut ch s) (h : parseSymbols n acc p = .ok ss) : ∀ s ∈ ss, ReadSymbolBut ch s := by
  induction n generalizing acc p with
  | zero =>
    cases p with
    | nil => cases h; exact ha
    | cons x p => cases h
  | succ n ih =>
    cases p with
    | nil => cases h; exact ha
    | cons x p =>
      rw [parseSymbols] at h
      split at h
      · cases h; exact ha
      · obtain ⟨⟨s, p1⟩, hs, h⟩ := Res.bind_eq_ok.1 h
        obtain ⟨b1, b2⟩ := parseSymbol_read hp hs
        refine ih b2 ?_ h
        simp only [List.mem_append, List.mem_singleton]
        rintro g (hg | rfl)
        · exact ha g hg
        · exact b1

/-- What the reader guarantees for a library. -/
theorem parseLines_read {p : List Str} {l : SymbolLib F} (hp : ∀ x ∈ p, ch ∉ x) (h : parseLines p = .ok l) :
    ∀ s ∈ l.symbols, ReadSymbolBut ch s := by
  unfold parseLines at h
  obtain ⟨p1, h1, h⟩ := Res.bind_eq_ok.1 h
  obtain ⟨p2, h2, h⟩ := Res.bind_eq_ok.1 h
  obtain ⟨p3, h3, h⟩ := Res.bind_eq_ok.1 h
  obtain ⟨ss, hs, h⟩ := Res.bind_eq_ok.1 h
  cases h
  exact parseSymbols_read
    (fun x hx => hp x (assumeLine_sub h1 x (assumeLine_sub h2 x (assumeLine_sub h3 x hx)))) (by simp) hs

/-- Of what was read, exactly what the file can hold fits the format. -/
theorem line_iff_writable (s : Symbol F) (hr : ReadSymbol s) :
    (LineSymbol s ∧ ∀ f ∈ s.fields, f.bold = false) ↔ WritableSymbol s := by
  obtain ⟨h1, h2, h3, h4, h5, h6⟩ := hr
  constructor
  · rintro ⟨⟨a1, a2, a3, a4, a5, a6, a7⟩, hb⟩
    refine ⟨a1, a2, a4, fun f hf => ⟨hb f hf, (a5 f hf).1, (a5 f hf).2.2.2.2.2⟩, a6, ?_⟩
    intro d hd
    have := a7 d hd
    cases d with
    | pin p => exact ⟨this.1, this.2.1⟩
    | rectangle r => trivial
    | other s => trivial
  · rintro ⟨a1, a2, a4, a5, a6, a7⟩
    refine ⟨⟨a1, a2, h3, a4, ?_, a6, ?_⟩, fun f hf => (a5 f hf).1⟩
    · intro f hf
      obtain ⟨b1, b2, b3, b4⟩ := h4 f hf
      exact ⟨(a5 f hf).2.1, b1, b2, b3, b4, (a5 f hf).2.2⟩
    · intro d hd
      have hr := h6 d hd
      have hw := a7 d hd
      cases d with
      | pin p => exact ⟨hw.1, hw.2, hr.2.2⟩
      | rectangle r => exact hr
      | other s => exact hr

end Lib
end Verif
