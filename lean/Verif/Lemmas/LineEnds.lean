import Verif.Spec.LineEnds
import Verif.Lemmas.Lines
/-!
# Lemmas: line ends
-/

namespace Verif.Ends
open Verif Spec

theorem crlf_cons (c : Char) (t : Str) : crlf (c :: t) = (if c = '\n' then ['\r', '\n'] else [c]) ++ crlf t := rfl

theorem crlf_append (a b : Str) : crlf (a ++ b) = crlf a ++ crlf b := List.flatMap_append

theorem crlf_id (t : Str) : crlf t = t ↔ '\n' ∉ t := by
  induction t with
  | nil => simp [crlf]
  | cons c t ih =>
    rw [crlf_cons]
    by_cases h : c = '\n'
    · subst h
      simp only [if_true, List.cons_append, List.nil_append, List.mem_cons, true_or, not_true, iff_false]
      intro hx
      exact absurd (List.cons.inj hx).1 (by decide)
    · rw [if_neg h]
      simp only [List.cons_append, List.nil_append, List.cons.injEq, true_and, ih, List.mem_cons, not_or]
      exact ⟨fun hx => ⟨fun e => h e.symm, hx⟩, fun hx => hx.2⟩

theorem endsLine_of_strip {s : Str} (h : stripCr s = s) : EndsLine s := by
  intro hx
  obtain ⟨a, rfl⟩ := List.getLast?_eq_some_iff.1 hx
  rw [stripCr_append] at h
  have := congrArg List.length h
  simp at this

theorem linesAux_crlf (t : Str) : ∀ cur : Str, '\n' ∉ cur →
    (linesAux cur (crlf t) = linesAux cur t ↔ PlainEnds (cur.reverse ++ t)) := by
  induction t with
  | nil =>
    intro cur hc
    refine ⟨fun _ a b h => hc ?_, fun _ => rfl⟩
    have : '\n' ∈ cur.reverse ++ [] := by rw [h]; simp
    simpa using this
  | cons c t ih =>
    intro cur hc
    rw [crlf_cons]
    by_cases h : c = '\n'
    · subst h
      simp only [if_true, List.cons_append, List.nil_append]
      have h1 : linesAux cur ('\r' :: '\n' :: crlf t) = cur.reverse :: linesAux [] (crlf t) := by
        simp [linesAux, stripCr_append]
      have h2 : linesAux cur ('\n' :: t) = stripCr cur.reverse :: linesAux [] t := by simp [linesAux]
      rw [h1, h2, List.cons.injEq, ih [] (by simp)]
      constructor
      · rintro ⟨h3, h4⟩ a b hx
        have he := endsLine_of_strip h3.symm
        rcases List.append_eq_append_iff.1 hx with ⟨a', h5, h6⟩ | ⟨c', h5, h6⟩
        · cases a' with
          | nil => exact absurd (List.cons.inj h6).1 (by decide)
          | cons x a' =>
            obtain ⟨rfl, h7⟩ := List.cons.inj h6
            exact h4 a' b h7
        · match c', h6 with
          | [], h6 => exact absurd (List.cons.inj h6).1 (by decide)
          | [x], h6 =>
            obtain ⟨rfl, _⟩ := List.cons.inj h6
            exact he (by rw [h5]; simp)
          | x :: y :: c', h6 =>
            obtain ⟨rfl, h7⟩ := List.cons.inj h6
            obtain ⟨rfl, _⟩ := List.cons.inj h7
            refine hc ?_
            have : '\n' ∈ cur.reverse := by rw [h5]; simp
            simpa using this
      · intro hp
        refine ⟨(stripCr_id _ ?_).symm, fun a b hx => hp (cur.reverse ++ '\n' :: a) b (by
          rw [List.reverse_nil, List.nil_append] at hx
          rw [hx]; simp)⟩
        intro he
        obtain ⟨a, ha⟩ := List.getLast?_eq_some_iff.1 he
        exact hp a t (by rw [ha]; simp)
    · rw [if_neg h]
      have h1 : ∀ u, linesAux cur (c :: u) = linesAux (c :: cur) u := by intro u; simp [linesAux, h]
      simp only [List.cons_append, List.nil_append]
      rw [h1, h1, ih (c :: cur) (by
        rw [List.mem_cons, not_or]
        exact ⟨fun e => h e.symm, hc⟩)]
      simp

theorem lines_crlf (t : Str) : lines (crlf t) = lines t ↔ PlainEnds t := by
  have := linesAux_crlf t [] (by simp)
  simpa [lines] using this

/-! ### Tokens -/

/-- A token with its atom changed. -/
def tokMap (f : Str → Str) : Tok → Tok
  | .op => .op
  | .cl => .cl
  | .atom s => .atom (f s)

theorem map_map_cons (f : Str → Str) (k : Tok) (o : Option (List Tok)) :
    (o.map (k :: ·)).map (List.map (tokMap f)) = (o.map (List.map (tokMap f))).map (tokMap f k :: ·) := by
  cases o <;> rfl

theorem map_map_cons2 (f : Str → Str) (k k' : Tok) (o : Option (List Tok)) :
    (o.map fun t => k :: k' :: t).map (List.map (tokMap f)) =
      (o.map (List.map (tokMap f))).map fun t => tokMap f k :: tokMap f k' :: t := by
  cases o <;> rfl

/-- The characters of an atom read so far, with the other line ends. -/
def curMap (cur : Str) : Str := (crlf cur.reverse).reverse

theorem curMap_cons {c : Char} (h : c ≠ '\n') (cur : Str) : curMap (c :: cur) = c :: curMap cur := by
  simp [curMap, crlf_append, crlf_cons, h, crlf]

theorem curMap_lf (cur : Str) : curMap ('\n' :: cur) = '\n' :: '\r' :: curMap cur := by
  simp [curMap, crlf_append, crlf_cons, crlf]

theorem curMap_reverse (cur : Str) : (curMap cur).reverse = crlf cur.reverse := by simp [curMap]

theorem lexAux_crlf (t : Str) :
    (lexAux .gap (crlf t) = (lexAux .gap t).map (List.map (tokMap crlf))) ∧
    (∀ cur, '\n' ∉ cur → lexAux (.bare cur) (crlf t) = (lexAux (.bare cur) t).map (List.map (tokMap crlf))) ∧
    (∀ cur, lexAux (.quoted (curMap cur)) (crlf t) = (lexAux (.quoted cur) t).map (List.map (tokMap crlf))) ∧
    (∀ cur, lexAux (.esc (curMap cur)) (crlf t) = (lexAux (.esc cur) t).map (List.map (tokMap crlf))) := by
  have bare : ∀ cur : Str, '\n' ∉ cur → tokMap crlf (.atom cur.reverse) = .atom cur.reverse := by
    intro cur h
    rw [tokMap, (crlf_id _).2 (by simpa using h)]
  induction t with
  | nil =>
    refine ⟨rfl, fun cur h => ?_, fun _ => rfl, fun _ => rfl⟩
    have := bare cur h
    simp only [crlf, List.flatMap_nil, lexAux, Option.map_some, List.map_cons, List.map_nil, this]
  | cons c t ih =>
    obtain ⟨ih1, ih2, ih3, ih4⟩ := ih
    by_cases hc : c = '\n'
    · subst hc
      rw [crlf_cons, if_pos rfl]
      refine ⟨?_, fun cur h => ?_, fun cur => ?_, fun cur => ?_⟩
      · simpa [lexAux, isSexpSpace] using ih1
      · have : lexAux (.bare cur) ('\n' :: t) = (lexAux .gap t).map (.atom cur.reverse :: ·) := by
          simp [lexAux, isSexpSpace]
        rw [this, map_map_cons, ← ih1, bare cur h]
        simp [lexAux, isSexpSpace]
      · have := ih3 ('\n' :: cur)
        rw [curMap_lf] at this
        simpa [lexAux] using this
      · have := ih3 ('\n' :: '\\' :: cur)
        rw [curMap_lf, curMap_cons (by decide)] at this
        simpa [lexAux] using this
    · rw [crlf_cons, if_neg hc, List.cons_append, List.nil_append]
      refine ⟨?_, fun cur h => ?_, fun cur => ?_, fun cur => ?_⟩
      · rw [lexAux, lexAux]
        by_cases h1 : isSexpSpace c = true
        · rw [if_pos h1, if_pos h1, ih1]
        rw [if_neg h1, if_neg h1]
        by_cases h2 : c = '('
        · rw [if_pos h2, if_pos h2, map_map_cons, ih1]; rfl
        rw [if_neg h2, if_neg h2]
        by_cases h3 : c = ')'
        · rw [if_pos h3, if_pos h3, map_map_cons, ih1]; rfl
        rw [if_neg h3, if_neg h3]
        by_cases h4 : c = '"'
        · rw [if_pos h4, if_pos h4]; exact ih3 []
        rw [if_neg h4, if_neg h4]
        exact ih2 [c] (by simpa using fun e => hc e.symm)
      · rw [lexAux, lexAux]
        by_cases h1 : isSexpSpace c = true
        · rw [if_pos h1, if_pos h1, map_map_cons, ih1, bare cur h]
        rw [if_neg h1, if_neg h1]
        by_cases h2 : c = '('
        · rw [if_pos h2, if_pos h2, map_map_cons2, ih1, bare cur h]; rfl
        rw [if_neg h2, if_neg h2]
        by_cases h3 : c = ')'
        · rw [if_pos h3, if_pos h3, map_map_cons2, ih1, bare cur h]; rfl
        rw [if_neg h3, if_neg h3]
        by_cases h4 : c = '"'
        · rw [if_pos h4, if_pos h4, map_map_cons, bare cur h, ← ih3 []]; rfl
        rw [if_neg h4, if_neg h4]
        refine ih2 (c :: cur) ?_
        rw [List.mem_cons, not_or]
        exact ⟨fun e => hc e.symm, h⟩
      · rw [lexAux, lexAux]
        by_cases h1 : c = '"'
        · rw [if_pos h1, if_pos h1, map_map_cons, ih1, curMap_reverse]; rfl
        rw [if_neg h1, if_neg h1]
        by_cases h2 : c = '\\'
        · rw [if_pos h2, if_pos h2]; exact ih4 cur
        rw [if_neg h2, if_neg h2, ← curMap_cons hc]
        exact ih3 _
      · rw [lexAux, lexAux]
        by_cases h1 : c = '"'
        · rw [if_pos h1, if_pos h1, ← curMap_cons (by decide)]; exact ih3 _
        rw [if_neg h1, if_neg h1, ← curMap_cons (c := '\\') (by decide), ← curMap_cons hc]
        exact ih3 _

theorem mapAtomsL_eq (f : Str → Str) (l : List Sexp) : mapAtomsL f l = l.map (mapAtoms f) := by
  induction l with
  | nil => rfl
  | cons x l ih => rw [mapAtomsL, ih]; rfl

/-- What is read, with its atoms changed. -/
def resMap (f : Str → Str) : Res Sexp → Res Sexp
  | .ok e => .ok (mapAtoms f e)
  | .err e => .err e
  | .panic => .panic
  | .diverge => .diverge

theorem parseToks_map (f : Str → Str) (ts : List Tok) : ∀ st : List (List Sexp),
    parseToks (st.map (List.map (mapAtoms f))) (ts.map (tokMap f)) = resMap f (parseToks st ts) := by
  have fin : ∀ (e : Sexp) ts, finishParse (mapAtoms f e) (ts.map (tokMap f)) = resMap f (finishParse e ts) := by
    intro e ts
    cases ts <;> rfl
  have close : ∀ l : List Sexp, Sexp.list (l.map (mapAtoms f)).reverse = mapAtoms f (.list l.reverse) := by
    intro l
    rw [mapAtoms, mapAtomsL_eq, List.map_reverse]
  induction ts with
  | nil => intro st; cases st <;> rfl
  | cons t ts ih =>
    intro st
    match st, t with
    | [], .op => exact ih [[]]
    | [], .cl => rfl
    | [], .atom a => exact fin (.str a) ts
    | l :: st, .op => exact ih ([] :: l :: st)
    | l :: st, .atom a => exact ih ((.str a :: l) :: st)
    | [l], .cl =>
      have := fin (.list l.reverse) ts
      rw [← close] at this
      exact this
    | l :: l' :: st, .cl =>
      have := ih ((.list l.reverse :: l') :: st)
      rw [List.map_cons, List.map_cons, ← close] at this
      exact this

theorem parseSexp_crlf (t : Str) : parseSexp (crlf t) = resMap crlf (parseSexp t) := by
  have h := (lexAux_crlf t).1
  unfold parseSexp lex
  rw [h]
  cases lexAux .gap t with
  | none => rfl
  | some ts => exact parseToks_map crlf ts []

mutual
theorem mapAtoms_id : ∀ e : Sexp, mapAtoms crlf e = e ↔ OneLineAtoms e
  | .str s => by rw [mapAtoms, OneLineAtoms, ← crlf_id]; simp
  | .empty => by simp [mapAtoms, OneLineAtoms]
  | .list l => by rw [mapAtoms, OneLineAtoms, ← mapAtomsL_id l]; simp
theorem mapAtomsL_id : ∀ l : List Sexp, mapAtomsL crlf l = l ↔ OneLineAtomsL l
  | [] => by simp [mapAtomsL, OneLineAtomsL]
  | x :: l => by rw [mapAtomsL, OneLineAtomsL, ← mapAtoms_id x, ← mapAtomsL_id l]; simp
end

end Verif.Ends
