import Verif.Spec.Spacing
import Verif.Lemmas.Lines
import Verif.Model.Sexp
/-!
# Lemmas: spacing
-/

namespace Verif.Spacing
open Verif Spec

/-! ### What squeezing keeps -/

theorem squeezeFrom_other {c : Char} (hq : c ≠ '"') (hb : c ≠ ' ') (i b : Bool) (s : Str) :
    squeezeFrom i b (c :: s) = c :: squeezeFrom i false s := by
  simp [squeezeFrom, hq, hb]

theorem squeeze_nil : squeeze [] = [] := rfl

theorem squeeze_other {c : Char} (hq : c ≠ '"') (hb : c ≠ ' ') (s : Str) : squeeze (c :: s) = c :: squeeze s :=
  squeezeFrom_other hq hb _ _ _

/-- The first character is kept. -/
theorem squeeze_head (c : Char) (s : Str) : ∃ r, squeeze (c :: s) = c :: r := by
  unfold squeeze squeezeFrom
  by_cases hq : c = '"'
  · rw [if_pos hq]; exact ⟨_, rfl⟩
  · rw [if_neg hq]
    by_cases hb : c = ' '
    · rw [if_pos ⟨hb, rfl⟩]; exact ⟨_, rfl⟩
    · rw [if_neg (fun h => hb h.1)]; exact ⟨_, rfl⟩

theorem tidyLine_cases (l : Str) : tidyLine l = l ∨ tidyLine l = squeeze l := by
  unfold tidyLine
  split
  · exact .inl rfl
  · exact .inl rfl
  · exact .inr rfl

/-- A property of lines that squeezing keeps is kept by normalising. -/
theorem tidy_of_squeeze {α : Type} {f : Str → α} (h : ∀ l, f (squeeze l) = f l) (l : Str) :
    f (tidyLine l) = f l := by
  rcases tidyLine_cases l with e | e
  · rw [e]
  · rw [e, h]

/-- A word without blanks and quotes is the beginning of the line with either spacing. -/
theorem startsWith_squeeze (w : Str) (hw : ∀ c ∈ w, c ≠ '"' ∧ c ≠ ' ') : ∀ l : Str,
    startsWith (squeeze l) w = startsWith l w := by
  unfold startsWith
  induction w with
  | nil => intro l; rfl
  | cons x w ih =>
    intro l
    have hx := hw x List.mem_cons_self
    cases l with
    | nil => rfl
    | cons c l =>
      by_cases hc : c = x
      · subst hc
        rw [squeeze_other hx.1 hx.2]
        simpa using ih (fun c h => hw c (List.mem_cons_of_mem _ h)) l
      · obtain ⟨r, hr⟩ := squeeze_head c l
        rw [hr]
        have : (x == c) = false := by simpa using fun e : x = c => hc e.symm
        simp [List.isPrefixOf, this]

/-- A word followed by a blank is the beginning of the line with either spacing. -/
theorem startsWith_blank_squeeze (w : Str) (hw : ∀ c ∈ w, c ≠ '"' ∧ c ≠ ' ') : ∀ l : Str,
    startsWith (squeeze l) (w ++ [' ']) = startsWith l (w ++ [' ']) := by
  unfold startsWith
  induction w with
  | nil =>
    intro l
    cases l with
    | nil => rfl
    | cons c l =>
      obtain ⟨r, hr⟩ := squeeze_head c l
      rw [hr]
      simp [List.isPrefixOf]
  | cons x w ih =>
    intro l
    have hx := hw x List.mem_cons_self
    cases l with
    | nil => rfl
    | cons c l =>
      by_cases hc : c = x
      · subst hc
        rw [squeeze_other hx.1 hx.2]
        simpa using ih (fun c h => hw c (List.mem_cons_of_mem _ h)) l
      · obtain ⟨r, hr⟩ := squeeze_head c l
        rw [hr]
        have : (x == c) = false := by simpa using fun e : x = c => hc e.symm
        simp [List.isPrefixOf, this]

/-- A line without blanks and quotes has no other spacing. -/
theorem squeeze_eq (w : Str) (hw : ∀ c ∈ w, c ≠ '"' ∧ c ≠ ' ') : ∀ l : Str, squeeze l = w ↔ l = w := by
  induction w with
  | nil =>
    intro l
    cases l with
    | nil => simp [squeeze_nil]
    | cons c l =>
      obtain ⟨r, hr⟩ := squeeze_head c l
      simp [hr]
  | cons x w ih =>
    intro l
    have hx := hw x List.mem_cons_self
    cases l with
    | nil => simp [squeeze_nil]
    | cons c l =>
      by_cases hc : c = x
      · subst hc
        rw [squeeze_other hx.1 hx.2]
        simpa using ih (fun c h => hw c (List.mem_cons_of_mem _ h)) l
      · obtain ⟨r, hr⟩ := squeeze_head c l
        rw [hr]
        simp [hc]

theorem tidy_eq (w : Str) (hw : ∀ c ∈ w, c ≠ '"' ∧ c ≠ ' ') (l : Str) : tidyLine l = w ↔ l = w := by
  rcases tidyLine_cases l with e | e
  · rw [e]
  · rw [e, squeeze_eq w hw]

/-- A heading or comment line has no other spacing. -/
theorem tidy_eq_exact (c : Char) (hc : c = 'E' ∨ c = '#') (w l : Str) : tidyLine l = c :: w ↔ l = c :: w := by
  unfold tidyLine
  split
  · rfl
  · rfl
  · next h1 h2 =>
    cases l with
    | nil => simp [squeeze_nil]
    | cons x l =>
      obtain ⟨r, hr⟩ := squeeze_head x l
      rw [hr]
      have hx : x ≠ c := by
        rintro rfl
        rcases hc with rfl | rfl
        · exact h1 l rfl
        · exact h2 l rfl
      simp [hx]

/-! ### Words -/

theorem splitWsAux_squeeze : ∀ (s : Str) (i b : Bool) (cur : Str), (b = true → cur = []) →
    splitWsAux cur (squeezeFrom i b s) = splitWsAux cur s := by
  intro s
  induction s with
  | nil => intro i b cur _; rfl
  | cons c s ih =>
    intro i b cur hb
    unfold squeezeFrom
    by_cases hq : c = '"'
    · subst hq
      have : isWs '"' = false := by decide
      simp only [if_true, splitWsAux, this, Bool.false_eq_true, if_false]
      exact ih _ _ _ (by simp)
    · rw [if_neg hq]
      by_cases hc : c = ' ' ∧ i = false
      · rw [if_pos hc]
        obtain ⟨rfl, rfl⟩ := hc
        have : isWs ' ' = true := by decide
        cases b with
        | true =>
          obtain rfl := hb rfl
          simp only [if_true, splitWsAux, this, List.isEmpty_nil]
          exact ih _ _ _ (by simp)
        | false =>
          simp only [Bool.false_eq_true, if_false, splitWsAux, this, if_true]
          rw [ih _ _ _ (by simp)]
      · rw [if_neg hc]
        simp only [splitWsAux]
        rw [ih _ _ _ (by simp), ih _ _ _ (by simp)]

theorem splitWs_squeeze (l : Str) : splitWs (squeeze l) = splitWs l := splitWsAux_squeeze l _ _ _ (by simp)

theorem splitWs_tidy (l : Str) : splitWs (tidyLine l) = splitWs l := tidy_of_squeeze splitWs_squeeze l

theorem firstWord_tidy (l : Str) : firstWord (tidyLine l) = firstWord l := by rw [firstWord, splitWs_tidy, firstWord]

/-! ### Quote-aware parts -/

theorem fold_squeeze : ∀ (s : Str) (b : Bool) (st : SplitSt),
    (b = true → st.inside = false ∧ st.seen = false ∧ st.cur = []) →
    (squeezeFrom st.inside b s).foldl (splitStep none) st = s.foldl (splitStep none) st := by
  intro s
  induction s with
  | nil => intro b st _; rfl
  | cons c s ih =>
    rintro b ⟨i, v, ins, seen, cur⟩ hb
    unfold squeezeFrom
    by_cases hq : c = '"'
    · subst hq
      cases ins
      · simp only [if_true, List.foldl_cons, splitStep, reduceCtorEq, if_false]
        exact ih false _ (by simp)
      · simp only [if_true, List.foldl_cons, splitStep, reduceCtorEq, if_false]
        exact ih false _ (by simp)
    · rw [if_neg hq]
      by_cases hc : c = ' ' ∧ ins = false
      · obtain ⟨rfl, rfl⟩ := hc
        rw [if_pos ⟨rfl, rfl⟩]
        cases b with
        | true =>
          obtain ⟨_, h2, h3⟩ := hb rfl
          simp only at h2 h3
          subst h2; subst h3
          simp only [if_true, List.foldl_cons]
          exact ih true ⟨i, v, false, false, []⟩ (by simp)
        | false =>
          simp only [Bool.false_eq_true, if_false, List.foldl_cons]
          by_cases he : (!cur.isEmpty || seen) = true
          · have : splitStep none ⟨i, v, false, seen, cur⟩ ' ' = ⟨i + 1, cur.reverse :: v, false, false, []⟩ := by
              simp only [splitStep, reduceCtorEq, if_false]
              rw [if_neg (by decide), if_neg (by decide), if_pos (by decide), if_pos he]
            rw [this]
            exact ih true _ (by simp)
          · have : splitStep none ⟨i, v, false, seen, cur⟩ ' ' = ⟨i, v, false, false, cur⟩ := by
              simp only [splitStep, reduceCtorEq, if_false]
              rw [if_neg (by decide), if_neg (by decide), if_pos (by decide), if_neg he]
            rw [this]
            refine ih true _ (fun _ => ⟨rfl, rfl, ?_⟩)
            simp only [Bool.or_eq_true, Bool.not_eq_true', not_or, Bool.not_eq_true] at he
            cases cur with
            | nil => rfl
            | cons x l => simp at he
      · rw [if_neg hc]
        simp only [List.foldl_cons]
        have : splitStep none ⟨i, v, ins, seen, cur⟩ c = ⟨i, v, ins, seen, c :: cur⟩ := by
          simp only [splitStep, reduceCtorEq, if_false]
          rw [if_neg (by simp [hq]), if_neg (by simp [hq]), if_neg]
          simp only [Bool.and_eq_true, Bool.not_eq_true', beq_iff_eq]
          exact fun h => hc ⟨h.2, h.1⟩
        rw [this]
        exact ih false ⟨i, v, ins, seen, c :: cur⟩ (by simp)

theorem splitQ_squeeze (l : Str) : splitQ (squeeze l) = splitQ l := by
  unfold splitQ splitInt squeeze
  rw [fold_squeeze l false ⟨0, [], false, false, []⟩ (by simp)]

theorem splitQ_tidy (l : Str) : splitQ (tidyLine l) = splitQ l := tidy_of_squeeze splitQ_squeeze l

/-- Once the wanted number of parts is reached, the rest is one more part. -/
theorem fold_full (n : Nat) : ∀ (s : Str) (st : SplitSt), st.i = n →
    ∃ cur, s.foldl (splitStep (some n)) st = { st with cur := cur } := by
  intro s
  induction s with
  | nil => intro st _; exact ⟨st.cur, rfl⟩
  | cons c s ih =>
    intro st h
    have : splitStep (some n) st c = { st with cur := c :: st.cur } := by
      rw [splitStep, if_pos (by rw [h])]
    rw [List.foldl_cons, this]
    obtain ⟨cur, hcur⟩ := ih { st with cur := c :: st.cur } h
    exact ⟨cur, hcur⟩

theorem finish_full {n : Nat} {st : SplitSt} (h : st.v.length = n) :
    n ≤ (splitFinish st).length ∧ (splitFinish st).take n = st.v.reverse := by
  unfold splitFinish
  split
  · rw [List.reverse_cons]
    refine ⟨by simp [h], ?_⟩
    rw [List.take_append_of_le_length (by simp [h]), List.take_of_length_le (by simp [h])]
  · exact ⟨by simp [h], List.take_of_length_le (by simp [h])⟩

/-- Two results of the splitter that cannot be told apart by looking for `n` parts. -/
def SameParts (n : Nat) (v v' : List Str) : Prop := (v.length < n ↔ v'.length < n) ∧ v.take n = v'.take n

theorem SameParts.refl (n : Nat) (v : List Str) : SameParts n v v := ⟨Iff.rfl, rfl⟩

theorem fold_squeeze_n (n : Nat) : ∀ (s : Str) (b : Bool) (st : SplitSt), st.v.length = st.i →
    (st.i ≠ n → b = true → st.inside = false ∧ st.seen = false ∧ st.cur = []) →
    SameParts n (splitFinish ((squeezeFrom st.inside b s).foldl (splitStep (some n)) st))
      (splitFinish (s.foldl (splitStep (some n)) st)) := by
  intro s
  induction s with
  | nil => intro b st _ _; exact .refl n _
  | cons c s ih =>
    rintro b ⟨i, v, ins, seen, cur⟩ hl hb
    simp only at hl
    by_cases hn : i = n
    · obtain ⟨c1, h1⟩ := fold_full n (squeezeFrom ins b (c :: s)) ⟨i, v, ins, seen, cur⟩ hn
      obtain ⟨c2, h2⟩ := fold_full n (c :: s) ⟨i, v, ins, seen, cur⟩ hn
      rw [h1, h2]
      have f1 := finish_full (n := n) (st := ⟨i, v, ins, seen, c1⟩) (hl.trans hn)
      have f2 := finish_full (n := n) (st := ⟨i, v, ins, seen, c2⟩) (hl.trans hn)
      exact ⟨iff_of_false (Nat.not_lt.2 f1.1) (Nat.not_lt.2 f2.1), f1.2.trans f2.2.symm⟩
    · have hn' : ¬ some n = some i := fun h => hn (Option.some.inj h).symm
      unfold squeezeFrom
      by_cases hq : c = '"'
      · subst hq
        cases ins
        · have h1 : splitStep (some n) ⟨i, v, false, seen, cur⟩ '"' = ⟨i, v, true, seen, cur⟩ := by
            simp [splitStep, hn']
          simp only [if_true, List.foldl_cons, h1]
          exact ih false ⟨i, v, true, seen, cur⟩ hl (by simp)
        · have h1 : splitStep (some n) ⟨i, v, true, seen, cur⟩ '"' = ⟨i, v, false, true, cur⟩ := by
            simp [splitStep, hn']
          simp only [if_true, List.foldl_cons, h1]
          exact ih false ⟨i, v, false, true, cur⟩ hl (by simp)
      · rw [if_neg hq]
        by_cases hc : c = ' ' ∧ ins = false
        · obtain ⟨rfl, rfl⟩ := hc
          rw [if_pos ⟨rfl, rfl⟩]
          cases b with
          | true =>
            obtain ⟨_, h2, h3⟩ := hb hn rfl
            simp only at h2 h3
            subst h2; subst h3
            have h1 : splitStep (some n) ⟨i, v, false, false, []⟩ ' ' = ⟨i, v, false, false, []⟩ := by
              simp [splitStep]
              exact fun h => hn h.symm
            simp only [if_true, List.foldl_cons, h1]
            exact ih true ⟨i, v, false, false, []⟩ hl (by simp)
          | false =>
            simp only [Bool.false_eq_true, if_false, List.foldl_cons]
            by_cases he : (!cur.isEmpty || seen) = true
            · have : splitStep (some n) ⟨i, v, false, seen, cur⟩ ' ' = ⟨i + 1, cur.reverse :: v, false, false, []⟩ := by
                rw [splitStep, if_neg hn', if_neg (by simp), if_neg (by simp), if_pos (by simp), if_pos he]
              rw [this]
              exact ih true ⟨i + 1, cur.reverse :: v, false, false, []⟩ (by simp [hl]) (by simp)
            · have : splitStep (some n) ⟨i, v, false, seen, cur⟩ ' ' = ⟨i, v, false, false, cur⟩ := by
                rw [splitStep, if_neg hn', if_neg (by simp), if_neg (by simp), if_pos (by simp), if_neg he]
              rw [this]
              refine ih true ⟨i, v, false, false, cur⟩ hl (fun _ _ => ⟨rfl, rfl, ?_⟩)
              simp only [Bool.or_eq_true, Bool.not_eq_true', not_or, Bool.not_eq_true] at he
              cases cur with
              | nil => rfl
              | cons x l => simp at he
        · rw [if_neg hc]
          simp only [List.foldl_cons]
          have : splitStep (some n) ⟨i, v, ins, seen, cur⟩ c = ⟨i, v, ins, seen, c :: cur⟩ := by
            rw [splitStep, if_neg hn', if_neg (by simp [hq]), if_neg (by simp [hq]), if_neg]
            simp only [Bool.and_eq_true, Bool.not_eq_true', beq_iff_eq]
            exact fun h => hc ⟨h.2, h.1⟩
          rw [this]
          exact ih false ⟨i, v, ins, seen, c :: cur⟩ hl (by simp)

/-- Whatever only looks at the first `n` parts does the same with either spacing. -/
theorem splitN_squeeze {α : Type} (n : Nat) (l : Str) (f : List Str → Res α)
    (h : ∀ v v', v.take n = v'.take n → f v = f v') : (splitN n (squeeze l) >>= f) = (splitN n l >>= f) := by
  obtain ⟨h1, h2⟩ := fold_squeeze_n n l false ⟨0, [], false, false, []⟩ rfl (by simp)
  unfold splitN splitInt squeeze
  simp only at h1 h2 ⊢
  by_cases hx : (splitFinish (l.foldl (splitStep (some n)) ⟨0, [], false, false, []⟩)).length < n
  · rw [if_pos hx, if_pos (h1.2 hx)]
  · rw [if_neg hx, if_neg (fun hy => hx (h1.1 hy))]
    exact h _ _ h2

theorem splitN_tidy {α : Type} (n : Nat) (l : Str) (f : List Str → Res α)
    (h : ∀ v v', v.take n = v'.take n → f v = f v') : (splitN n (tidyLine l) >>= f) = (splitN n l >>= f) := by
  rcases tidyLine_cases l with e | e
  · rw [e]
  · rw [e, splitN_squeeze n l f h]

theorem idx_take {n k : Nat} (hk : k < n) {v v' : List Str} (h : v.take n = v'.take n) : Sch.idx v k = Sch.idx v' k := by
  have : v[k]? = v'[k]? := by
    have h1 := congrArg (fun l => l[k]?) h
    simpa [List.getElem?_take, hk] using h1
  rw [Sch.idx, Sch.idx, this]

/-! ### Symbol libraries -/

theorem map_bind {α β γ : Type} (x : Res α) (f : α → Res β) (g : β → γ) :
    (x >>= f).map g = x >>= fun a => (f a).map g := by cases x <;> rfl

theorem map_of_bind {α β γ : Type} (x : Res α) (g : α → β) (f : β → Res γ) :
    (x.map g >>= f) = x >>= fun a => f (g a) := by cases x <;> rfl

theorem bind_congr {α β : Type} {x : Res α} {f g : α → Res β} (h : ∀ a, f a = g a) : (x >>= f) = (x >>= g) := by
  rw [funext h]

/-- The lines from a position on, with their spacing normalised. -/
abbrev tl (p : List Str) : List Str := p.map tidyLine

theorem here_tidy (p : List Str) : Sch.here (tl p) = (Sch.here p).map tidyLine := by cases p <;> rfl

theorem next_tidy (p : List Str) : Sch.next (tl p) = tl (Sch.next p) := by cases p <;> rfl

theorem assumeLine_tidy {w : Str} (h : ∀ l, tidyLine l = w ↔ l = w) (p : List Str) :
    Sch.assumeLine w (tl p) = (Sch.assumeLine w p).map tl := by
  cases p with
  | nil => rfl
  | cons l p =>
    simp only [tl, List.map_cons, Sch.assumeLine, ne_eq, h]
    split <;> rfl

theorem parseField_tidy {F : Type} [Flt F] (l : Str) : (Lib.parseField (tidyLine l) : Res (Lib.Field F)) = Lib.parseField l := by
  rw [Lib.parseField, splitQ_tidy, Lib.parseField]

theorem parsePin_tidy (l : Str) : Lib.parsePin (tidyLine l) = Lib.parsePin l := by
  rw [Lib.parsePin, splitQ_tidy, Lib.parsePin]

theorem parseRect_tidy (l : Str) : Lib.parseRect (tidyLine l) = Lib.parseRect l := by
  rw [Lib.parseRect, splitQ_tidy, Lib.parseRect]

theorem parseDef_tidy {F : Type} [Flt F] (l : Str) : (Lib.parseDef (tidyLine l) : Res (Lib.Symbol F)) = Lib.parseDef l := by
  rw [Lib.parseDef, splitQ_tidy, Lib.parseDef]

theorem charAt_tidy (l : Str) : Sch.charAt (tidyLine l) 0 = Sch.charAt l 0 := by
  refine tidy_of_squeeze (f := fun l => Sch.charAt l 0) (fun l => ?_) l
  cases l with
  | nil => rfl
  | cons c l =>
    obtain ⟨r, hr⟩ := squeeze_head c l
    simp only [hr]
    rfl

theorem parseFields_tidy {F : Type} [Flt F] (p : List Str) : ∀ acc : List (Lib.Field F),
    Lib.parseFields acc (tl p) = (Lib.parseFields acc p).map fun r => (r.1, tl r.2) := by
  induction p with
  | nil => intro acc; rfl
  | cons l p ih =>
    intro acc
    simp only [tl, List.map_cons, Lib.parseFields, map_bind, charAt_tidy]
    refine bind_congr fun c => ?_
    split
    · rw [parseField_tidy, map_bind]
      exact bind_congr fun f => ih _
    · rfl

theorem skipFplist_tidy (p : List Str) : Lib.skipFplist (tl p) = tl (Lib.skipFplist p) := by
  induction p with
  | nil => rfl
  | cons l p ih =>
    simp only [tl, List.map_cons, Lib.skipFplist, tidy_eq (str! "$ENDFPLIST") (by decide)]
    split
    · rfl
    · exact ih

theorem parseDrawLine_tidy (l : Str) : Lib.parseDrawLine (tidyLine l) = (Lib.parseDrawLine l).map tidyDraw := by
  unfold Lib.parseDrawLine
  rw [tidy_of_squeeze (f := fun l => startsWith l (str! "X ")) (startsWith_blank_squeeze (str! "X") (by decide)),
    tidy_of_squeeze (f := fun l => startsWith l (str! "S ")) (startsWith_blank_squeeze (str! "S") (by decide)),
    parsePin_tidy, parseRect_tidy]
  split
  · rw [map_bind]; rfl
  · split
    · rw [map_bind]; rfl
    · rfl

theorem parseDraws_tidy (p : List Str) : ∀ acc : List Lib.Draw,
    Lib.parseDraws (acc.map tidyDraw) (tl p) = (Lib.parseDraws acc p).map fun r => (r.1.map tidyDraw, tl r.2) := by
  induction p with
  | nil => intro acc; rfl
  | cons l p ih =>
    intro acc
    simp only [tl, List.map_cons, Lib.parseDraws, tidy_eq (str! "ENDDRAW") (by decide)]
    split
    · rfl
    · rw [parseDrawLine_tidy, map_of_bind, map_bind]
      refine bind_congr fun d => ?_
      rw [← ih, List.map_append]
      rfl

theorem parseAliases_tidy (p : List Str) : Lib.parseAliases (tl p) = (Lib.parseAliases p).map fun r => (r.1, tl r.2) := by
  unfold Lib.parseAliases
  rw [here_tidy, map_of_bind, map_bind]
  refine bind_congr fun l => ?_
  rw [tidy_of_squeeze (f := fun l => startsWith l (str! "ALIAS")) (startsWith_squeeze (str! "ALIAS") (by decide)),
    splitQ_tidy, next_tidy]
  split
  · rw [map_bind]; rfl
  · rfl

theorem parseSymbol_tidy {F : Type} [Flt F] (p : List Str) :
    (Lib.parseSymbol (tl p) : Res (Lib.Symbol F × List Str)) =
      (Lib.parseSymbol p).map fun r => (tidySymbol r.1, tl r.2) := by
  unfold Lib.parseSymbol
  rw [next_tidy, assumeLine_tidy (tidy_eq_exact '#' (.inr rfl) []), map_of_bind, map_bind]
  refine bind_congr fun p => ?_
  rw [here_tidy, map_of_bind, map_bind]
  refine bind_congr fun l => ?_
  rw [parseDef_tidy, map_bind]
  refine bind_congr fun s => ?_
  rw [next_tidy, parseFields_tidy, map_of_bind, map_bind]
  refine bind_congr fun r => ?_
  obtain ⟨fields, p⟩ := r
  simp only
  rw [here_tidy, map_of_bind, map_bind]
  refine bind_congr fun h => ?_
  have hp : (if tidyLine h = str! "$FPLIST" then Lib.skipFplist (Sch.next (tl p)) else tl p) =
      tl (if h = str! "$FPLIST" then Lib.skipFplist (Sch.next p) else p) := by
    rw [next_tidy, skipFplist_tidy]
    simp only [tidy_eq (str! "$FPLIST") (by decide)]
    split <;> rfl
  simp only [hp]
  generalize (if h = str! "$FPLIST" then Lib.skipFplist (Sch.next p) else p) = p
  rw [parseAliases_tidy, map_of_bind, map_bind]
  refine bind_congr fun r => ?_
  obtain ⟨aliases, p⟩ := r
  simp only
  rw [assumeLine_tidy (tidy_eq (str! "DRAW") (by decide)), map_of_bind, map_bind]
  refine bind_congr fun p => ?_
  have hd := parseDraws_tidy p []
  simp only [List.map_nil] at hd
  rw [hd, map_of_bind, map_bind]
  refine bind_congr fun r => ?_
  obtain ⟨draw, p⟩ := r
  simp only
  rw [assumeLine_tidy (tidy_eq_exact 'E' (.inl rfl) (str! "NDDEF")), map_of_bind, map_bind]
  refine bind_congr fun p => ?_
  rw [assumeLine_tidy (tidy_eq_exact '#' (.inr rfl) []), map_of_bind, map_bind]
  exact bind_congr fun p => rfl

theorem parseSymbols_tidy {F : Type} [Flt F] : ∀ (n : Nat) (acc : List (Lib.Symbol F)) (p : List Str),
    Lib.parseSymbols n (acc.map tidySymbol) (tl p) = (Lib.parseSymbols n acc p).map (List.map tidySymbol) := by
  intro n
  induction n with
  | zero => intro acc p; cases p <;> rfl
  | succ n ih =>
    intro acc p
    cases p with
    | nil => rfl
    | cons l p =>
      have := parseSymbol_tidy (F := F) (l :: p)
      simp only [tl, List.map_cons] at this ⊢
      simp only [Lib.parseSymbols, tidy_eq_exact '#' (.inr rfl) (str! "End Library")]
      split
      · rfl
      · rw [this, map_of_bind, map_bind]
        refine bind_congr fun r => ?_
        obtain ⟨s, p⟩ := r
        have := ih (acc ++ [s]) p
        simpa using this

/-- The library reader with normalised spacing. -/
theorem lib_tidy {F : Type} [Flt F] (ls : List Str) :
    (Lib.parseLines (ls.map tidyLine) : Res (Lib.SymbolLib F)) = (Lib.parseLines ls).map tidyLib := by
  unfold Lib.parseLines
  rw [assumeLine_tidy (tidy_eq_exact 'E' (.inl rfl) _), map_of_bind, map_bind]
  refine bind_congr fun p => ?_
  rw [assumeLine_tidy (tidy_eq_exact '#' (.inr rfl) _), map_of_bind, map_bind]
  refine bind_congr fun p => ?_
  rw [assumeLine_tidy (tidy_eq_exact '#' (.inr rfl) _), map_of_bind, map_bind]
  refine bind_congr fun p => ?_
  have := parseSymbols_tidy (F := F) p.length [] p
  simp only [List.map_nil] at this
  rw [List.length_map, this, map_of_bind, map_bind]
  rfl

/-! ### Schematics -/

open Sch in
theorem wordAndQstring_tidy (w l : Str) : wordAndQstring w (tidyLine l) = wordAndQstring w l := by
  unfold wordAndQstring
  exact splitN_tidy 2 l _ fun v v' h => by rw [idx_take (by decide : 0 < 2) h, idx_take (by decide : 1 < 2) h]

/-- Reading something off the current line. -/
theorem here_bind {α β : Type} (p : List Str) (f : Str → Res α) (h : ∀ l, f (tidyLine l) = f l)
    (g g' : α → Res β) (hg : ∀ a, g a = g' a) :
    ((Sch.here (tl p) >>= fun l => f l) >>= g) = (Sch.here p >>= fun l => f l) >>= g' := by
  rw [here_tidy, map_of_bind]
  simp only [h]
  exact bind_congr hg

open Sch in
theorem parseDescription_tidy (p : List Str) :
    parseDescription (tl p) = (parseDescription p).map fun r => (r.1, tl r.2) := by
  unfold parseDescription
  rw [here_tidy, map_of_bind, map_bind]
  refine bind_congr fun l => ?_
  rw [splitN_tidy 4 l _ (fun v v' h => by
    rw [idx_take (by decide : 1 < 4) h, idx_take (by decide : 2 < 4) h, idx_take (by decide : 3 < 4) h]), map_bind]
  refine bind_congr fun v => ?_
  rw [map_bind]
  refine bind_congr fun size => ?_
  rw [map_bind]
  refine bind_congr fun w => ?_
  rw [map_bind]
  refine bind_congr fun dimx => ?_
  rw [map_bind]
  refine bind_congr fun w => ?_
  rw [map_bind]
  refine bind_congr fun dimy => ?_
  simp only [next_tidy]
  rw [here_tidy, map_of_bind, map_bind]
  refine bind_congr fun l => ?_
  rw [splitN_tidy 3 l _ (fun v v' h => by
    rw [idx_take (by decide : 0 < 3) h, idx_take (by decide : 1 < 3) h, idx_take (by decide : 2 < 3) h]), map_bind]
  refine bind_congr fun v => ?_
  rw [map_bind]
  refine bind_congr fun w => ?_
  split
  · rfl
  rw [map_bind]
  refine bind_congr fun w => ?_
  rw [map_bind]
  refine bind_congr fun sheet => ?_
  rw [map_bind]
  refine bind_congr fun w => ?_
  rw [map_bind]
  refine bind_congr fun sheetCount => ?_
  iterate 8
    rw [here_tidy, map_of_bind, map_bind]
    refine bind_congr fun l => ?_
    rw [wordAndQstring_tidy, map_bind]
    refine bind_congr fun _ => ?_
  rw [here_tidy, map_of_bind, map_bind]
  refine bind_congr fun l => ?_
  have : assumeString (str! "$EndDescr") (tidyLine l) = assumeString (str! "$EndDescr") l := by
    unfold assumeString
    by_cases h : l = str! "$EndDescr"
    · rw [if_neg (by simpa using ((tidy_eq (str! "$EndDescr") (by decide) l).2 h).symm), if_neg (by simpa using h.symm)]
    · rw [if_pos (fun e => h ((tidy_eq (str! "$EndDescr") (by decide) l).1 e.symm)), if_pos (fun e => h e.symm)]
  rw [this, map_bind]
  rfl

open Sch in
theorem parseComponentL_tidy {F : Type} (l : Str) (d : Component F) :
    parseComponentL (tidyLine l) (tidyComponent d) = (parseComponentL l d).map tidyComponent := by
  unfold parseComponentL
  rw [splitN_tidy 3 l _ (fun v v' h => by rw [idx_take (by decide : 1 < 3) h, idx_take (by decide : 2 < 3) h])]
  simp only [map_bind]
  rfl

open Sch in
theorem parseComponentP_tidy {F : Type} (l : Str) (d : Component F) :
    parseComponentP (tidyLine l) (tidyComponent d) = (parseComponentP l d).map tidyComponent := by
  unfold parseComponentP
  rw [splitN_tidy 3 l _ (fun v v' h => by rw [idx_take (by decide : 1 < 3) h, idx_take (by decide : 2 < 3) h])]
  simp only [map_bind]
  rfl

open Sch in
theorem parseComponentF_tidy {F : Type} [Flt F] (l : Str) (d : Component F) :
    parseComponentF (tidyLine l) (tidyComponent d) = (parseComponentF l d).map tidyComponent := by
  unfold parseComponentF
  rw [splitQ_tidy]
  simp only [map_bind]
  rfl

open Sch in
theorem parseRotation_tidy (l : Str) : parseRotation (tidyLine l) = parseRotation l := by
  rw [parseRotation, splitWs_tidy, parseRotation]

open Sch in
theorem parseComponentLoop_tidy {F : Type} [Flt F] (n : Nat) : ∀ (p : List Str), p.length ≤ n → ∀ d : Component F,
    parseComponentLoop (tidyComponent d) (tl p) =
      (parseComponentLoop d p).map fun r => (tidyComponent r.1, tl r.2) := by
  induction n with
  | zero =>
    intro p hp d
    obtain rfl : p = [] := List.length_eq_zero_iff.1 (by omega)
    rfl
  | succ n ih =>
    intro p hp d
    cases p with
    | nil => rfl
    | cons l p =>
      have hp' : p.length ≤ n := by simpa using hp
      simp only [tl, List.map_cons]
      rw [parseComponentLoop.eq_def, parseComponentLoop.eq_def]
      simp only [tidy_eq (str! "$EndComp") (by decide), firstWord_tidy]
      by_cases h0 : l = str! "$EndComp"
      · rw [if_pos h0, if_pos h0]; rfl
      rw [if_neg h0, if_neg h0]
      by_cases h1 : firstWord l = some (str! "L")
      · rw [if_pos h1, if_pos h1, parseComponentL_tidy, map_of_bind, map_bind]
        exact bind_congr fun d => ih p hp' d
      rw [if_neg h1, if_neg h1]
      by_cases h2 : firstWord l = some (str! "U")
      · rw [if_pos h2, if_pos h2]
        exact ih p hp' { d with u := l }
      rw [if_neg h2, if_neg h2]
      by_cases h3 : firstWord l = some (str! "P")
      · rw [if_pos h3, if_pos h3, parseComponentP_tidy, map_of_bind, map_bind]
        exact bind_congr fun d => ih p hp' d
      rw [if_neg h3, if_neg h3]
      by_cases h4 : firstWord l = some (str! "F")
      · rw [if_pos h4, if_pos h4, parseComponentF_tidy, map_of_bind, map_bind]
        exact bind_congr fun d => ih p hp' d
      rw [if_neg h4, if_neg h4]
      by_cases h5 : firstWord l = some (str! "1") ∨ firstWord l = some (str! "0")
      · rw [if_pos h5, if_pos h5]
        cases p with
        | nil => rfl
        | cons l2 p =>
          simp only [List.map_cons]
          rw [parseRotation_tidy, map_bind]
          exact bind_congr fun r => ih p (by simp at hp'; omega) { d with rotation := r }
      rw [if_neg h5, if_neg h5]
      by_cases h6 : firstWord l = some (str! "AR")
      · rw [if_pos h6, if_pos h6]
        have := ih p hp' { d with arPath := d.arPath ++ [l] }
        simp only [tidyComponent, List.map_append, List.map_cons, List.map_nil] at this ⊢
        exact this
      rw [if_neg h6, if_neg h6]
      exact ih p hp' d

open Sch in
theorem parseSheetLoop_tidy (p : List Str) : ∀ s : Sheet,
    parseSheetLoop s (tl p) = (parseSheetLoop s p).map fun r => (r.1, tl r.2) := by
  induction p with
  | nil => intro s; rfl
  | cons l p ih =>
    intro s
    simp only [tl, List.map_cons]
    rw [parseSheetLoop.eq_def, parseSheetLoop.eq_def]
    simp only [tidy_eq (str! "$EndSheet") (by decide), firstWord_tidy]
    by_cases h0 : l = str! "$EndSheet"
    · rw [if_pos h0, if_pos h0]; rfl
    rw [if_neg h0, if_neg h0]
    cases firstWord l with
    | none => exact ih s
    | some w =>
      simp only
      by_cases h1 : w = str! "S"
      · rw [if_pos h1, if_pos h1]
        have : parseSheetS (tidyLine l) s = parseSheetS l s := by
          unfold parseSheetS
          exact splitN_tidy 5 l _ fun v v' h => by
            rw [idx_take (by decide : 1 < 5) h, idx_take (by decide : 2 < 5) h, idx_take (by decide : 3 < 5) h,
              idx_take (by decide : 4 < 5) h]
        rw [this, map_bind]
        exact bind_congr fun s => ih s
      rw [if_neg h1, if_neg h1]
      by_cases h2 : w = str! "U"
      · rw [if_pos h2, if_pos h2]
        have : parseSheetU (tidyLine l) s = parseSheetU l s := by
          unfold parseSheetU
          exact splitN_tidy 2 l _ fun v v' h => by rw [idx_take (by decide : 1 < 2) h]
        rw [this, map_bind]
        exact bind_congr fun s => ih s
      rw [if_neg h2, if_neg h2]
      by_cases h3 : startsWith w (str! "F") = true
      · rw [if_pos h3, if_pos h3]
        have : parseSheetF (tidyLine l) s w = parseSheetF l s w := by
          unfold parseSheetF
          refine bind_congr fun i => ?_
          split
          · exact splitN_tidy 3 l _ fun v v' h => by
              rw [idx_take (by decide : 1 < 3) h, idx_take (by decide : 2 < 3) h]
          · split
            · exact splitN_tidy 3 l _ fun v v' h => by
                rw [idx_take (by decide : 1 < 3) h, idx_take (by decide : 2 < 3) h]
            · have : parseSheetLabel (tidyLine l) = parseSheetLabel l := by
                unfold parseSheetLabel
                exact splitN_tidy 7 l _ fun v v' h => by
                  rw [idx_take (by decide : 1 < 7) h, idx_take (by decide : 2 < 7) h, idx_take (by decide : 3 < 7) h,
                    idx_take (by decide : 4 < 7) h, idx_take (by decide : 5 < 7) h, idx_take (by decide : 6 < 7) h]
              rw [this]
        rw [this, map_bind]
        exact bind_congr fun s => ih s
      rw [if_neg h3, if_neg h3]
      exact ih s

open Sch in
theorem parseWire_tidy (p : List Str) : parseWire (tl p) = (parseWire p).map fun r => (r.1, tl r.2) := by
  unfold parseWire
  rw [here_tidy, map_of_bind, map_bind]
  refine bind_congr fun l => ?_
  rw [splitWs_tidy]
  simp only
  split
  · rfl
  rw [map_bind]
  refine bind_congr fun w => ?_
  rw [next_tidy, here_tidy, map_of_bind, map_bind]
  refine bind_congr fun l => ?_
  rw [splitWs_tidy]
  split
  · rfl
  simp only [map_bind]
  rfl

open Sch in
theorem parsePos_tidy (l : Str) : parsePos (tidyLine l) = parsePos l := by
  rw [parsePos, splitWs_tidy, parsePos]

open Sch in
theorem parseText_tidy (p : List Str) :
    parseText (tl p) = (parseText p).map fun r => ({ r.1 with text := tidyLine r.1.text }, tl r.2) := by
  unfold parseText
  rw [here_tidy, map_of_bind, map_bind]
  refine bind_congr fun l => ?_
  rw [splitWs_tidy]
  simp only
  split
  · rfl
  iterate 10
    rw [map_bind]
    refine bind_congr fun _ => ?_
  split
  · iterate 4
      rw [map_bind]
      refine bind_congr fun _ => ?_
    rw [next_tidy, here_tidy, map_of_bind, map_bind]
    exact bind_congr fun _ => rfl
  · iterate 5
      rw [map_bind]
      refine bind_congr fun _ => ?_
    rw [next_tidy, here_tidy, map_of_bind, map_bind]
    exact bind_congr fun _ => rfl

open Sch in
theorem parseLibs_tidy {F : Type} (p : List Str) : ∀ s : Schematic F,
    parseLibs (tidySchematic s) (tl p) = (tidySchematic (parseLibs s p).1, tl (parseLibs s p).2) := by
  induction p with
  | nil => intro s; rfl
  | cons l p ih =>
    intro s
    have hs := tidy_of_squeeze (f := fun l => startsWith l (str! "LIBS:")) (startsWith_squeeze (str! "LIBS:") (by decide)) l
    simp only [tl, List.map_cons, parseLibs]
    rw [show startsWith (tidyLine l) (str! "LIBS:") = startsWith l (str! "LIBS:") from hs]
    by_cases h : startsWith l (str! "LIBS:") = true
    · rw [if_pos h, if_pos h]
      obtain ⟨r, rfl⟩ := List.isPrefixOf_iff_prefix.1 h
      have := ih { s with libraries := s.libraries ++ [r] }
      have e : (tidyLine (str! "LIBS:" ++ r)).drop 5 = squeeze r := by
        have : tidyLine (str! "LIBS:" ++ r) = squeeze (str! "LIBS:" ++ r) := rfl
        rw [this]
        simp only [List.cons_append, List.nil_append]
        iterate 5 rw [squeeze_other (by decide) (by decide)]
        rfl
      rw [e]
      simp only [tidySchematic, List.map_append, List.map_cons, List.map_nil] at this ⊢
      exact this
    · rw [if_neg h, if_neg h]
      rfl

open Sch in
theorem parseItem_tidy {F : Type} [Flt F] (s : Schematic F) (p : List Str) :
    parseItem (tidySchematic s) (tl p) = (parseItem s p).map fun r => (tidySchematic r.1, tl r.2) := by
  have app : ∀ (e : Element F), { tidySchematic s with elements := (tidySchematic s).elements ++ [tidyElement e] } =
      tidySchematic { s with elements := s.elements ++ [e] } := by
    intro e
    simp [tidySchematic]
  unfold parseItem
  rw [here_tidy, map_of_bind, map_bind]
  refine bind_congr fun l => ?_
  rw [firstWord_tidy]
  cases firstWord l with
  | none => rfl
  | some w =>
    simp only
    split
    · rw [parseDescription_tidy, map_of_bind, map_bind]; rfl
    split
    · have := parseComponentLoop_tidy (F := F) _ (next p) (Nat.le_refl _) .dflt
      have e : (parseComponent (tl p) : Res (Component F × List Str)) =
          (parseComponent p).map fun r => (tidyComponent r.1, tl r.2) := by
        unfold parseComponent
        rw [next_tidy]
        exact this
      rw [e, map_of_bind, map_bind]
      exact bind_congr fun r => congrArg (fun x => Res.ok (x, tl r.2)) (app (.component r.1))
    split
    · have e : parseSheet (tl p) = (parseSheet p).map fun r => (r.1, tl r.2) := by
        unfold parseSheet
        rw [next_tidy, parseSheetLoop_tidy]
      rw [e, map_of_bind, map_bind]; rfl
    split
    · rfl
    split
    · rw [parseWire_tidy, map_of_bind, map_bind]
      exact bind_congr fun r => congrArg (fun x => Res.ok (x, tl r.2)) (app (.wire r.1))
    split
    · rw [parsePos_tidy, map_bind]
      exact bind_congr fun r => congrArg (fun x => Res.ok (x, tl p)) (app (.connection r))
    split
    · rw [parsePos_tidy, map_bind]
      exact bind_congr fun r => congrArg (fun x => Res.ok (x, tl p)) (app (.noConnect r))
    split
    · rw [parseText_tidy, map_of_bind, map_bind]
      exact bind_congr fun r => congrArg (fun x => Res.ok (x, tl r.2)) (app (.text r.1))
    · exact congrArg (fun x => Res.ok (x, tl p)) (app (.other l))

open Sch in
theorem parseItems_tidy {F : Type} [Flt F] : ∀ (n : Nat) (s : Schematic F) (p : List Str),
    parseItems n (tidySchematic s) (tl p) = (parseItems n s p).map tidySchematic := by
  intro n
  induction n with
  | zero => intro s p; cases p <;> rfl
  | succ n ih =>
    intro s p
    cases p with
    | nil => rfl
    | cons l p =>
      have := parseItem_tidy s (l :: p)
      simp only [tl, List.map_cons] at this ⊢
      simp only [parseItems]
      rw [this, map_of_bind, map_bind]
      refine bind_congr fun r => ?_
      obtain ⟨s, p⟩ := r
      simp only [next_tidy]
      exact ih s _

open Sch in
/-- The schematic reader with normalised spacing. -/
theorem sch_tidy {F : Type} [Flt F] (n : Option Str) (ls : List Str) :
    (Sch.parseLines n (ls.map tidyLine) : Res (Schematic F)) = (Sch.parseLines n ls).map tidySchematic := by
  unfold Sch.parseLines
  simp only
  rw [assumeLine_tidy (tidy_eq_exact 'E' (.inl rfl) _), map_of_bind, map_bind]
  refine bind_congr fun p => ?_
  have := parseLibs_tidy p ({ (Schematic.dflt : Schematic F) with filename := n })
  have e : tidySchematic { (Schematic.dflt : Schematic F) with filename := n } = { Schematic.dflt with filename := n } := rfl
  rw [e] at this
  rw [this]
  generalize parseLibs ({ (Schematic.dflt : Schematic F) with filename := n }) p = r
  obtain ⟨s, p⟩ := r
  simp only
  rw [here_tidy, map_of_bind, map_bind]
  refine bind_congr fun l => ?_
  have hs : startsWith (tidyLine l) (str! "EELAYER ") = startsWith l (str! "EELAYER ") :=
    tidy_of_squeeze (f := fun l => startsWith l (str! "EELAYER ")) (startsWith_blank_squeeze (str! "EELAYER") (by decide)) l
  rw [hs]
  by_cases h : startsWith l (str! "EELAYER ") = true
  · have hl : tidyLine l = l := by
      obtain ⟨r, rfl⟩ := List.isPrefixOf_iff_prefix.1 h
      rfl
    simp only [h, Bool.not_true, Bool.false_eq_true, if_false, hl]
    rw [next_tidy, assumeLine_tidy (tidy_eq_exact 'E' (.inl rfl) _), map_of_bind, map_bind]
    refine bind_congr fun p => ?_
    rw [List.length_map]
    exact parseItems_tidy _ { s with eelayer := l } p
  · simp only [Bool.not_eq_true] at h
    simp only [h, Bool.not_false, if_true]
    rfl

/-! ### What the same squeezed form means -/

theorem squeezeFrom_insert (b : Str) : ∀ (a : Str) (i k : Bool), xor i (a.count '"' % 2 == 1) = false →
    squeezeFrom i k (a ++ ' ' :: ' ' :: b) = squeezeFrom i k (a ++ ' ' :: b) := by
  intro a
  induction a with
  | nil =>
    intro i k h
    obtain rfl : i = false := by simpa using h
    cases k <;> simp [squeezeFrom]
  | cons c a ih =>
    intro i k h
    by_cases hq : c = '"'
    · subst hq
      have : xor (!i) (a.count '"' % 2 == 1) = false := by
        rw [List.count_cons_self] at h
        rcases Nat.mod_two_eq_zero_or_one (a.count '"') with e | e
        · have : (a.count '"' + 1) % 2 = 1 := by omega
          rw [this] at h
          rw [e]
          cases i <;> simp_all
        · have : (a.count '"' + 1) % 2 = 0 := by omega
          rw [this] at h
          rw [e]
          cases i <;> simp_all
      simp only [List.cons_append, squeezeFrom, if_true, ih _ _ this]
    · have h' : xor i (a.count '"' % 2 == 1) = false := by
        rwa [List.count_cons_of_ne hq] at h
      simp only [List.cons_append, squeezeFrom, if_neg hq]
      by_cases hc : c = ' ' ∧ i = false
      · obtain ⟨rfl, rfl⟩ := hc
        simp only [and_self, if_true]
        rw [ih _ _ h']
      · simp only [if_neg hc, ih _ _ h']

/-- A blank can be doubled outside quotes. -/
theorem squeeze_insert (a b : Str) (h : a.count '"' % 2 = 0) :
    squeeze (a ++ ' ' :: ' ' :: b) = squeeze (a ++ ' ' :: b) :=
  squeezeFrom_insert b a false false (by simp [h])

/-! ### Trees -/

theorem space_iff (c : Char) : isSexpSpace c = true ↔ TreeSpace c := by
  simp [isSexpSpace, TreeSpace, or_assoc]

/-- The quoting of a state of the lexer. -/
def quoting : LexMode → Quoting
  | .gap => .out
  | .bare _ => .out
  | .quoted _ => .within
  | .esc _ => .escaped

theorem lex_insert (b : Str) (c : Char) (hc : TreeSpace c) : ∀ (a : Str) (m : LexMode),
    a.foldl Quoting.after (quoting m) = .out →
    ((a = [] → m = .gap) ∧ (∀ x ∈ a.getLast?, TreeBreak x) ∨ (∀ x ∈ b.head?, TreeBreak x)) →
    lexAux m (a ++ c :: b) = lexAux m (a ++ b) := by
  have hs := (space_iff c).2 hc
  intro a
  induction a with
  | nil =>
    intro m hm edge
    have gap : lexAux .gap (c :: b) = lexAux .gap b := by simp [lexAux, hs]
    rcases edge with ⟨h1, _⟩ | h2
    · rw [h1 rfl]; exact gap
    · cases m with
      | gap => exact gap
      | quoted cur => exact absurd hm (by simp [quoting])
      | esc cur => exact absurd hm (by simp [quoting])
      | bare cur =>
        simp only [List.nil_append]
        have hb : lexAux (.bare cur) (c :: b) = (lexAux .gap b).map (.atom cur.reverse :: ·) := by simp [lexAux, hs]
        rw [hb]
        cases b with
        | nil => rfl
        | cons x b =>
          have hx := h2 x (by simp)
          by_cases e : isSexpSpace x = true
          · simp [lexAux, e]
          · rcases hx with hx | rfl | rfl | rfl
            · exact absurd ((space_iff x).2 hx) e
            · simp [lexAux, isSexpSpace, Function.comp_def]
            · simp [lexAux, isSexpSpace, Function.comp_def]
            · simp [lexAux, isSexpSpace]
  | cons x a ih =>
    intro m hm edge
    have edge' : ∀ m' : LexMode, (TreeBreak x → m' = .gap ∨ quoting m' ≠ .out) →
        a.foldl Quoting.after (quoting m') = .out →
        ((a = [] → m' = .gap) ∧ (∀ x ∈ a.getLast?, TreeBreak x) ∨ (∀ x ∈ b.head?, TreeBreak x)) := by
      intro m' h ho
      rcases edge with ⟨_, h1⟩ | h2
      · cases a with
        | nil =>
          left
          refine ⟨fun _ => ?_, by simp⟩
          rcases h (h1 x (by simp)) with e | e
          · exact e
          · exact absurd ho e
        | cons y a =>
          left
          refine ⟨by simp, fun z hz => h1 z (by simpa using hz)⟩
      · exact .inr h2
    have sp : isSexpSpace x = true → x ≠ '"' := by
      rintro h rfl
      exact absurd h (by decide)
    simp only [List.foldl_cons] at hm
    cases m with
    | gap =>
      simp only [List.cons_append, lexAux]
      by_cases e : isSexpSpace x = true
      · rw [if_pos e, if_pos e]
        have hm' : a.foldl Quoting.after (quoting .gap) = .out := by simpa [quoting, Quoting.after, sp e] using hm
        exact ih .gap hm' (edge' .gap (fun _ => .inl rfl) hm')
      rw [if_neg e, if_neg e]
      by_cases e1 : x = '('
      · subst e1
        have hm' : a.foldl Quoting.after (quoting .gap) = .out := by simpa [quoting, Quoting.after] using hm
        rw [if_pos rfl, if_pos rfl, ih .gap hm' (edge' .gap (fun _ => .inl rfl) hm')]
      rw [if_neg e1, if_neg e1]
      by_cases e2 : x = ')'
      · subst e2
        have hm' : a.foldl Quoting.after (quoting .gap) = .out := by simpa [quoting, Quoting.after] using hm
        rw [if_pos rfl, if_pos rfl, ih .gap hm' (edge' .gap (fun _ => .inl rfl) hm')]
      rw [if_neg e2, if_neg e2]
      by_cases e3 : x = '"'
      · subst e3
        have hm' : a.foldl Quoting.after (quoting (.quoted [])) = .out := by simpa [quoting, Quoting.after] using hm
        rw [if_pos rfl, if_pos rfl]
        exact ih (.quoted []) hm' (edge' _ (fun _ => .inr (by simp [quoting])) hm')
      rw [if_neg e3, if_neg e3]
      have hm' : a.foldl Quoting.after (quoting (.bare [x])) = .out := by simpa [quoting, Quoting.after, e3] using hm
      refine ih (.bare [x]) hm' (edge' _ (fun h => ?_) hm')
      rcases h with h | h | h | h
      · exact absurd ((space_iff x).2 h) e
      · exact absurd h e1
      · exact absurd h e2
      · exact absurd h e3
    | bare cur =>
      simp only [List.cons_append, lexAux]
      by_cases e : isSexpSpace x = true
      · rw [if_pos e, if_pos e]
        have hm' : a.foldl Quoting.after (quoting .gap) = .out := by simpa [quoting, Quoting.after, sp e] using hm
        rw [ih .gap hm' (edge' .gap (fun _ => .inl rfl) hm')]
      rw [if_neg e, if_neg e]
      by_cases e1 : x = '('
      · subst e1
        have hm' : a.foldl Quoting.after (quoting .gap) = .out := by simpa [quoting, Quoting.after] using hm
        rw [if_pos rfl, if_pos rfl, ih .gap hm' (edge' .gap (fun _ => .inl rfl) hm')]
      rw [if_neg e1, if_neg e1]
      by_cases e2 : x = ')'
      · subst e2
        have hm' : a.foldl Quoting.after (quoting .gap) = .out := by simpa [quoting, Quoting.after] using hm
        rw [if_pos rfl, if_pos rfl, ih .gap hm' (edge' .gap (fun _ => .inl rfl) hm')]
      rw [if_neg e2, if_neg e2]
      by_cases e3 : x = '"'
      · subst e3
        have hm' : a.foldl Quoting.after (quoting (.quoted [])) = .out := by simpa [quoting, Quoting.after] using hm
        rw [if_pos rfl, if_pos rfl, ih (.quoted []) hm' (edge' _ (fun _ => .inr (by simp [quoting])) hm')]
      rw [if_neg e3, if_neg e3]
      have hm' : a.foldl Quoting.after (quoting (.bare (x :: cur))) = .out := by
        simpa [quoting, Quoting.after, e3] using hm
      refine ih (.bare (x :: cur)) hm' (edge' _ (fun h => ?_) hm')
      rcases h with h | h | h | h
      · exact absurd ((space_iff x).2 h) e
      · exact absurd h e1
      · exact absurd h e2
      · exact absurd h e3
    | quoted cur =>
      simp only [List.cons_append, lexAux]
      by_cases e1 : x = '"'
      · subst e1
        have hm' : a.foldl Quoting.after (quoting .gap) = .out := by simpa [quoting, Quoting.after] using hm
        rw [if_pos rfl, if_pos rfl, ih .gap hm' (edge' .gap (fun _ => .inl rfl) hm')]
      rw [if_neg e1, if_neg e1]
      by_cases e2 : x = '\\'
      · subst e2
        have hm' : a.foldl Quoting.after (quoting (.esc cur)) = .out := by simpa [quoting, Quoting.after] using hm
        rw [if_pos rfl, if_pos rfl]
        exact ih _ hm' (edge' _ (fun _ => .inr (by simp [quoting])) hm')
      rw [if_neg e2, if_neg e2]
      have hm' : a.foldl Quoting.after (quoting (.quoted (x :: cur))) = .out := by
        simpa [quoting, Quoting.after, e1, e2] using hm
      exact ih _ hm' (edge' _ (fun _ => .inr (by simp [quoting])) hm')
    | esc cur =>
      simp only [List.cons_append, lexAux]
      have hm' : ∀ cur, a.foldl Quoting.after (quoting (.quoted cur)) = .out := by
        intro cur
        simpa [quoting, Quoting.after] using hm
      by_cases e1 : x = '"'
      · rw [if_pos e1, if_pos e1]
        exact ih _ (hm' _) (edge' _ (fun _ => .inr (by simp [quoting])) (hm' _))
      · rw [if_neg e1, if_neg e1]
        exact ih _ (hm' _) (edge' _ (fun _ => .inr (by simp [quoting])) (hm' _))

/-- Tokens do not depend on how the text is laid out. -/
theorem lex_reflow {t t' : Str} (h : Reflow t t') : lex t' = lex t := by
  obtain ⟨a, b, c, hc, ho, he⟩ := h
  refine lex_insert b c hc a .gap ho ?_
  rcases he with h | h
  · exact .inl ⟨fun _ => rfl, h⟩
  · exact .inr h

theorem parseSexp_reflow {t t' : Str} (h : Reflow t t') : parseSexp t' = parseSexp t := by
  rw [parseSexp, lex_reflow h, parseSexp]

end Verif.Spacing
