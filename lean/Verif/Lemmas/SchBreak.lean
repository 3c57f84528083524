import Verif.Lemmas.SchSheetGrammar
import Verif.Lemmas.SchPanic
import Verif.Spec.SchematicPanics
/-!
# Lemmas: where the reader of schematics panics, exactly
-/

set_option linter.unusedSimpArgs false

namespace Verif.Sch
open Verif Res Spec

variable {F : Type} [Flt F]

theorem quiet_iff {α : Type} {x : Res α} (h : x.Quiet) : x = .panic ↔ False := ⟨h, False.elim⟩

theorem bind_panic_quiet {α β : Type} {x : Res α} {f : α → Res β} (h : x.Quiet) :
    (x >>= f) = .panic ↔ ∃ a, x = .ok a ∧ f a = .panic := by
  rw [Res.bind_eq_panic, quiet_iff h, false_or]

theorem i64R_bind {β : Type} (s : Str) (f : Int → Res β) :
    (i64R s >>= f) = .panic ↔ ∃ i, IntWord s i ∧ f i = .panic := by
  simp only [bind_panic_quiet (i64R_quiet s), i64R_iff]

theorem f64R_bind {β : Type} (s : Str) (f : F → Res β) :
    (f64R s >>= f) = .panic ↔ ∃ i, FloatWord s i ∧ f i = .panic := by
  simp only [bind_panic_quiet (f64R_quiet s), f64R_iff]

theorem charAt_bind {β : Type} (s : Str) (n : Nat) (f : Char → Res β) :
    (charAt s n >>= f) = .panic ↔ s.length ≤ n ∨ ∃ c, s[n]? = some c ∧ f c = .panic := by
  rw [Res.bind_eq_panic]
  unfold charAt
  cases h : s[n]? with
  | none => simpa using h
  | some c =>
    have : n < s.length := by
      by_contra hc
      rw [List.getElem?_eq_none_iff.2 (by omega)] at h
      cases h
    simp
    omega

theorem tableRead_quiet {α β : Type} [DecidableEq α] (t : List (α × β)) (w : α) : (Lib.tableRead t w).Quiet := by
  induction t with
  | nil => exact quiet_err _
  | cons a t ih =>
    obtain ⟨a, b⟩ := a
    unfold Lib.tableRead
    exact quiet_ite (quiet_ok _) ih

/-- A field line makes the reader panic exactly if a letter is missing in it. -/
theorem fieldNew_breaks (line : Str) :
    (splitQ line >>= fun v => (Field.new v : Res (Field F))) = .panic ↔ ShortField F line := by
  have hb : ∀ (w : Str) b, boolFrom w (str! "0000") (str! "0001") = .ok b ↔ Choice (str! "0000") (str! "0001") w b :=
    fun w b => boolFrom_iff _ _ _ _ (by decide)
  have hb1 : ∀ (w : Char) b, boolFrom w 'I' 'N' = .ok b ↔ Choice 'I' 'N' w b :=
    fun w b => boolFrom_iff _ _ _ _ (by decide)
  have hd : ∀ {β : Type} (c : Char) (f : Orientation → Res β),
      (Orientation.new c >>= f) = .panic ↔ ∃ o, (c, o) ∈ directions ∧ f o = .panic := by
    intro β c f
    simp only [bind_panic_quiet (Orientation.new_quiet c), direction_iff]
  have hj : ∀ {β : Type} (c : Char) (f : Justify → Res β),
      (Justify.new c >>= f) = .panic ↔ ∃ o, (c, o) ∈ alignments ∧ f o = .panic := by
    intro β c f
    simp only [bind_panic_quiet (Justify.new_quiet c), alignment_iff]
  have h7 : ∀ {β : Type} (w : Str) (f : Bool → Res β), (boolFrom w (str! "0000") (str! "0001") >>= f) = .panic ↔
      ∃ b, Choice (str! "0000") (str! "0001") w b ∧ f b = .panic := by
    intro β c f
    simp only [bind_panic_quiet (boolFrom_quiet _ _ _), hb]
  have h8 : ∀ {β : Type} (w : Char) (f : Bool → Res β), (boolFrom w 'I' 'N' >>= f) = .panic ↔
      ∃ b, Choice 'I' 'N' w b ∧ f b = .panic := by
    intro β c f
    simp only [bind_panic_quiet (boolFrom_quiet _ _ _), hb1]
  have h9 : ∀ {β : Type} (w : Char) (g : Bool → β), ¬ (boolFrom w 'B' 'N' >>= fun b => Res.ok (g b)) = .panic := by
    intro β c f
    rw [bind_panic_quiet (boolFrom_quiet _ _ _)]
    rintro ⟨_, _, h⟩
    cases h
  have hn : ∀ {β : Type} (i : Int) (f : Str → Res β), (Lib.tableRead fixedNames i >>= f) = .panic ↔
      ∃ n, (i, n) ∈ fixedNames ∧ f n = .panic := by
    intro β c f
    simp only [bind_panic_quiet (tableRead_quiet _ _), Lib.tableRead_iff fixedNames (by decide)]
  have tail : ∀ (c d e s g h j : Str) (k : Orientation → F → F → Int → Bool → Justify → Justify → Bool → Bool → Field F),
      (do
        let orientation ← Orientation.new (← charAt c 0)
        let x ← f64R d
        let y ← f64R e
        let size ← i64R s
        let visible ← boolFrom g (str! "0000") (str! "0001")
        let hjustify ← Justify.new (← charAt h 0)
        let vjustify ← Justify.new (← charAt j 0)
        let italic ← boolFrom (← charAt j 1) 'I' 'N'
        let bold ← boolFrom (← charAt j 2) 'B' 'N'
        Res.ok (k orientation x y size visible hjustify vjustify italic bold)) = .panic ↔
      LetterMissing F c d e s g h j := by
    intro c d e s g h j k
    unfold LetterMissing
    simp only [charAt_bind, hd, hj, f64R_bind, i64R_bind, h7, h8, h9, and_false, exists_false, or_false,
      Nat.le_zero, List.length_eq_zero_iff]
    refine or_congr Iff.rfl ?_
    constructor
    · rintro ⟨c0, hc, o, ho, x, hx, y, hy, z, hz, v, hv, hh⟩
      cases c with
      | nil => cases hc
      | cons c1 c =>
        cases hc
        refine ⟨⟨_, _, _, rfl, ho⟩, ⟨x, hx⟩, ⟨y, hy⟩, ⟨z, hz⟩, hv.imp And.left And.left, ?_⟩
        rcases hh with hh | ⟨c1, hc, o, ho, hh⟩
        · exact .inl hh
        right
        cases h with
        | nil => cases hc
        | cons c2 h =>
          cases hc
          refine ⟨⟨_, _, _, rfl, ho⟩, ?_⟩
          rcases hh with hh | ⟨c1, hc, o, ho, hh⟩
          · exact .inl hh
          right
          cases j with
          | nil => cases hc
          | cons c2 j =>
            cases hc
            refine ⟨_, ⟨_, _, _, rfl, ho⟩, ?_⟩
            rcases hh with hh | ⟨c1, hc, b, hb, hh⟩
            · left
              cases j with
              | nil => rfl
              | cons => simp at hh
            · right
              match j, hc, hh with
              | [c], hc, hh =>
                cases hc
                rcases hb with ⟨rfl, _⟩ | ⟨rfl, _⟩
                · exact .inl rfl
                · exact .inr rfl
              | _ :: _ :: _, hc, hh => simp at hh
    · rintro ⟨⟨c0, r, o, rfl, ho⟩, ⟨x, hx⟩, ⟨y, hy⟩, ⟨z, hz⟩, hv, hh⟩
      have hv : ∃ b, Choice (str! "0000") (str! "0001") g b := by
        rcases hv with h | h
        · exact ⟨true, .inl ⟨h, rfl⟩⟩
        · exact ⟨false, .inr ⟨h, rfl⟩⟩
      obtain ⟨v, hv⟩ := hv
      refine ⟨c0, rfl, o, ho, x, hx, y, hy, z, hz, v, hv, ?_⟩
      rcases hh with hh | ⟨⟨c1, r, o, rfl, ho⟩, hh⟩
      · exact .inl hh
      refine .inr ⟨c1, rfl, o, ho, ?_⟩
      rcases hh with hh | ⟨c2, ⟨c3, r, o, e, ho⟩, hh⟩
      · exact .inl hh
      cases e
      rcases hh with rfl | rfl | rfl
      · exact .inr ⟨c2, rfl, o, ho, .inl (by simp)⟩
      · exact .inr ⟨c2, rfl, o, ho, .inr ⟨'I', rfl, true, .inl ⟨rfl, rfl⟩, by simp⟩⟩
      · exact .inr ⟨c2, rfl, o, ho, .inr ⟨'N', rfl, false, .inr ⟨rfl, rfl⟩, by simp⟩⟩
  have fixed : ∀ i, (∃ n, (i, n) ∈ fixedNames) ↔ i ∈ fixedNames.map Prod.fst := by simp
  have new10 : ∀ z a b c d e f g i j : Str, (Field.new [z, a, b, c, d, e, f, g, i, j] : Res (Field F)) = .panic ↔
      ∃ n, IntWord a n ∧ (∃ nm, (n, nm) ∈ fixedNames) ∧ LetterMissing F c d e f g i j := by
    intro z a b c d e f g i j
    rw [fieldNew_eq, if_neg (by simp)]
    simp only [fieldName, idx, Res.bind_ok, List.getElem?_cons_succ, List.getElem?_cons_zero, List.length_cons,
      List.length_nil, Nat.reduceAdd, Nat.reduceEqDiff, if_false, i64R_bind, hn, tail, exists_and_right]
  have new11 : ∀ z a b c d e f g i j k : Str,
      (Field.new [z, a, b, c, d, e, f, g, i, j, k] : Res (Field F)) = .panic ↔
      ∃ n, IntWord a n ∧ LetterMissing F c d e f g i j := by
    intro z a b c d e f g i j k
    rw [fieldNew_eq, if_neg (by simp)]
    simp only [fieldName, idx, Res.bind_ok, List.getElem?_cons_succ, List.getElem?_cons_zero, List.length_cons,
      List.length_nil, Nat.reduceAdd, if_true, i64R_bind, tail]
  constructor
  · intro h
    obtain ⟨v, hv, h⟩ := (bind_panic_quiet (splitQ_quiet _)).1 h
    rw [C74_split] at hv
    have hl := (Field.new_panic h).1
    rcases hl with hl | hl
    · match v, hl with
      | [z, a, b, c, d, e, f, g, i, j], _ =>
        obtain ⟨n, hn, ⟨nm, h1⟩, h2⟩ := (new10 ..).1 h
        exact ⟨_, _, _, _, _, _, _, _, _, _, [], hv, ⟨n, hn, .inl ⟨rfl, (fixed _).1 ⟨nm, h1⟩⟩⟩, h2⟩
    · match v, hl with
      | [z, a, b, c, d, e, f, g, i, j, k], _ =>
        obtain ⟨n, hn, h2⟩ := (new11 ..).1 h
        exact ⟨_, _, _, _, _, _, _, _, _, _, [k], hv, ⟨n, hn, .inr rfl⟩, h2⟩
  · rintro ⟨z, a, b, c, d, e, f, g, i, j, name, hv, ⟨n, h1, h2⟩, h3⟩
    refine (bind_panic_quiet (splitQ_quiet _)).2 ⟨_, (C74_split ..).2 hv, ?_⟩
    rcases h2 with ⟨rfl, h2⟩ | h2
    · exact (new10 ..).2 ⟨n, h1, (fixed _).2 h2, h3⟩
    · match name, h2 with
      | [k], _ => exact (new11 ..).2 ⟨n, h1, h3⟩

theorem componentF_breaks (s : Str) (d : Component F) : parseComponentF s d = .panic ↔ ShortField F s := by
  rw [← fieldNew_breaks]
  unfold parseComponentF
  rw [bind_panic_quiet (splitQ_quiet _), bind_panic_quiet (splitQ_quiet _)]
  refine exists_congr fun v => and_congr Iff.rfl ?_
  rw [Res.bind_eq_panic]
  simp

/-- Where the lines of a component break off. -/
theorem component_breaks : ∀ (n : Nat) (p : List Str) (d : Component F), p.length ≤ n → parseComponentLoop d p = .panic →
    ∃ ls es, CompLines (F := F) ls es ∧ (p = ls ∨
      (∃ l, p = ls ++ [l] ∧ (BeginsWith (str! "1") l ∨ BeginsWith (str! "0") l)) ∨
      ∃ l r, p = ls ++ l :: r ∧ BeginsWith (str! "F") l ∧ ShortField F l) := by
  intro n
  induction n with
  | zero =>
    intro p d hn h
    cases p with
    | nil => exact ⟨[], [], .nil, .inl rfl⟩
    | cons => simp at hn
  | succ n ih =>
    intro p d hn h
    cases p with
    | nil => exact ⟨[], [], .nil, .inl rfl⟩
    | cons s p =>
      simp only [List.length_cons, Nat.succ_le_succ_iff] at hn
      have one : ∀ (d' : Component F) (e : List (CompEntry F)), (∀ ls es, CompLines (F := F) ls es → CompLines (s :: ls) (e ++ es)) →
          parseComponentLoop d' p = .panic → ∃ ls es, CompLines (F := F) ls es ∧ (s :: p = ls ∨
            (∃ l, s :: p = ls ++ [l] ∧ (BeginsWith (str! "1") l ∨ BeginsWith (str! "0") l)) ∨
            ∃ l r, s :: p = ls ++ l :: r ∧ BeginsWith (str! "F") l ∧ ShortField F l) := by
        intro d' e he h
        obtain ⟨ls, es, hc, hp⟩ := ih p d' hn h
        refine ⟨s :: ls, e ++ es, he _ _ hc, ?_⟩
        rcases hp with rfl | ⟨l, rfl, hb⟩ | ⟨l, r, rfl, hb⟩
        · exact .inl rfl
        · exact .inr (.inl ⟨l, rfl, hb⟩)
        · exact .inr (.inr ⟨l, r, rfl, hb⟩)
      rw [component_loop] at h
      split at h
      · cases h
      rename_i hend
      split at h
      · rename_i hb
        obtain ⟨d', hd, h⟩ := (bind_panic_quiet (parseComponentL_quiet _ _)).1 h
        obtain ⟨nm, r, rest, hw, rfl⟩ := (componentL_iff ..).1 hd
        exact one _ [_] (fun _ _ hc => .names ((firstWord_iff ..).1 hb) hw hc) h
      rename_i hL
      split at h
      · rename_i hb
        exact one _ [_] (fun _ _ hc => .unit ((firstWord_iff ..).1 hb) hc) h
      rename_i hU
      split at h
      · rename_i hb
        obtain ⟨d', hd, h⟩ := (bind_panic_quiet (parseComponentP_quiet _ _)).1 h
        obtain ⟨x, y, hw, rfl⟩ := (componentP_iff ..).1 hd
        exact one _ [_] (fun _ _ hc => .position ((firstWord_iff ..).1 hb) hw hc) h
      rename_i hP
      split at h
      · rename_i hb
        rcases Res.bind_eq_panic.1 h with h | ⟨d', hd, h⟩
        · exact ⟨[], [], .nil, .inr (.inr ⟨s, p, rfl, (firstWord_iff ..).1 hb, (componentF_breaks ..).1 h⟩)⟩
        · obtain ⟨f, hw, rfl⟩ := (componentF_iff ..).1 hd
          exact one _ [_] (fun _ _ hc => .field ((firstWord_iff ..).1 hb) hw hc) h
      rename_i hF
      split at h
      · rename_i hb
        simp only [firstWord_iff] at hb
        cases p with
        | nil => exact ⟨[], [], .nil, .inr (.inl ⟨s, rfl, hb⟩)⟩
        | cons s2 p =>
          obtain ⟨r, hr, h⟩ := (bind_panic_quiet (parseRotation_quiet _)).1 h
          obtain ⟨ls, es, hc, hp⟩ := ih p _ (by simp at hn; omega) h
          refine ⟨s :: s2 :: ls, _ :: es, .rotation hb ((rotation_iff ..).1 hr) hc, ?_⟩
          rcases hp with rfl | ⟨l, rfl, hb⟩ | ⟨l, r, rfl, hb⟩
          · exact .inl rfl
          · exact .inr (.inl ⟨l, rfl, hb⟩)
          · exact .inr (.inr ⟨l, r, rfl, hb⟩)
      rename_i hR
      split at h
      · rename_i hb
        exact one _ [_] (fun _ _ hc => .path ((firstWord_iff ..).1 hb) hc) h
      rename_i hA
      refine one _ [] (fun _ _ hc => .other ?_ hend hc) h
      rw [not_or] at hR
      simp only [firstWord_iff] at hL hU hP hF hR hA
      simpa [compWords] using ⟨hL, hU, hP, hF, hR.1, hR.2, hA⟩

/-- The lines of a sheet break off only at the end of the file. -/
theorem sheet_breaks : ∀ (p : List Str) (d : Sheet), parseSheetLoop d p = .panic → ∃ es, SheetLines p es := by
  intro p
  induction p with
  | nil => exact fun _ _ => ⟨[], .nil⟩
  | cons s p ih =>
    intro d h
    rw [parseSheetLoop] at h
    split at h
    · cases h
    rename_i hend
    cases hw : firstWord s with
    | none =>
      rw [hw] at h
      obtain ⟨es, hs⟩ := ih d h
      have : ∀ w, ¬ BeginsWith w s := fun w hb => by rw [← firstWord_iff, hw] at hb; cases hb
      exact ⟨es, .other (this _) (this _) (fun _ => this _) hend hs⟩
    | some w =>
      rw [hw] at h
      dsimp only at h
      have hb := (firstWord_iff ..).1 hw
      split at h
      · rename_i e
        subst e
        obtain ⟨d', hd, h⟩ := (bind_panic_quiet (parseSheetS_quiet _ _)).1 h
        obtain ⟨x, y, dx, dy, hl, rfl⟩ := (sheetS_iff ..).1 hd
        obtain ⟨es, hs⟩ := ih _ h
        exact ⟨_, .box hb hl hs⟩
      rename_i h1
      split at h
      · rename_i e
        subst e
        obtain ⟨d', hd, h⟩ := (bind_panic_quiet (parseSheetU_quiet _ _)).1 h
        obtain ⟨u, hl, rfl⟩ := (sheetU_iff ..).1 hd
        obtain ⟨es, hs⟩ := ih _ h
        exact ⟨_, .unique hb hl hs⟩
      rename_i h2
      split at h
      · rename_i hF
        obtain ⟨n, rfl⟩ := List.isPrefixOf_iff_prefix.1 hF
        obtain ⟨d', hd, h⟩ := (bind_panic_quiet (parseSheetF_quiet _ _ _)).1 h
        obtain ⟨i, x, hi, hx, rfl⟩ := (sheetF_iff ..).1 hd
        obtain ⟨es, hs⟩ := ih _ h
        rcases hx with ⟨rfl, _, _, hx, rfl⟩ | ⟨rfl, _, _, hx, rfl⟩ | ⟨h0, h1, _, hx, rfl⟩
        · exact ⟨_, .name ⟨_, hb, hi⟩ hx hs⟩
        · exact ⟨_, .file ⟨_, hb, hi⟩ hx hs⟩
        · exact ⟨_, .label ⟨_, hb, hi⟩ h0 h1 hx hs⟩
      · rename_i hF
        obtain ⟨es, hs⟩ := ih _ h
        refine ⟨es, .other ?_ ?_ ?_ hend hs⟩
        · rw [← firstWord_iff, hw, Option.some.injEq]; exact h1
        · rw [← firstWord_iff, hw, Option.some.injEq]; exact h2
        · intro n
          rw [← firstWord_iff, hw, Option.some.injEq]
          rintro rfl
          exact hF (List.isPrefixOf_iff_prefix.2 ⟨n, rfl⟩)

/-! ## The title block -/

theorem here_bind {β : Type} (p : List Str) (f : Str → Res β) :
    (here p >>= f) = .panic ↔ p = [] ∨ ∃ l q, p = l :: q ∧ f l = .panic := by
  cases p with
  | nil => simp [here]
  | cons a p => simp [here]

theorem entry_bind {β : Type} (n s : Str) (f : Str → Res β) :
    (wordAndQstring n s >>= f) = .panic ↔ ∃ v, EntryLine n s v ∧ f v = .panic := by
  simp only [bind_panic_quiet (wordAndQstring_quiet _ _), entry_iff]

/-- The rest of an empty title block. -/
def blankDescr : List Str := [str! "encoding utf-8",
    str! "Sheet 1 1",
    str! "Title \"\"",
    str! "Date \"\"",
    str! "Rev \"\"",
    str! "Comp \"\"",
    str! "Comment1 \"\"",
    str! "Comment2 \"\"",
    str! "Comment3 \"\"",
    str! "Comment4 \"\"",
    str! "$EndDescr"]

theorem splitN_bind {β : Type} (n : Nat) (s : Str) (f : List Str → Res β) :
    (splitN n s >>= f) = .panic ↔ ∃ ws, FirstWords n s ws ∧ f ws = .panic := by
  simp only [bind_panic_quiet (splitN_quiet _ _), splitN_iff]

/-- A title block breaks off only at the end of the file. -/
theorem descr_breaks {s : Str} {rest : List Str} (h : parseDescription (s :: rest) = .panic) :
    ∃ more d, more ≠ [] ∧ DescrLines (s :: rest ++ more) d := by
  have eTitle : EntryLine (str! "Title") (str! "Title \"\"") [] := (entry_iff ..).1 rfl
  have eDate : EntryLine (str! "Date") (str! "Date \"\"") [] := (entry_iff ..).1 rfl
  have eRev : EntryLine (str! "Rev") (str! "Rev \"\"") [] := (entry_iff ..).1 rfl
  have eComp : EntryLine (str! "Comp") (str! "Comp \"\"") [] := (entry_iff ..).1 rfl
  have eComment1 : EntryLine (str! "Comment1") (str! "Comment1 \"\"") [] := (entry_iff ..).1 rfl
  have eComment2 : EntryLine (str! "Comment2") (str! "Comment2 \"\"") [] := (entry_iff ..).1 rfl
  have eComment3 : EntryLine (str! "Comment3") (str! "Comment3 \"\"") [] := (entry_iff ..).1 rfl
  have eComment4 : EntryLine (str! "Comment4") (str! "Comment4 \"\"") [] := (entry_iff ..).1 rfl
  have eS : ∃ number count rest, FirstWords 3 (str! "Sheet 1 1") (str! "Sheet" :: number :: count :: rest) ∧
      IntWord number 1 ∧ IntWord count 1 :=
    ⟨str! "1", str! "1", [], (splitN_iff ..).1 rfl, (i64R_iff ..).1 rfl, (i64R_iff ..).1 rfl⟩
  unfold parseDescription at h
  rw [show here (s :: rest) = .ok s from rfl, Res.bind_ok, splitN_bind] at h
  obtain ⟨v, hv, h⟩ := h
  obtain ⟨x, size, a, b, r, rfl⟩ : ∃ x y z w r, v = x :: y :: z :: w :: r := by
    match v, hv.2 with
    | x :: y :: z :: w :: r, _ => exact ⟨x, y, z, w, r, rfl⟩
  simp only [idx, List.getElem?_cons_succ, List.getElem?_cons_zero, Res.bind_ok, i64R_bind, next, List.drop_succ_cons,
    List.drop_zero, List.drop_drop] at h
  obtain ⟨dimx, ha, dimy, hb, h⟩ := h
  have h0 : ∃ first dimx' dimy' rest, FirstWords 4 s (first :: size :: dimx' :: dimy' :: rest) ∧ IntWord dimx' dimx ∧
    IntWord dimy' dimy := ⟨x, a, b, r, hv, ha, hb⟩
  cases rest with
  | nil =>
    exact ⟨blankDescr.drop 0, ⟨size, dimx, dimy, [], [], [], [], [], [], [], [], 1, 1⟩, by simp [blankDescr],
      _, _, _, _, _, _, _, _, _, _, _, rfl, h0, eS,
      eTitle, eDate, eRev, eComp, eComment1, eComment2, eComment3, eComment4⟩
  | cons enc rest =>
  simp only [List.drop_succ_cons, List.drop_zero] at h
  rcases (here_bind ..).1 h with rfl | ⟨l, rest, rfl, h⟩
  · exact ⟨blankDescr.drop 1, ⟨size, dimx, dimy, [], [], [], [], [], [], [], [], 1, 1⟩, by simp [blankDescr],
      _, _, _, _, _, _, _, _, _, _, _, rfl, h0, eS,
      eTitle, eDate, eRev, eComp, eComment1, eComment2, eComment3, eComment4⟩
  obtain ⟨v, hv, h⟩ := (splitN_bind ..).1 h
  obtain ⟨x, a, b, r, rfl⟩ : ∃ x y z r, v = x :: y :: z :: r := by
    match v, hv.2 with
    | x :: y :: z :: r, _ => exact ⟨x, y, z, r, rfl⟩
  simp only [idx, List.getElem?_cons_succ, List.getElem?_cons_zero, Res.bind_ok] at h
  split at h
  · cases h
  rename_i hx
  rw [ne_eq, Decidable.not_not] at hx
  subst hx
  simp only [i64R_bind, List.drop_succ_cons, List.drop_zero] at h
  obtain ⟨sheet, ha, count, hb, h⟩ := h
  have hS : ∃ number count' rest, FirstWords 3 l (str! "Sheet" :: number :: count' :: rest) ∧
    IntWord number sheet ∧ IntWord count' count := ⟨a, b, r, hv, ha, hb⟩
  rcases (here_bind ..).1 h with rfl | ⟨l0, rest, rfl, h⟩
  · exact ⟨blankDescr.drop 2, ⟨size, dimx, dimy, [], [], [], [], [], [], [], [], sheet, count⟩, by simp [blankDescr],
      _, _, _, _, _, _, _, _, _, _, _, rfl, h0, hS,
      eTitle, eDate, eRev, eComp, eComment1, eComment2, eComment3, eComment4⟩
  obtain ⟨titleV, htitle, h⟩ := (entry_bind ..).1 h
  simp only [List.drop_succ_cons, List.drop_zero] at h
  rcases (here_bind ..).1 h with rfl | ⟨l1, rest, rfl, h⟩
  · exact ⟨blankDescr.drop 3, ⟨size, dimx, dimy, titleV, [], [], [], [], [], [], [], sheet, count⟩, by simp [blankDescr],
      _, _, _, _, _, _, _, _, _, _, _, rfl, h0, hS,
      htitle, eDate, eRev, eComp, eComment1, eComment2, eComment3, eComment4⟩
  obtain ⟨dateV, hdate, h⟩ := (entry_bind ..).1 h
  simp only [List.drop_succ_cons, List.drop_zero] at h
  rcases (here_bind ..).1 h with rfl | ⟨l2, rest, rfl, h⟩
  · exact ⟨blankDescr.drop 4, ⟨size, dimx, dimy, titleV, dateV, [], [], [], [], [], [], sheet, count⟩, by simp [blankDescr],
      _, _, _, _, _, _, _, _, _, _, _, rfl, h0, hS,
      htitle, hdate, eRev, eComp, eComment1, eComment2, eComment3, eComment4⟩
  obtain ⟨revV, hrev, h⟩ := (entry_bind ..).1 h
  simp only [List.drop_succ_cons, List.drop_zero] at h
  rcases (here_bind ..).1 h with rfl | ⟨l3, rest, rfl, h⟩
  · exact ⟨blankDescr.drop 5, ⟨size, dimx, dimy, titleV, dateV, revV, [], [], [], [], [], sheet, count⟩, by simp [blankDescr],
      _, _, _, _, _, _, _, _, _, _, _, rfl, h0, hS,
      htitle, hdate, hrev, eComp, eComment1, eComment2, eComment3, eComment4⟩
  obtain ⟨compV, hcomp, h⟩ := (entry_bind ..).1 h
  simp only [List.drop_succ_cons, List.drop_zero] at h
  rcases (here_bind ..).1 h with rfl | ⟨l4, rest, rfl, h⟩
  · exact ⟨blankDescr.drop 6, ⟨size, dimx, dimy, titleV, dateV, revV, compV, [], [], [], [], sheet, count⟩, by simp [blankDescr],
      _, _, _, _, _, _, _, _, _, _, _, rfl, h0, hS,
      htitle, hdate, hrev, hcomp, eComment1, eComment2, eComment3, eComment4⟩
  obtain ⟨comment1V, hcomment1, h⟩ := (entry_bind ..).1 h
  simp only [List.drop_succ_cons, List.drop_zero] at h
  rcases (here_bind ..).1 h with rfl | ⟨l5, rest, rfl, h⟩
  · exact ⟨blankDescr.drop 7, ⟨size, dimx, dimy, titleV, dateV, revV, compV, comment1V, [], [], [], sheet, count⟩, by simp [blankDescr],
      _, _, _, _, _, _, _, _, _, _, _, rfl, h0, hS,
      htitle, hdate, hrev, hcomp, hcomment1, eComment2, eComment3, eComment4⟩
  obtain ⟨comment2V, hcomment2, h⟩ := (entry_bind ..).1 h
  simp only [List.drop_succ_cons, List.drop_zero] at h
  rcases (here_bind ..).1 h with rfl | ⟨l6, rest, rfl, h⟩
  · exact ⟨blankDescr.drop 8, ⟨size, dimx, dimy, titleV, dateV, revV, compV, comment1V, comment2V, [], [], sheet, count⟩, by simp [blankDescr],
      _, _, _, _, _, _, _, _, _, _, _, rfl, h0, hS,
      htitle, hdate, hrev, hcomp, hcomment1, hcomment2, eComment3, eComment4⟩
  obtain ⟨comment3V, hcomment3, h⟩ := (entry_bind ..).1 h
  simp only [List.drop_succ_cons, List.drop_zero] at h
  rcases (here_bind ..).1 h with rfl | ⟨l7, rest, rfl, h⟩
  · exact ⟨blankDescr.drop 9, ⟨size, dimx, dimy, titleV, dateV, revV, compV, comment1V, comment2V, comment3V, [], sheet, count⟩, by simp [blankDescr],
      _, _, _, _, _, _, _, _, _, _, _, rfl, h0, hS,
      htitle, hdate, hrev, hcomp, hcomment1, hcomment2, hcomment3, eComment4⟩
  obtain ⟨comment4V, hcomment4, h⟩ := (entry_bind ..).1 h
  simp only [List.drop_succ_cons, List.drop_zero] at h
  rcases (here_bind ..).1 h with rfl | ⟨l8, rest, rfl, h⟩
  · exact ⟨blankDescr.drop 10, ⟨size, dimx, dimy, titleV, dateV, revV, compV, comment1V, comment2V, comment3V, comment4V, sheet, count⟩, by simp [blankDescr],
      _, _, _, _, _, _, _, _, _, _, _, rfl, h0, hS,
      htitle, hdate, hrev, hcomp, hcomment1, hcomment2, hcomment3, hcomment4⟩
  obtain ⟨_, _, h⟩ := (bind_panic_quiet (assumeString_quiet _ _)).1 h
  cases h

/-- A title block that is cut off makes the reader panic. -/
theorem descr_cut {s : Str} {rest more : List Str} {d : Description} (h0 : more ≠ []) (h : DescrLines (s :: rest ++ more) d) :
    parseDescription (s :: rest) = .panic := by
  obtain ⟨descr, encoding, sheet, title, date, rev, comp, c1, c2, c3, c4, hl, ⟨x, a, b, r, hw, ha, hb⟩,
    ⟨n, c, r2, hw2, hn, hc⟩, h1, h2, h3, h4, h5, h6, h7, h8⟩ := h
  rw [← entry_iff] at h1 h2 h3 h4 h5 h6 h7 h8
  rw [← splitN_iff] at hw hw2
  rw [← i64R_iff] at ha hb hn hc
  have hs : s = descr := by injection hl
  subst hs
  have hp : rest <+: [encoding, sheet, title, date, rev, comp, c1, c2, c3, c4, str! "$EndDescr"] := by
    injection hl with _ hl
    exact ⟨more, hl⟩
  have hn12 : rest.length ≤ 10 := by
    have := congrArg List.length hl
    have := List.length_pos_iff.2 h0
    simp at *
    omega
  rw [List.prefix_iff_eq_take] at hp
  generalize rest.length = k at hp hn12
  clear hl
  subst hp
  unfold parseDescription
  rw [show ∀ r, here (s :: r) = .ok s from fun _ => rfl, Res.bind_ok, hw, Res.bind_ok]
  simp only [idx, List.getElem?_cons_succ, List.getElem?_cons_zero, Res.bind_ok, next, ha, hb, List.drop_succ_cons,
    List.drop_zero, List.drop_drop]
  obtain rfl | rfl | rfl | rfl | rfl | rfl | rfl | rfl | rfl | rfl | rfl :
    k = 0 ∨ k = 1 ∨ k = 2 ∨ k = 3 ∨ k = 4 ∨ k = 5 ∨ k = 6 ∨ k = 7 ∨ k = 8 ∨ k = 9 ∨ k = 10 := by omega
  all_goals
    simp [here, hw2, hn, hc, h1, h2, h3, h4, h5, h6, h7, h8]

/-! ## Wires and texts -/

theorem wire_breaks {s : Str} {rest : List Str} (hw : firstWord s = some (str! "Wire")) :
    parseWire (s :: rest) = .panic ↔ rest = [] ∧ ∃ kind third, SpacedWords s [str! "Wire", kind, third] := by
  simp only [← splitWs_iff]
  constructor
  · intro h
    have hr := parseWire_panic.1 h
    refine ⟨hr, ?_⟩
    subst hr
    unfold firstWord at hw
    unfold parseWire at h
    rw [show here [s] = .ok s from rfl, Res.bind_ok] at h
    simp only at h
    split at h
    · cases h
    · rename_i hl
      match hv : splitWs s, Decidable.not_not.1 hl with
      | [a, b, c], _ =>
        rw [hv] at hw
        cases hw
        exact ⟨_, _, rfl⟩
  · rintro ⟨rfl, kind, third, h⟩
    simp [parseWire, h, here, next, idx]

theorem text_breaks {s : Str} {rest : List Str} (hw : firstWord s = some (str! "Text")) :
    parseText (s :: rest) = .panic ↔ ShortLabelLine s ∨ rest = [] ∧ ∃ t, TextLines [s, []] t := by
  constructor
  · intro h
    unfold parseText at h
    rw [show here (s :: rest) = .ok s from rfl, Res.bind_ok] at h
    simp only at h
    split at h
    · cases h
    rename_i hl
    unfold ShortLabelLine TextLines
    simp only [← splitWs_iff]
    unfold firstWord at hw
    obtain ⟨v, hv⟩ : ∃ v, splitWs s = v := ⟨_, rfl⟩
    rw [hv] at hl hw h
    match v, hl with
    | a :: kind :: x :: y :: o :: z :: b :: c :: r, hl =>
      cases hw
      simp only [idx, List.getElem?_cons_succ, List.getElem?_cons_zero, Res.bind_ok] at h
      obtain ⟨t, ht, h⟩ := (bind_panic_quiet (parseTextType_quiet _)).1 h
      rw [textKind_iff] at ht
      simp only [i64R_bind] at h
      obtain ⟨xv, hx, yv, hy, ov, ho, zv, hz, h⟩ := h
      cases hlo : t.isLocal with
      | true =>
        rw [hlo] at h
        simp only [if_true, List.getElem?_cons_succ, List.getElem?_cons_zero, Res.bind_ok, i64R_bind, here_bind] at h
        obtain ⟨th, hth, h⟩ := h
        rcases h with h | ⟨_, _, _, h⟩
        · right
          refine ⟨h, ⟨t, xv, yv, ov, zv, none, decide (b = str! "Italic"), th, []⟩, s, kind, x, y, o, z, [], b, c, r, rfl, hv, ht,
            hx, hy, ho, hz, rfl, ?_, ?_, hth⟩
          · cases t <;> simp_all [TextType.isLocal]
          · simp
        · cases h
      | false =>
        rw [hlo] at h
        simp only [Bool.false_eq_true, if_false, List.getElem?_cons_succ, List.getElem?_cons_zero, Res.bind_ok] at h
        cases r with
        | nil =>
          left
          refine ⟨kind, x, y, o, z, b, c, hv, ?_, ⟨_, hx⟩, ⟨_, hy⟩, ⟨_, ho⟩, ⟨_, hz⟩⟩
          simp only [textKinds, List.mem_cons, Prod.mk.injEq, List.not_mem_nil, or_false] at ht
          rcases ht with ⟨_, rfl⟩ | ⟨_, rfl⟩ | ⟨hk, rfl⟩ | ⟨hk, rfl⟩
          · cases hlo
          · cases hlo
          · exact .inl hk
          · exact .inr hk
        | cons e r =>
          simp only [List.getElem?_cons_succ, List.getElem?_cons_zero, Res.bind_ok, i64R_bind, here_bind] at h
          obtain ⟨th, hth, h⟩ := h
          rcases h with h | ⟨_, _, _, h⟩
          · right
            refine ⟨h, ⟨t, xv, yv, ov, zv, some b, decide (c = str! "Italic"), th, []⟩, s, kind, x, y, o, z, [b], c, e, r, rfl, hv, ht,
              hx, hy, ho, hz, rfl, ?_, ?_, hth⟩
            · cases t <;> simp_all [TextType.isLocal]
            · simp
          · cases h
    | [], hl => simp at hl
    | [_], hl => simp at hl
    | [_, _], hl => simp at hl
    | [_, _, _], hl => simp at hl
    | [_, _, _, _], hl => simp at hl
    | [_, _, _, _, _], hl => simp at hl
    | [_, _, _, _, _, _], hl => simp at hl
    | [_, _, _, _, _, _, _], hl => simp at hl
  · rintro (⟨kind, x, y, o, z, b, c, hs, hk, ⟨_, hx⟩, ⟨_, hy⟩, ⟨_, ho⟩, ⟨_, hz⟩⟩ |
      ⟨rfl, t, l, kind, x, y, o, z, shape, b, c, r, hl, hs, hk, hx, hy, ho, hz, rfl, hsh, hit, hth⟩)
    · rw [← splitWs_iff] at hs
      rw [← i64R_iff] at hx hy ho hz
      rcases hk with rfl | rfl
      all_goals
        simp [parseText, here, hs, idx, hx, hy, ho, hz, parseTextType, TextType.isLocal]
    · have hl : s = l ∧ [] = t.text := by simpa using hl
      obtain ⟨rfl, htext⟩ := hl
      rw [← splitWs_iff] at hs
      rw [← i64R_iff] at hx hy ho hz hth
      rw [← textKind_iff] at hk
      cases hsp : t.shape with
      | none =>
        have hlo : t.t.isLocal = true := by
          rw [hsp] at hsh
          cases ht : t.t <;> simp_all [TextType.isLocal]
        simp [parseText, here, hs, idx, hx, hy, ho, hz, hk, hsp, hlo, hth, next]
      | some sh =>
        have hlo : t.t.isLocal = false := by
          rw [hsp] at hsh
          cases ht : t.t <;> simp_all [TextType.isLocal]
        simp [parseText, here, hs, idx, hx, hy, ho, hz, hk, hsp, hlo, hth, next]

/-! ## Items -/

theorem compLines_append {a b : List Str} {es fs : List (CompEntry F)} (ha : CompLines a es) (hb : CompLines b fs) :
    CompLines (a ++ b) (es ++ fs) := by
  induction ha with
  | nil => exact hb
  | names h1 h2 _ ih => exact .names h1 h2 ih
  | unit h1 _ ih => exact .unit h1 ih
  | position h1 h2 _ ih => exact .position h1 h2 ih
  | field h1 h2 _ ih => exact .field h1 h2 ih
  | rotation h1 h2 _ ih => exact .rotation h1 h2 ih
  | path h1 _ ih => exact .path h1 ih
  | other h1 h2 _ ih => exact .other h1 h2 ih

/-- The beginning of the lines of a component. -/
theorem component_cut {c : List Str} {es : List (CompEntry F)} (h : CompLines c es) :
    ∀ (ls : List Str) (d : Component F), ls <+: c → parseComponentLoop d ls = .panic := by
  have run : ∀ {l : Str} {e : CompEntry F} {c ls : List Str}, CompLines [l] [e] →
      (∀ (ls : List Str) (d : Component F), ls <+: c → parseComponentLoop d ls = .panic) → ls <+: l :: c →
      ∀ d : Component F, parseComponentLoop d ls = .panic := by
    intro l e c ls h ih hp d
    cases ls with
    | nil => rfl
    | cons a ls =>
      obtain ⟨rfl, hp2⟩ := List.cons_prefix_cons.1 hp
      exact (component_run h ls d).trans (ih _ _ hp2)
  induction h with
  | nil =>
    intro ls d hp
    rw [List.prefix_nil.1 hp]
    rfl
  | names h1 h2 _ ih => exact fun ls d hp => run (.names h1 h2 .nil) ih hp d
  | unit h1 _ ih => exact fun ls d hp => run (.unit h1 .nil) ih hp d
  | position h1 h2 _ ih => exact fun ls d hp => run (.position h1 h2 .nil) ih hp d
  | field h1 h2 _ ih => exact fun ls d hp => run (.field h1 h2 .nil) ih hp d
  | path h1 _ ih => exact fun ls d hp => run (.path h1 .nil) ih hp d
  | @rotation l m r c es h1 h2 _ ih =>
    intro ls d hp
    match ls, hp with
    | [], _ => rfl
    | [a], hp =>
      obtain ⟨rfl, hp⟩ := List.cons_prefix_cons.1 hp
      have he : firstWord (str! "$EndComp") = some (str! "$EndComp") := by decide
      have hne : a ≠ str! "$EndComp" :=
        h1.elim (fun hb => ne_of_begins hb he (by decide)) (fun hb => ne_of_begins hb he (by decide))
      simp only [← firstWord_iff] at h1
      rw [component_loop, if_neg hne, if_neg (by rcases h1 with hb | hb <;> (rw [hb]; decide)),
        if_neg (by rcases h1 with hb | hb <;> (rw [hb]; decide)), if_neg (by rcases h1 with hb | hb <;> (rw [hb]; decide)),
        if_neg (by rcases h1 with hb | hb <;> (rw [hb]; decide)), if_pos h1]
    | a :: b :: ls, hp =>
      obtain ⟨rfl, hp2⟩ := List.cons_prefix_cons.1 hp
      obtain ⟨rfl, hp3⟩ := List.cons_prefix_cons.1 hp2
      exact (component_run (.rotation h1 h2 .nil) ls d).trans (ih _ _ hp3)
  | other h1 h2 _ ih =>
    intro ls d hp
    cases ls with
    | nil => rfl
    | cons a ls =>
      obtain ⟨rfl, hp2⟩ := List.cons_prefix_cons.1 hp
      exact (component_run (.other h1 h2 .nil) ls d).trans (ih _ _ hp2)

/-- The beginning of the lines of a sheet. -/
theorem sheet_cut {c : List Str} {es : List SheetEntry} (h : SheetLines c es) :
    ∀ (ls : List Str) (d : Sheet), ls <+: c → parseSheetLoop d ls = .panic := by
  have run : ∀ {l : Str} {es : List SheetEntry} {c ls : List Str}, SheetLines [l] es →
      (∀ (ls : List Str) (d : Sheet), ls <+: c → parseSheetLoop d ls = .panic) → ls <+: l :: c →
      ∀ d : Sheet, parseSheetLoop d ls = .panic := by
    intro l e c ls h ih hp d
    cases ls with
    | nil => rfl
    | cons a ls =>
      obtain ⟨rfl, hp2⟩ := List.cons_prefix_cons.1 hp
      exact (sheet_run h ls d).trans (ih _ _ hp2)
  induction h with
  | nil =>
    intro ls d hp
    rw [List.prefix_nil.1 hp]
    rfl
  | box h1 h2 _ ih => exact fun ls d hp => run (.box h1 h2 .nil) ih hp d
  | unique h1 h2 _ ih => exact fun ls d hp => run (.unique h1 h2 .nil) ih hp d
  | name h1 h2 _ ih => exact fun ls d hp => run (.name h1 h2 .nil) ih hp d
  | file h1 h2 _ ih => exact fun ls d hp => run (.file h1 h2 .nil) ih hp d
  | label h1 h2 h3 h4 _ ih => exact fun ls d hp => run (.label h1 h2 h3 h4 .nil) ih hp d
  | other h1 h2 h3 h4 _ ih => exact fun ls d hp => run (.other h1 h2 h3 h4 .nil) ih hp d

theorem map_panic {α β : Type} {x : Res α} (f : α → β) : (x >>= fun a => Res.ok (f a)) = .panic ↔ x = .panic := by
  rw [Res.bind_eq_panic]
  simp

/-- The reader panics on exactly these items. -/
theorem item_breaks (s : Str) (p : List Str) : (readItem (s :: p) : Res (Item F × List Str)) = .panic ↔ BreaksOff F (s :: p) := by
  have hread : ∀ w, firstWord s = some w → (readItem (s :: p) : Res (Item F × List Str)) =
      (if w = str! "$Descr" then parseDescription (s :: p) >>= fun r => .ok (.descr r.1, r.2)
    else if w = str! "$Comp" then parseComponent (s :: p) >>= fun r => .ok (.element (.component r.1), r.2)
    else if w = str! "$Sheet" then parseSheet (s :: p) >>= fun r => .ok (.sheet r.1, r.2)
    else if w = str! "$EndSCHEMATC" then .ok (.nothing, s :: p)
    else if w = str! "Wire" then parseWire (s :: p) >>= fun r => .ok (.element (.wire r.1), r.2)
    else if w = str! "Connection" then parsePos s >>= fun d => .ok (.element (.connection d), s :: p)
    else if w = str! "NoConn" then parsePos s >>= fun d => .ok (.element (.noConnect d), s :: p)
    else if w = str! "Text" then parseText (s :: p) >>= fun r => .ok (.element (.text r.1), r.2)
    else .ok (.element (.other s), s :: p)) := by
    intro w hw
    unfold readItem
    rw [show here (s :: p) = .ok s from rfl, Res.bind_ok, hw]
  constructor
  · intro h
    cases hw : firstWord s with
    | none =>
      refine .blank ((splitWs_iff ..).1 ?_)
      unfold firstWord at hw
      exact List.head?_eq_none_iff.1 hw
    | some w =>
      have hb := (firstWord_iff ..).1 hw
      rw [hread w hw] at h
      split at h
      · rename_i e
        subst e
        rw [map_panic] at h
        obtain ⟨more, d, h1, h2⟩ := descr_breaks h
        exact .cut (by simp) h1 (.descr hb h2)
      split at h
      · rename_i e
        subst e
        rw [map_panic] at h
        obtain ⟨ls, es, hc, h⟩ := component_breaks _ p .dflt (Nat.le_refl _) h
        rcases h with rfl | ⟨l, rfl, hr⟩ | ⟨l, r, rfl, h1, h2⟩
        · exact .cut (more := [str! "$EndComp"]) (by simp) (by simp) (.component hb hc ((describes_iff ..).1 rfl))
        · have hr : CompLines (F := F) [l, str! "0 0 0 0"] [.rotation ⟨0, 0, 0, 0⟩] :=
            .rotation hr ((rotation_iff ..).1 rfl) .nil
          have := PartLines.component hb (compLines_append hc hr) ((describes_iff ..).1 rfl)
          rw [List.cons_append, List.append_assoc] at this
          exact .cut (ls := s :: (ls ++ [l])) (more := [str! "0 0 0 0", str! "$EndComp"]) (by simp) (by simp)
            (by rw [List.cons_append, List.append_assoc]; exact this)
        · exact .field hb hc h1 h2
      split at h
      · rename_i e
        subst e
        rw [map_panic] at h
        obtain ⟨es, hc⟩ := sheet_breaks p .dflt h
        exact .cut (more := [str! "$EndSheet"]) (by simp) (by simp) (.sheet hb hc ((describesSheet_iff ..).1 rfl))
      split at h
      · cases h
      split at h
      · rename_i e
        subst e
        rw [map_panic] at h
        obtain ⟨rfl, kind, third, hs⟩ := (wire_breaks hw).1 h
        obtain ⟨p', hp, _⟩ : ∃ p', parseWire [s, str! "0 0 0 0"] = .ok
            (⟨if kind = str! "Notes" then .notes else if kind = str! "Bus" then .bus else .wire, 0, 0, 0, 0⟩, p') ∧ next p' = [] := by
          refine ⟨[str! "0 0 0 0"], ?_, rfl⟩
          rw [← splitWs_iff] at hs
          simp only [parseWire, hs, here, Res.bind_ok]
          rfl
        obtain ⟨a, ha, hl⟩ := (wire_iff s [str! "0 0 0 0"] hw _ []).1 ⟨p', hp, by assumption⟩
        rw [List.append_nil] at ha
        subst ha
        exact .cut (ls := [s]) (more := [str! "0 0 0 0"]) (by simp) (by simp) (.wire hl)
      split at h
      · rw [map_panic] at h; exact absurd h (parsePos_quiet s)
      split at h
      · rw [map_panic] at h; exact absurd h (parsePos_quiet s)
      split at h
      · rename_i e
        subst e
        rw [map_panic] at h
        rcases (text_breaks hw).1 h with h | ⟨rfl, t, ht⟩
        · exact .label h
        · exact .cut (ls := [s]) (more := [[]]) (by simp) (by simp) (.text ht)
      · cases h
  · intro h
    cases h with
    | blank h =>
      have : firstWord s = none := by
        unfold firstWord
        rw [h.split]
        rfl
      unfold readItem
      rw [show here (s :: p) = .ok s from rfl, Res.bind_ok, this]
    | @cut _ more pt h0 h1 h =>
      obtain ⟨ls, hls⟩ : ∃ ls, s :: p ++ more = ls := ⟨_, rfl⟩
      rw [hls] at h
      have hpos := List.length_pos_iff.2 h1
      have hlen := congrArg List.length hls
      simp only [List.length_append, List.length_cons] at hlen
      cases h with
      | @descr l ls d hb h =>
        rw [← hls] at h
        injection hls with e hls
        subst e
        rw [hread _ ((firstWord_iff ..).2 hb), if_pos rfl, map_panic]
        exact descr_cut h1 h
      | @component l ls es c hb h hd =>
        injection hls with e hls
        subst e
        rw [hread _ ((firstWord_iff ..).2 hb), if_neg (by decide), if_pos rfl, map_panic]
        refine component_cut h _ _ ?_
        obtain ⟨m, x, rfl⟩ : ∃ m x, more = m ++ [x] := ⟨_, _, (List.dropLast_append_getLast h1).symm⟩
        have hls : p ++ m ++ [x] = ls ++ [str! "$EndComp"] := by simpa using hls
        exact ⟨m, (List.append_inj' hls rfl).1⟩
      | @sheet l ls es c hb h hd =>
        injection hls with e hls
        subst e
        rw [hread _ ((firstWord_iff ..).2 hb), if_neg (by decide), if_neg (by decide), if_pos rfl, map_panic]
        refine sheet_cut h _ _ ?_
        obtain ⟨m, x, rfl⟩ : ∃ m x, more = m ++ [x] := ⟨_, _, (List.dropLast_append_getLast h1).symm⟩
        have hls : p ++ m ++ [x] = ls ++ [str! "$EndSheet"] := by simpa using hls
        exact ⟨m, (List.append_inj' hls rfl).1⟩
      | mark hb => simp at hlen; omega
      | @wire ls w h =>
        obtain ⟨l, m, kind, third, a, b, c, d, rfl, hl, hr⟩ := h
        injection hls with e hls
        subst e
        have hb : BeginsWith (str! "Wire") s := ⟨_, hl⟩
        have hp : p = [] := List.length_eq_zero_iff.1 (by simp at hlen; omega)
        rw [hread _ ((firstWord_iff ..).2 hb), if_neg (by decide), if_neg (by decide), if_neg (by decide), if_neg (by decide),
          if_pos rfl, map_panic]
        exact (wire_breaks ((firstWord_iff ..).2 hb)).2 ⟨hp, _, _, hl⟩
      | connection hb => simp at hlen; omega
      | noConnect hb => simp at hlen; omega
      | @text ls t h =>
        obtain ⟨l, kind, x, y, orientation, size, shape, italic, thickness, rest, rfl, hl, hr⟩ := h
        injection hls with e hls
        subst e
        have hb : BeginsWith (str! "Text") s := ⟨_, hl⟩
        have hp : p = [] := List.length_eq_zero_iff.1 (by simp at hlen; omega)
        rw [hread _ ((firstWord_iff ..).2 hb), if_neg (by decide), if_neg (by decide), if_neg (by decide), if_neg (by decide),
          if_neg (by decide), if_neg (by decide), if_neg (by decide), if_pos rfl, map_panic]
        exact (text_breaks ((firstWord_iff ..).2 hb)).2 (.inr ⟨hp, { t with text := [] }, _, _, _, _, _, _, _, _, _, _, rfl, hl, hr⟩)
      | other hb => simp at hlen; omega
    | @field _ ls es f rest hb hc hf hs =>
      rw [hread _ ((firstWord_iff ..).2 hb), if_neg (by decide), if_pos rfl, map_panic]
      have hf' := (firstWord_iff ..).2 hf
      show parseComponentLoop .dflt (ls ++ f :: rest) = .panic
      rw [component_run hc, component_loop, if_neg (ne_of_begins hf (by decide) (by decide)), if_neg (by rw [hf']; decide),
        if_neg (by rw [hf']; decide), if_neg (by rw [hf']; decide), if_pos hf', (componentF_breaks ..).2 hs]
      rfl
    | label h =>
      have hb : BeginsWith (str! "Text") s := by
        obtain ⟨_, _, _, _, _, _, _, h, _⟩ := h
        exact ⟨_, h⟩
      rw [hread _ ((firstWord_iff ..).2 hb), if_neg (by decide), if_neg (by decide), if_neg (by decide), if_neg (by decide),
        if_neg (by decide), if_neg (by decide), if_neg (by decide), if_pos rfl, map_panic]
      exact (text_breaks ((firstWord_iff ..).2 hb)).2 (.inl h)

/-! ## Files -/

theorem content_breaks : ∀ (n : Nat) (p : List Str), p.length ≤ n → (content p : Res (List (Item F))) = .panic →
    ∃ a b, ∃ ps : List (Part F), p = a ++ b ∧ ContentLines a ps ∧ BreaksOff F b := by
  intro n
  induction n with
  | zero =>
    intro p hn h
    cases p with
    | nil => cases h
    | cons => simp at hn
  | succ n ih =>
    intro p hn h
    cases p with
    | nil => cases h
    | cons s p =>
      rw [content_cons] at h
      rcases Res.bind_eq_panic.1 h with h | ⟨⟨i, p'⟩, hi, h⟩
      · exact ⟨[], s :: p, [], rfl, .nil, (item_breaks s p).1 h⟩
      · rw [map_panic] at h
        obtain ⟨a, ha, hl⟩ := read_part s p (next p') i ⟨p', hi, rfl⟩
        have hf := readItem_forward hi
        obtain ⟨b, c, ps, hb, hc, hd⟩ := ih (next p') (by simp [next] at hf hn ⊢; omega) h
        refine ⟨a ++ b, c, _, ?_, .cons hl hc, hd⟩
        rw [ha, hb, List.append_assoc]

theorem content_panics {a b : List Str} {ps : List (Part F)} (ha : ContentLines a ps) (hb : BreaksOff F b) :
    (content (a ++ b) : Res (List (Item F))) = .panic := by
  obtain ⟨is, hi, _⟩ := content_accept ha
  rw [content_append b _ a is (Nat.le_refl _) hi, map_panic]
  cases b with
  | nil =>
    exfalso
    obtain ⟨x, hx⟩ : ∃ x : List Str, x = [] := ⟨_, rfl⟩
    rw [← hx] at hb
    cases hb with
    | cut h0 => exact h0 hx
    | blank => cases hx
    | field => cases hx
    | label => cases hx
  | cons s b => rw [content_cons, (item_breaks s b).2 hb]; rfl

/-- The reader panics on exactly these lines. -/
theorem lines_panic (fn : Option Str) (ls : List Str) : (parseLines fn ls : Res (Schematic F)) = .panic ↔ SchematicPanics F ls := by
  unfold parseLines
  simp only [Schematic.dflt]
  constructor
  · intro hall
    obtain ⟨p, hp, h⟩ := (bind_panic_quiet (assumeLine_quiet _ _)).1 hall
    clear hall
    obtain ⟨names, rest, rfl, h1, h2⟩ := libs_read p (⟨fn, [], .dflt, [], [], []⟩ : Schematic F)
    rw [Lib.assume_iff] at hp
    subst hp
    rw [h2] at h
    dsimp only at h
    cases rest with
    | nil =>
      left
      exact ⟨_, rfl, by simp⟩
    | cons l rest =>
      rw [show here (l :: rest) = .ok l from rfl, Res.bind_ok] at h
      cases hl : startsWith l (str! "EELAYER ") with
      | false => rw [hl] at h; cases h
      | true =>
        obtain ⟨layer, rfl⟩ := List.isPrefixOf_iff_prefix.1 hl
        rw [hl] at h
        simp only [Bool.not_true, Bool.false_eq_true, if_false] at h
        obtain ⟨body, hb, hi⟩ := (bind_panic_quiet (assumeLine_quiet _ _)).1 h
        rw [Lib.assume_iff] at hb
        change rest = _ at hb
        subst hb
        rw [parseItems_eq, map_panic] at hi
        obtain ⟨a, b, ps, rfl, h1, h2⟩ := content_breaks _ body (Nat.le_refl _) hi
        right
        exact ⟨names, layer, a, b, ps, by simp, h1, h2⟩
  · rintro (⟨libs, rfl, hlib⟩ | ⟨names, layer, a, b, ps, rfl, ha, hb⟩)
    · obtain ⟨names, rest, hr, h1, h2⟩ := libs_read libs (⟨fn, [], .dflt, [], [], []⟩ : Schematic F)
      have : rest = [] := by
        cases rest with
        | nil => rfl
        | cons s r =>
          obtain ⟨x, hx⟩ := hlib s (by rw [hr]; simp)
          have := h1 s r rfl
          rw [hx] at this
          rw [show startsWith (str! "LIBS:" ++ x) (str! "LIBS:") = true from List.isPrefixOf_iff_prefix.2 ⟨x, rfl⟩] at this
          cases this
      subst this
      rw [(Lib.assume_iff ..).2 rfl, Res.bind_ok, h2]
      rfl
    · rw [List.cons_append, (Lib.assume_iff ..).2 rfl, Res.bind_ok,
        libs_accept _ _ (by intro s r e; cases e; rfl)]
      dsimp only
      rw [show ∀ (l : Str) r, here (l :: r) = .ok l from fun _ _ => rfl, Res.bind_ok,
        show startsWith (str! "EELAYER " ++ layer) (str! "EELAYER ") = true from
          List.isPrefixOf_iff_prefix.2 ⟨layer, rfl⟩]
      simp only [Bool.not_true, Bool.false_eq_true, if_false, next, List.drop_one, List.tail_cons]
      rw [(Lib.assume_iff ..).2 rfl, Res.bind_ok, parseItems_eq, map_panic]
      exact content_panics ha hb

end Verif.Sch
