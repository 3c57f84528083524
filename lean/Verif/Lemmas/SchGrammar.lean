import Verif.Spec.SchematicGrammar
import Verif.Lemmas.Numerals
import Verif.Lemmas.Lines
import Verif.Props.C75
/-!
# Lemmas: each reader of a schematic accepts exactly its lines
-/

set_option linter.unusedSimpArgs false

namespace Verif
open Spec

theorem Spec.SpacedWords.split {s : Str} {ws : List Str} (h : SpacedWords s ws) : splitWs s = ws := by
  induction h with
  | nil => rfl
  | skip hc _ ih => rw [splitWs_space hc, ih]
  | last h0 hw => exact splitWs_last ⟨h0, hw⟩
  | word h0 hw hc _ ih => rw [splitWs_word ⟨h0, hw⟩ hc, ih]

theorem Spec.SpacedWords.total : ∀ (n : Nat) (s : Str), s.length ≤ n → ∃ ws, SpacedWords s ws := by
  intro n
  induction n with
  | zero =>
    intro s h
    cases s with
    | nil => exact ⟨_, .nil⟩
    | cons => simp at h
  | succ n ih =>
    intro s h
    cases s with
    | nil => exact ⟨_, .nil⟩
    | cons c s =>
      by_cases hc : isWs c = true
      · obtain ⟨ws, hws⟩ := ih s (by simpa using h)
        exact ⟨ws, .skip hc hws⟩
      · have hall : ∀ x ∈ (c :: s).takeWhile fun x => !isWs x, isWs x = false := fun x hx => by
          simpa using List.all_eq_true.1 (List.all_takeWhile (p := fun x => !isWs x) (l := c :: s)) x hx
        have hne : ((c :: s).takeWhile fun x => !isWs x) ≠ [] := by simp [List.takeWhile_cons, hc]
        have heq := List.takeWhile_append_dropWhile (p := fun x => !isWs x) (l := c :: s)
        cases hd : (c :: s).dropWhile fun x => !isWs x with
        | nil =>
          rw [hd, List.append_nil] at heq
          rw [← heq]
          exact ⟨_, .last hne hall⟩
        | cons d t =>
          have hdw : isWs d = true := by
            have := List.head?_dropWhile_not (p := fun x => !isWs x) (l := c :: s)
            rw [hd] at this
            simpa using this
          rw [hd] at heq
          have hlen := congrArg List.length heq
          have hpos := List.length_pos_iff.2 hne
          obtain ⟨ws, hws⟩ := ih t (by simp at hlen h hpos ⊢; omega)
          rw [← heq]
          exact ⟨_, .word hne hall hdw hws⟩

theorem splitWs_iff (s : Str) (ws : List Str) : splitWs s = ws ↔ SpacedWords s ws := by
  refine ⟨?_, SpacedWords.split⟩
  rintro rfl
  obtain ⟨ws, h⟩ := SpacedWords.total _ s (Nat.le_refl _)
  rw [h.split]
  exact h

theorem firstWord_iff (s w : Str) : firstWord s = some w ↔ BeginsWith w s := by
  unfold firstWord BeginsWith
  constructor
  · intro h
    cases hs : splitWs s with
    | nil => rw [hs] at h; cases h
    | cons a ws =>
      rw [hs] at h
      cases h
      exact ⟨ws, (splitWs_iff ..).1 hs⟩
  · rintro ⟨ws, h⟩
    rw [h.split]
    rfl

namespace Sch

theorem splitN_iff (n : Nat) (s : Str) (ws : List Str) : splitN n s = .ok ws ↔ FirstWords n s ws := by
  obtain ⟨v, hc, hu, h⟩ := C74_split_n n s
  rw [h]
  constructor
  · intro e
    split at e
    · cases e
    · cases e
      exact ⟨hc, by omega⟩
  · rintro ⟨h1, h2⟩
    cases hu _ h1
    rw [if_neg (by omega)]

theorem assumeString_iff (e s : Str) (u : Unit) : assumeString e s = .ok u ↔ s = e := by
  unfold assumeString
  split
  · rename_i h
    simpa using fun e => h e.symm
  · rename_i h
    simpa using (Decidable.not_not.1 h).symm

theorem entry_iff (name s v : Str) : wordAndQstring name s = .ok v ↔ EntryLine name s v := by
  unfold wordAndQstring EntryLine
  simp only [Res.bind_eq_ok, splitN_iff, assumeString_iff]
  constructor
  · rintro ⟨ws, hw, a, ha, _, rfl, hv⟩
    match ws, hw with
    | a :: b :: rest, hw =>
      simp [idx] at ha hv
      subst ha hv
      exact ⟨rest, hw⟩
    | [_], hw => exact absurd hw.2 (by simp)
    | [], hw => exact absurd hw.2 (by simp)
  · rintro ⟨rest, h⟩
    exact ⟨_, h, name, rfl, (), rfl, rfl⟩

/-- Three and more words. -/
theorem three_words {α : Type} (n : Nat) (s : Str) (f : Str → Str → Res α) (r : α) (hn : 3 ≤ n) :
    (splitN n s >>= fun v => idx v 1 >>= fun a => idx v 2 >>= fun b => f a b) = .ok r ↔
    ∃ x a b rest, FirstWords n s (x :: a :: b :: rest) ∧ f a b = .ok r := by
  simp only [Res.bind_eq_ok, splitN_iff]
  constructor
  · rintro ⟨ws, hw, a, ha, b, hb, h⟩
    match ws, hw with
    | x :: a :: b :: rest, hw =>
      simp [idx] at ha hb
      subst ha hb
      exact ⟨_, _, _, _, hw, h⟩
    | [_, _], hw => exact absurd hw.2 (by simp; omega)
    | [_], hw => exact absurd hw.2 (by simp; omega)
    | [], hw => exact absurd hw.2 (by simp; omega)
  · rintro ⟨x, a, b, rest, hw, h⟩
    exact ⟨_, hw, a, rfl, b, rfl, h⟩

/-- The name of a field. -/
def fieldName (v : List Str) (i : Int) : Res Str :=
  if v.length = 11 then idx v 10 else Lib.tableRead fixedNames i

theorem fieldNew_eq {F : Type} [Flt F] (v : List Str) : Field.new (F := F) v =
    (if v.length ≠ 10 ∧ v.length ≠ 11 then .err .other
    else do
      let i ← i64R (← idx v 1)
      let name ← fieldName v i
      let value ← idx v 2
      let orientation ← Orientation.new (← charAt (← idx v 3) 0)
      let x ← f64R (← idx v 4)
      let y ← f64R (← idx v 5)
      let size ← i64R (← idx v 6)
      let visible ← boolFrom (← idx v 7) (str! "0000") (str! "0001")
      let hjustify ← Justify.new (← charAt (← idx v 8) 0)
      let vjustify ← Justify.new (← charAt (← idx v 9) 0)
      let italic ← boolFrom (← charAt (← idx v 9) 1) 'I' 'N'
      let bold ← boolFrom (← charAt (← idx v 9) 2) 'B' 'N'
      .ok { i, value, orientation, x, y, size, visible, hjustify, vjustify, italic, bold, name }) := by
  unfold Field.new
  split
  · rfl
  · congr 1
    funext v0
    congr 1
    funext i
    unfold fieldName
    split
    · rfl
    · simp only [fixedNames, Lib.tableRead]
      (repeat' split) <;> rfl

theorem compField_iff {F : Type} [Flt F] (line : Str) (f : Field F) :
    (splitQ line >>= fun v => Field.new v) = .ok f ↔ CompFieldLine line f := by
  have hb : ∀ (w : Str) b, boolFrom w (str! "0000") (str! "0001") = .ok b ↔ Choice (str! "0000") (str! "0001") w b :=
    fun w b => boolFrom_iff _ _ _ _ (by decide)
  have hb1 : ∀ (w : Char) b, boolFrom w 'I' 'N' = .ok b ↔ Choice 'I' 'N' w b :=
    fun w b => boolFrom_iff _ _ _ _ (by decide)
  have hb2 : ∀ (w : Char) b, boolFrom w 'B' 'N' = .ok b ↔ Choice 'B' 'N' w b :=
    fun w b => boolFrom_iff _ _ _ _ (by decide)
  constructor
  · intro h
    obtain ⟨v, hv, h⟩ := Res.bind_eq_ok.1 h
    rw [C74_split] at hv
    rw [fieldNew_eq] at h
    split at h
    · cases h
    · rename_i hl
      have hl : v.length = 10 ∨ v.length = 11 := by omega
      rcases hl with hl | hl
      · match v, hl with
        | [z, a, b, c, d, e, f, g, i, j], _ =>
          simp [-Bool.exists_bool, fieldName, idx, Res.bind_eq_ok, i64R_iff, f64R_iff, hb, hb1, hb2, Sch.direction_iff,
            Sch.alignment_iff] at h
          obtain ⟨a1, h1, n, h2, c1, h6, o, h7, x, h3, y, h4, z, h5, vi, h8, c2, h9, hj, h10, c3, h11, vj, h12,
            c4, h13, it, h14, c5, h15, bo, h16, rfl⟩ := h
          obtain ⟨r1, rfl⟩ := (Sch.charAt_zero ..).1 h6
          obtain ⟨r2, rfl⟩ := (Sch.charAt_zero ..).1 h9
          obtain ⟨r3, rfl⟩ := (Sch.charAt_three ..).1 ⟨h11, h13, h15⟩
          exact ⟨_, _, _, _, r1, _, _, _, _, _, r2, _, _, _, r3, [], hv, h1, rfl, h7, h3, h4, h5, h8, h10, h12, h14, h16,
            .inl ⟨rfl, (Lib.tableRead_iff fixedNames (by decide) _ _).1 h2⟩⟩
      · match v, hl with
        | [z, a, b, c, d, e, f, g, i, j, k], _ =>
          simp [-Bool.exists_bool, fieldName, idx, Res.bind_eq_ok, i64R_iff, f64R_iff, hb, hb1, hb2, Sch.direction_iff,
            Sch.alignment_iff] at h
          obtain ⟨a1, h1, c1, h6, o, h7, x, h3, y, h4, z, h5, vi, h8, c2, h9, hj, h10, c3, h11, vj, h12,
            c4, h13, it, h14, c5, h15, bo, h16, rfl⟩ := h
          obtain ⟨r1, rfl⟩ := (Sch.charAt_zero ..).1 h6
          obtain ⟨r2, rfl⟩ := (Sch.charAt_zero ..).1 h9
          obtain ⟨r3, rfl⟩ := (Sch.charAt_three ..).1 ⟨h11, h13, h15⟩
          exact ⟨_, _, _, _, r1, _, _, _, _, _, r2, _, _, _, r3, [k], hv, h1, rfl, h7, h3, h4, h5, h8, h10, h12, h14, h16,
            .inr rfl⟩
  · rintro ⟨z, a, b, dir, r1, c, d, e, g, hor, r2, ver, it, bo, r3, name, hv, h1, h0, h7, h3, h4, h5, h8, h10, h12, h14, h16, h2⟩
    have hv := (C74_split ..).2 hv
    simp only [← i64R_iff, ← f64R_iff, ← hb, ← hb1, ← hb2, ← Sch.direction_iff, ← Sch.alignment_iff]
      at h1 h3 h4 h5 h7 h8 h10 h12 h14 h16
    obtain ⟨⟩ := f
    subst h0
    rcases h2 with ⟨rfl, h2⟩ | rfl
    · have h2 := (Lib.tableRead_iff fixedNames (by decide) _ _).2 h2
      simp [fieldNew_eq, fieldName, hv, idx, charAt, h1, h2, h3, h4, h5, h7, h8, h10, h12, h14, h16]
    · simp [fieldNew_eq, fieldName, hv, idx, charAt, h1, h3, h4, h5, h7, h8, h10, h12, h14, h16]

theorem rotation_iff (s : Str) (r : Rotation) : parseRotation s = .ok r ↔
    ∃ a b c d, SpacedWords s [a, b, c, d] ∧ IntWord a r.a ∧ IntWord b r.b ∧ IntWord c r.c ∧ IntWord d r.d := by
  unfold parseRotation
  simp only [← splitWs_iff]
  constructor
  · intro h
    generalize splitWs s = v at h ⊢
    split at h
    · cases h
    · rename_i hl
      match v, Decidable.not_not.1 hl with
      | [a, b, c, d], _ =>
        simp [idx, Res.bind_eq_ok, i64R_iff] at h
        obtain ⟨_, h1, _, h2, _, h3, _, h4, rfl⟩ := h
        exact ⟨_, _, _, _, rfl, h1, h2, h3, h4⟩
  · rintro ⟨a, b, c, d, hs, h1, h2, h3, h4⟩
    simp only [← i64R_iff] at h1 h2 h3 h4
    simp [hs, idx, h1, h2, h3, h4]

theorem pos_iff (w s : Str) (hw : firstWord s = some w) (p : Pos) : parsePos s = .ok p ↔ PosLine w s p := by
  unfold parsePos PosLine
  simp only [← splitWs_iff]
  unfold firstWord at hw
  constructor
  · intro h
    generalize splitWs s = v at h hw ⊢
    split at h
    · cases h
    · rename_i hl
      match v, Decidable.not_not.1 hl with
      | [a, b, c, d], _ =>
        simp [idx, Res.bind_eq_ok, i64R_iff] at h
        obtain ⟨_, h1, _, h2, rfl⟩ := h
        cases hw
        exact ⟨_, _, _, rfl, h1, h2⟩
  · rintro ⟨a, b, c, hs, h1, h2⟩
    simp only [← i64R_iff] at h1 h2
    simp [hs, idx, h1, h2]

theorem wire_iff (s : Str) (rest : List Str) (hw : firstWord s = some (str! "Wire")) (w : Wire) (q : List Str) :
    (∃ p', parseWire (s :: rest) = .ok (w, p') ∧ next p' = q) ↔ ∃ a, s :: rest = a ++ q ∧ WireLines a w := by
  unfold firstWord at hw
  constructor
  · rintro ⟨p', h, rfl⟩
    simp only [parseWire, here, Res.bind_ok] at h
    split at h
    · cases h
    · rename_i hl
      cases hv : splitWs s with
      | nil => rw [hv] at hw; cases hw
      | cons x v =>
        rw [hv] at hw hl h
        cases hw
        match v, Decidable.not_not.1 hl with
        | [kind, third], _ =>
          cases rest with
          | nil => simp [idx, next] at h
          | cons m rest =>
            simp only [idx, List.getElem?_cons_succ, List.getElem?_cons_zero, Res.bind_ok, next, List.drop_succ_cons,
              List.drop_zero] at h
            split at h
            · cases h
            · rename_i hl2
              cases hm : splitWs m with
              | nil => rw [hm] at hl2; simp at hl2
              | cons a v2 =>
                rw [hm] at hl2 h
                match v2, Decidable.not_not.1 hl2 with
                | [b, c, d], _ =>
                  simp [Res.bind_eq_ok, i64R_iff] at h
                  obtain ⟨_, h1, _, h2, _, h3, _, h4, rfl, rfl⟩ := h
                  refine ⟨[s, m], by simp [next], s, m, kind, third, a, b, c, d, rfl, (splitWs_iff ..).1 hv,
                    (splitWs_iff ..).1 hm, ?_, ?_, h1, h2, h3, h4⟩
                  · dsimp only
                    by_cases hk : kind = str! "Notes"
                    · simp [hk]
                    · by_cases hk2 : kind = str! "Bus" <;> simp [hk, hk2]
                  · dsimp only
                    by_cases hk : kind = str! "Notes"
                    · simp [hk]
                    · by_cases hk2 : kind = str! "Bus" <;> simp [hk, hk2]
  · rintro ⟨_, he, l, m, kind, third, a, b, c, d, rfl, hl, hm, ht1, ht2, h1, h2, h3, h4⟩
    cases he
    simp only [← i64R_iff] at h1 h2 h3 h4
    rw [← splitWs_iff] at hl hm
    refine ⟨m :: q, ?_, rfl⟩
    obtain ⟨t, _, _, _, _⟩ := w
    dsimp only at ht1 ht2
    simp [parseWire, here, hl, hm, idx, next, h1, h2, h3, h4]
    by_cases hk : kind = str! "Notes"
    · rw [ht1.2 hk]; simp [hk]
    · by_cases hk2 : kind = str! "Bus"
      · rw [ht2.2 hk2]; simp [hk2]
      · cases t
        · simp [hk, hk2]
        · exact absurd (ht1.1 rfl) hk
        · exact absurd (ht2.1 rfl) hk2

theorem textKind_iff (w : Str) (t : TextType) : parseTextType w = .ok t ↔ (w, t) ∈ textKinds :=
  Lib.tableRead_iff textKinds (by decide) w t

theorem text_iff (s : Str) (rest : List Str) (hw : firstWord s = some (str! "Text")) (w : Text) (q : List Str) :
    (∃ p', parseText (s :: rest) = .ok (w, p') ∧ next p' = q) ↔ ∃ a, s :: rest = a ++ q ∧ TextLines a w := by
  unfold firstWord at hw
  constructor
  · rintro ⟨p', h, rfl⟩
    simp only [parseText, here, Res.bind_ok] at h
    split at h
    · cases h
    · rename_i hl
      cases hv : splitWs s with
      | nil => rw [hv] at hw; cases hw
      | cons x v =>
        rw [hv] at hw hl h
        cases hw
        match v, hl with
        | kind :: x :: y :: o :: size :: s6 :: s7 :: more, _ =>
          simp [-Bool.exists_bool, idx, Res.bind_eq_ok, i64R_iff, textKind_iff] at h
          obtain ⟨t, ht, x', hx, y', hy, o', ho, z', hz, h⟩ := h
          cases rest with
          | nil =>
            exfalso
            cases t <;> simp [TextType.isLocal, next, here, Res.bind_eq_ok] at h
          | cons m rest =>
            cases ht' : t.isLocal with
            | true =>
              simp [ht', next, here, Res.bind_eq_ok, i64R_iff] at h
              obtain ⟨th, hth, rfl, rfl⟩ := h
              refine ⟨[s, m], by simp [next], s, kind, x, y, o, size, [], s6, s7, more, rfl, (splitWs_iff ..).1 hv,
                ht, hx, hy, ho, hz, rfl, ?_, ?_, hth⟩
              · cases t <;> simp_all [TextType.isLocal]
              · simp
            | false =>
              simp [ht', next, here, Res.bind_eq_ok, i64R_iff] at h
              cases more with
              | nil => simp at h
              | cons s8 more =>
                simp at h
                obtain ⟨th, hth, rfl, rfl⟩ := h
                refine ⟨[s, m], by simp [next], s, kind, x, y, o, size, [s6], s7, s8, more, rfl, (splitWs_iff ..).1 hv,
                  ht, hx, hy, ho, hz, rfl, ?_, ?_, hth⟩
                · cases t <;> simp_all [TextType.isLocal]
                · simp
        | [_, _, _, _, _, _], hl => simp at hl
        | [_, _, _, _, _], hl => simp at hl
        | [_, _, _, _], hl => simp at hl
        | [_, _, _], hl => simp at hl
        | [_, _], hl => simp at hl
        | [_], hl => simp at hl
        | [], hl => simp at hl
  · rintro ⟨_, he, l, kind, x, y, o, size, shape, italic, thickness, more, rfl, hl, ht, hx, hy, ho, hz, rfl, hsh, hit, hth⟩
    cases he
    simp only [← i64R_iff, ← textKind_iff] at hx hy ho hz hth ht
    rw [← splitWs_iff] at hl
    refine ⟨w.text :: q, ?_, rfl⟩
    obtain ⟨t, _, _, _, _, sh, it, _, _⟩ := w
    dsimp only at *
    cases sh with
    | none =>
      have : t.isLocal = true := by cases t <;> simp_all [TextType.isLocal]
      simp [parseText, here, hl, idx, next, hx, hy, ho, hz, hth, ht, this]
      rw [if_neg (by omega)]
      have : decide (italic = str! "Italic") = it := by rw [Bool.eq_iff_iff, hit]; simp
      rw [this]
    | some sh =>
      have : t.isLocal = false := by cases t <;> simp_all [TextType.isLocal]
      simp [parseText, here, hl, idx, next, hx, hy, ho, hz, hth, ht, this]
      rw [if_neg (by omega)]
      have : decide (italic = str! "Italic") = it := by rw [Bool.eq_iff_iff, hit]; simp
      rw [this]

theorem here_cons {p : List Str} {x : Str} (h : here p = .ok x) : p = x :: next p := by
  cases p with
  | nil => cases h
  | cons a p => cases h; rfl

theorem four_words {α : Type} (s : Str) (f : Str → Str → Str → Res α) (r : α) :
    (splitN 4 s >>= fun v => idx v 1 >>= fun a => idx v 2 >>= fun b => idx v 3 >>= fun c => f a b c) = .ok r ↔
    ∃ x a b c rest, FirstWords 4 s (x :: a :: b :: c :: rest) ∧ f a b c = .ok r := by
  simp only [Res.bind_eq_ok, splitN_iff]
  constructor
  · rintro ⟨ws, hw, a, ha, b, hb, c, hc, h⟩
    match ws, hw with
    | x :: a :: b :: c :: rest, hw =>
      simp [idx] at ha hb hc
      subst ha hb hc
      exact ⟨_, _, _, _, _, hw, h⟩
    | [_, _, _], hw => exact absurd hw.2 (by simp)
    | [_, _], hw => exact absurd hw.2 (by simp)
    | [_], hw => exact absurd hw.2 (by simp)
    | [], hw => exact absurd hw.2 (by simp)
  · rintro ⟨x, a, b, c, rest, hw, h⟩
    exact ⟨_, hw, a, rfl, b, rfl, c, rfl, h⟩

theorem description_iff (s : Str) (rest : List Str) (d : Description) (q : List Str) :
    (∃ p', parseDescription (s :: rest) = .ok (d, p') ∧ next p' = q) ↔ ∃ a, s :: rest = a ++ q ∧ DescrLines a d := by
  constructor
  · rintro ⟨p', h, rfl⟩
    unfold parseDescription at h
    obtain ⟨l1, e1, h⟩ := Res.bind_eq_ok.1 h
    cases e1
    obtain ⟨ws, hw, h⟩ := Res.bind_eq_ok.1 h
    rw [splitN_iff] at hw
    match ws, hw with
    | first :: size :: dimx :: dimy :: more, hw =>
      obtain ⟨_, e, h⟩ := Res.bind_eq_ok.1 h
      cases e
      obtain ⟨_, e, h⟩ := Res.bind_eq_ok.1 h
      cases e
      obtain ⟨dx, hdx, h⟩ := Res.bind_eq_ok.1 h
      obtain ⟨_, e, h⟩ := Res.bind_eq_ok.1 h
      cases e
      obtain ⟨dy, hdy, h⟩ := Res.bind_eq_ok.1 h
      obtain ⟨l3, e3, h⟩ := Res.bind_eq_ok.1 h
      obtain ⟨ws3, hw3, h⟩ := Res.bind_eq_ok.1 h
      rw [splitN_iff] at hw3
      match ws3, hw3 with
      | w :: number :: count :: more3, hw3 =>
        obtain ⟨_, e, h⟩ := Res.bind_eq_ok.1 h
        cases e
        split at h
        · cases h
        rename_i hs
        obtain rfl := Decidable.not_not.1 hs
        obtain ⟨_, e, h⟩ := Res.bind_eq_ok.1 h
        cases e
        obtain ⟨sheet, hsh, h⟩ := Res.bind_eq_ok.1 h
        obtain ⟨_, e, h⟩ := Res.bind_eq_ok.1 h
        cases e
        obtain ⟨cnt, hcnt, h⟩ := Res.bind_eq_ok.1 h
        obtain ⟨l4, e4, h⟩ := Res.bind_eq_ok.1 h
        obtain ⟨v4, h4, h⟩ := Res.bind_eq_ok.1 h
        obtain ⟨l5, e5, h⟩ := Res.bind_eq_ok.1 h
        obtain ⟨v5, h5, h⟩ := Res.bind_eq_ok.1 h
        obtain ⟨l6, e6, h⟩ := Res.bind_eq_ok.1 h
        obtain ⟨v6, h6, h⟩ := Res.bind_eq_ok.1 h
        obtain ⟨l7, e7, h⟩ := Res.bind_eq_ok.1 h
        obtain ⟨v7, h7, h⟩ := Res.bind_eq_ok.1 h
        obtain ⟨l8, e8, h⟩ := Res.bind_eq_ok.1 h
        obtain ⟨v8, h8, h⟩ := Res.bind_eq_ok.1 h
        obtain ⟨l9, e9, h⟩ := Res.bind_eq_ok.1 h
        obtain ⟨v9, h9, h⟩ := Res.bind_eq_ok.1 h
        obtain ⟨l10, e10, h⟩ := Res.bind_eq_ok.1 h
        obtain ⟨v10, h10, h⟩ := Res.bind_eq_ok.1 h
        obtain ⟨l11, e11, h⟩ := Res.bind_eq_ok.1 h
        obtain ⟨v11, h11, h⟩ := Res.bind_eq_ok.1 h
        obtain ⟨l12, e12, h⟩ := Res.bind_eq_ok.1 h
        obtain ⟨u, h12, h⟩ := Res.bind_eq_ok.1 h
        cases h
        rw [assumeString_iff] at h12
        subst h12
        have e2 : rest = rest.headD [] :: next (next (s :: rest)) := by
          have := here_cons e3
          cases rest with
          | nil => cases this
          | cons a rest => rfl
        generalize rest.headD [] = l2 at e2
        rw [here_cons e3, here_cons e4, here_cons e5, here_cons e6, here_cons e7, here_cons e8, here_cons e9, here_cons e10,
          here_cons e11, here_cons e12] at e2
        simp only [entry_iff, i64R_iff] at *
        refine ⟨[s, l2, l3, l4, l5, l6, l7, l8, l9, l10, l11, str! "$EndDescr"], congrArg (s :: ·) e2, _, _, _, _, _, _, _, _,
          _, _, _, rfl, ⟨_, _, _, _, hw, hdx, hdy⟩, ⟨_, _, _, hw3, hsh, hcnt⟩, h4, h5, h6, h7, h8, h9, h10, h11⟩
      | [_, _], hw3 => exact absurd hw3.2 (by simp)
      | [_], hw3 => exact absurd hw3.2 (by simp)
      | [], hw3 => exact absurd hw3.2 (by simp)
    | [_, _, _], hw => exact absurd hw.2 (by simp)
    | [_, _], hw => exact absurd hw.2 (by simp)
    | [_], hw => exact absurd hw.2 (by simp)
    | [], hw => exact absurd hw.2 (by simp)
  · rintro ⟨_, he, l1, l2, l3, l4, l5, l6, l7, l8, l9, l10, l11, rfl, ⟨_, _, _, _, hw, hdx, hdy⟩, ⟨_, _, _, hw3, hsh, hcnt⟩,
      h4, h5, h6, h7, h8, h9, h10, h11⟩
    cases he
    refine ⟨str! "$EndDescr" :: q, ?_, rfl⟩
    simp only [← entry_iff, ← i64R_iff, ← splitN_iff] at *
    simp [parseDescription, here, next, hw, hdx, hdy, hw3, hsh, hcnt, h4, h5, h6, h7, h8, h9, h10, h11, idx, assumeString]

/-! ## Components -/

/-- What an entry does to a component. -/
def entryStep {F : Type} (c : Component F) : CompEntry F → Component F
  | .names n r => { c with name := n, reference := r }
  | .unit l => { c with u := l }
  | .position x y => { c with x := x, y := y }
  | .field f => { c with fields := c.fields ++ [f] }
  | .rotation r => { c with rotation := r }
  | .path l => { c with arPath := c.arPath ++ [l] }

theorem getLastD_cons' {α : Type} (a : α) (l : List α) (d : α) : (a :: l).getLastD d = l.getLastD a := by
  cases l <;> rfl

theorem entries_fold {F : Type} (es : List (CompEntry F)) (c : Component F) : es.foldl entryStep c =
    { name := ((es.filterMap CompEntry.names?).getLastD (c.name, c.reference)).1
      reference := ((es.filterMap CompEntry.names?).getLastD (c.name, c.reference)).2
      u := (es.filterMap CompEntry.unit?).getLastD c.u
      x := ((es.filterMap CompEntry.position?).getLastD (c.x, c.y)).1
      y := ((es.filterMap CompEntry.position?).getLastD (c.x, c.y)).2
      rotation := (es.filterMap CompEntry.rotation?).getLastD c.rotation
      fields := c.fields ++ (es.filterMap CompEntry.field?)
      arPath := c.arPath ++ (es.filterMap CompEntry.path?) } := by
  induction es generalizing c with
  | nil => simp
  | cons e es ih =>
    rw [List.foldl_cons, ih]
    cases e <;> simp only [entryStep, getLastD_cons', List.append_assoc, List.cons_append, List.nil_append, List.filterMap_cons, CompEntry.names?, CompEntry.unit?, CompEntry.position?,
      CompEntry.rotation?, CompEntry.field?, CompEntry.path?]

theorem describes_iff {F : Type} (es : List (CompEntry F)) (c : Component F) :
    es.foldl entryStep .dflt = c ↔ Describes es c := by
  rw [entries_fold]
  constructor
  · rintro rfl
    exact ⟨rfl, rfl, rfl, rfl, by simp [Component.dflt], by simp [Component.dflt]⟩
  · rintro ⟨h1, h2, h3, h4, h5, h6⟩
    obtain ⟨⟩ := c
    simp only at *
    simp only [Component.dflt, ← h1, ← h2, ← h3, ← h4, ← h5, ← h6]
    simp

theorem componentL_iff {F : Type} (s : Str) (d e : Component F) : parseComponentL s d = .ok e ↔
    ∃ n r rest, (∃ a, FirstWords 3 s (a :: n :: r :: rest)) ∧ e = entryStep d (.names n r) := by
  unfold parseComponentL
  rw [three_words 3 s _ e (by omega)]
  constructor
  · rintro ⟨x, a, b, rest, h, e⟩; cases e; exact ⟨a, b, rest, ⟨x, h⟩, rfl⟩
  · rintro ⟨a, b, rest, ⟨x, h⟩, rfl⟩; exact ⟨x, a, b, rest, h, rfl⟩

theorem componentP_iff {F : Type} (s : Str) (d e : Component F) : parseComponentP s d = .ok e ↔
    ∃ x y, (∃ a u v rest, FirstWords 3 s (a :: u :: v :: rest) ∧ IntWord u x ∧ IntWord v y) ∧
      e = entryStep d (.position x y) := by
  unfold parseComponentP
  simp only [Res.bind_eq_ok, splitN_iff, i64R_iff]
  constructor
  · rintro ⟨ws, hw, a, ha, x, hx, b, hb, y, hy, h⟩
    match ws, hw with
    | z :: a :: b :: rest, hw =>
      cases ha; cases hb; cases h
      exact ⟨x, y, ⟨_, _, _, _, hw, hx, hy⟩, rfl⟩
    | [_, _], hw => exact absurd hw.2 (by simp)
    | [_], hw => exact absurd hw.2 (by simp)
    | [], hw => exact absurd hw.2 (by simp)
  · rintro ⟨x, y, ⟨a, u, v, rest, hw, hx, hy⟩, rfl⟩
    exact ⟨_, hw, u, rfl, x, hx, v, rfl, y, hy, rfl⟩

theorem componentF_iff {F : Type} [Flt F] (s : Str) (d e : Component F) : parseComponentF s d = .ok e ↔
    ∃ f, CompFieldLine s f ∧ e = entryStep d (.field f) := by
  unfold parseComponentF
  constructor
  · intro h
    obtain ⟨v, hv, h⟩ := Res.bind_eq_ok.1 h
    obtain ⟨f, hf, h⟩ := Res.bind_eq_ok.1 h
    cases h
    exact ⟨f, (compField_iff ..).1 (by rw [hv, Res.bind_ok, hf]), rfl⟩
  · rintro ⟨f, h, rfl⟩
    obtain ⟨v, hv, hf⟩ := Res.bind_eq_ok.1 ((compField_iff ..).2 h)
    rw [hv, Res.bind_ok, hf]
    rfl

theorem ne_of_begins {w l e : Str} (h : BeginsWith w l) (he : firstWord e = some e) (hne : w ≠ e) : l ≠ e := by
  rintro rfl
  rw [← firstWord_iff, he] at h
  exact hne (Option.some.inj h.symm)

theorem component_loop {F : Type} [Flt F] (d : Component F) (s : Str) (rest : List Str) :
    parseComponentLoop d (s :: rest) =
    if s = str! "$EndComp" then .ok (d, s :: rest)
    else if firstWord s = some (str! "L") then parseComponentL s d >>= fun d => parseComponentLoop d rest
    else if firstWord s = some (str! "U") then parseComponentLoop { d with u := s } rest
    else if firstWord s = some (str! "P") then parseComponentP s d >>= fun d => parseComponentLoop d rest
    else if firstWord s = some (str! "F") then parseComponentF s d >>= fun d => parseComponentLoop d rest
    else if firstWord s = some (str! "1") ∨ firstWord s = some (str! "0") then
      match rest with
      | [] => .panic
      | s2 :: rest2 => parseRotation s2 >>= fun r => parseComponentLoop { d with rotation := r } rest2
    else if firstWord s = some (str! "AR") then parseComponentLoop { d with arPath := d.arPath ++ [s] } rest
    else parseComponentLoop d rest := by
  rw [parseComponentLoop.eq_def]
  rfl

theorem component_read {F : Type} [Flt F] : ∀ (n : Nat) (p q : List Str) (d c : Component F), p.length ≤ n →
    (∃ p', parseComponentLoop d p = .ok (c, p') ∧ next p' = q) →
    ∃ ls es, p = ls ++ str! "$EndComp" :: q ∧ CompLines ls es ∧ c = es.foldl entryStep d := by
  intro n
  induction n with
  | zero =>
    rintro p q d c hn ⟨p', h, _⟩
    cases p with
    | nil => rw [parseComponentLoop.eq_def] at h; cases h
    | cons => simp at hn
  | succ n ih =>
    rintro p q d c hn ⟨p', h, hq⟩
    cases p with
    | nil => rw [parseComponentLoop.eq_def] at h; cases h
    | cons s p =>
      simp only [List.length_cons, Nat.succ_le_succ_iff] at hn
      rw [component_loop] at h
      split at h
      · rename_i e
        cases h
        subst e hq
        exact ⟨[], [], rfl, .nil, rfl⟩
      rename_i hend
      split at h
      · rename_i hb
        obtain ⟨d', hd, h⟩ := Res.bind_eq_ok.1 h
        obtain ⟨nm, r, rest, hw, rfl⟩ := (componentL_iff ..).1 hd
        obtain ⟨ls, es, rfl, h1, h2⟩ := ih p q _ c hn ⟨p', h, hq⟩
        exact ⟨s :: ls, _ :: es, rfl, .names ((firstWord_iff ..).1 hb) hw h1, h2⟩
      rename_i hL
      split at h
      · rename_i hb
        obtain ⟨ls, es, rfl, h1, h2⟩ := ih p q _ c hn ⟨p', h, hq⟩
        exact ⟨s :: ls, _ :: es, rfl, .unit ((firstWord_iff ..).1 hb) h1, h2⟩
      rename_i hU
      split at h
      · rename_i hb
        obtain ⟨d', hd, h⟩ := Res.bind_eq_ok.1 h
        obtain ⟨x, y, hw, rfl⟩ := (componentP_iff ..).1 hd
        obtain ⟨ls, es, rfl, h1, h2⟩ := ih p q _ c hn ⟨p', h, hq⟩
        exact ⟨s :: ls, _ :: es, rfl, .position ((firstWord_iff ..).1 hb) hw h1, h2⟩
      rename_i hP
      split at h
      · rename_i hb
        obtain ⟨d', hd, h⟩ := Res.bind_eq_ok.1 h
        obtain ⟨f, hw, rfl⟩ := (componentF_iff ..).1 hd
        obtain ⟨ls, es, rfl, h1, h2⟩ := ih p q _ c hn ⟨p', h, hq⟩
        exact ⟨s :: ls, _ :: es, rfl, .field ((firstWord_iff ..).1 hb) hw h1, h2⟩
      rename_i hF
      split at h
      · rename_i hb
        cases p with
        | nil => cases h
        | cons s2 p =>
          obtain ⟨r, hr, h⟩ := Res.bind_eq_ok.1 h
          obtain ⟨ls, es, rfl, h1, h2⟩ := ih p q _ c (by simp at hn; omega) ⟨p', h, hq⟩
          simp only [firstWord_iff] at hb
          exact ⟨s :: s2 :: ls, _ :: es, rfl, .rotation hb ((rotation_iff ..).1 hr) h1, h2⟩
      rename_i hR
      split at h
      · rename_i hb
        obtain ⟨ls, es, rfl, h1, h2⟩ := ih p q _ c hn ⟨p', h, hq⟩
        exact ⟨s :: ls, _ :: es, rfl, .path ((firstWord_iff ..).1 hb) h1, h2⟩
      rename_i hA
      obtain ⟨ls, es, rfl, h1, h2⟩ := ih p q _ c hn ⟨p', h, hq⟩
      refine ⟨s :: ls, es, rfl, .other ?_ hend h1, h2⟩
      rw [not_or] at hR
      simp only [firstWord_iff] at hL hU hP hF hR hA
      simpa [compWords] using ⟨hL, hU, hP, hF, hR.1, hR.2, hA⟩

theorem component_run {F : Type} [Flt F] {ls : List Str} {es : List (CompEntry F)} (h : CompLines ls es) (q : List Str) :
    ∀ d : Component F, parseComponentLoop d (ls ++ q) = parseComponentLoop (es.foldl entryStep d) q := by
  have he : firstWord (str! "$EndComp") = some (str! "$EndComp") := by decide
  have nb : ∀ {w l : Str}, BeginsWith w l → w ∈ compWords → l ≠ str! "$EndComp" := fun hb hw =>
    ne_of_begins hb he fun e => by subst e; revert hw; decide
  induction h with
  | nil => intro d; rfl
  | names hb hw h ih =>
    intro d
    rw [List.cons_append, component_loop, if_neg (nb hb (by decide)), if_pos ((firstWord_iff ..).2 hb),
      (componentL_iff ..).2 ⟨_, _, _, hw, rfl⟩, Res.bind_ok, ih, List.foldl_cons]
  | unit hb h ih =>
    intro d
    have := (firstWord_iff ..).2 hb
    rw [List.cons_append, component_loop, if_neg (nb hb (by decide)), if_neg (by rw [this]; decide), if_pos this]
    exact ih _
  | position hb hw h ih =>
    intro d
    have := (firstWord_iff ..).2 hb
    rw [List.cons_append, component_loop, if_neg (nb hb (by decide)), if_neg (by rw [this]; decide),
      if_neg (by rw [this]; decide), if_pos this, (componentP_iff ..).2 ⟨_, _, hw, rfl⟩, Res.bind_ok, ih, List.foldl_cons]
  | field hb hw h ih =>
    intro d
    have := (firstWord_iff ..).2 hb
    rw [List.cons_append, component_loop, if_neg (nb hb (by decide)), if_neg (by rw [this]; decide),
      if_neg (by rw [this]; decide), if_neg (by rw [this]; decide), if_pos this,
      (componentF_iff ..).2 ⟨_, hw, rfl⟩, Res.bind_ok, ih, List.foldl_cons]
  | @rotation l m r ls es hb hw h ih =>
    intro d
    have hne : l ≠ str! "$EndComp" := hb.elim (fun hb => nb hb (by decide)) (fun hb => nb hb (by decide))
    simp only [← firstWord_iff] at hb
    rw [List.cons_append, component_loop, if_neg hne, if_neg (by rcases hb with hb | hb <;> (rw [hb]; decide)),
      if_neg (by rcases hb with hb | hb <;> (rw [hb]; decide)), if_neg (by rcases hb with hb | hb <;> (rw [hb]; decide)),
      if_neg (by rcases hb with hb | hb <;> (rw [hb]; decide)), if_pos hb]
    simp only [List.cons_append, (rotation_iff ..).2 hw, Res.bind_ok]
    exact ih _
  | path hb h ih =>
    intro d
    have := (firstWord_iff ..).2 hb
    rw [List.cons_append, component_loop, if_neg (nb hb (by decide)), if_neg (by rw [this]; decide),
      if_neg (by rw [this]; decide), if_neg (by rw [this]; decide), if_neg (by rw [this]; decide),
      if_neg (by rw [this]; decide), if_pos this]
    exact ih _
  | other hb hne h ih =>
    intro d
    simp only [compWords, List.forall_mem_cons, ← firstWord_iff] at hb
    rw [List.cons_append, component_loop, if_neg hne, if_neg hb.1, if_neg hb.2.1, if_neg hb.2.2.1, if_neg hb.2.2.2.1,
      if_neg (not_or.2 ⟨hb.2.2.2.2.1, hb.2.2.2.2.2.1⟩), if_neg hb.2.2.2.2.2.2.1]
    exact ih _

theorem component_accept {F : Type} [Flt F] {ls : List Str} {es : List (CompEntry F)} (h : CompLines ls es) (q : List Str)
    (d : Component F) : parseComponentLoop d (ls ++ str! "$EndComp" :: q) =
      .ok (es.foldl entryStep d, str! "$EndComp" :: q) := by
  rw [component_run h, component_loop, if_pos rfl]

theorem component_iff {F : Type} [Flt F] (s : Str) (p q : List Str) (c : Component F) :
    (∃ p', parseComponent (s :: p) = .ok (c, p') ∧ next p' = q) ↔
    ∃ ls es, p = ls ++ str! "$EndComp" :: q ∧ CompLines ls es ∧ Describes es c := by
  constructor
  · rintro h
    obtain ⟨ls, es, h1, h2, h3⟩ := component_read _ p q .dflt c (Nat.le_refl _) h
    exact ⟨ls, es, h1, h2, (describes_iff ..).1 h3.symm⟩
  · rintro ⟨ls, es, rfl, h2, h3⟩
    rw [← describes_iff] at h3
    subst h3
    exact ⟨_, component_accept h2 q _, rfl⟩

end Sch
end Verif
