import Verif.Lemmas.SchCodec
/-!
# What a schematic that was read looks like
-/

set_option linter.unusedSectionVars false
set_option linter.unusedSimpArgs false

namespace Verif
open Flt Spec

/-- Decide a fact, also for either line break character. -/
macro "brk" : tactic => `(tactic| first | decide | exact quotBut_lit (by decide))

/-! ### Parts of a split text -/

/-- What holds of the splitter's state. -/
def SplitInv (n : Option Nat) (P : Char → Prop) (st : SplitSt) : Prop :=
  st.v.length = st.i ∧ (∀ w ∈ st.v, '"' ∉ w ∧ ∀ c ∈ w, P c) ∧ (n ≠ some st.i → '"' ∉ st.cur) ∧
  (∀ c ∈ st.cur, P c)

theorem splitStep_inv (n : Option Nat) (P : Char → Prop) (st : SplitSt) (c : Char) (hc : P c)
    (h : SplitInv n P st) : SplitInv n P (splitStep n st c) := by
  obtain ⟨h1, h2, h3, h4⟩ := h
  unfold splitStep
  split
  · rename_i hn
    exact ⟨h1, h2, fun hh => absurd hn hh, by simpa using ⟨hc, h4⟩⟩
  rename_i hn
  split
  · exact ⟨h1, h2, h3, h4⟩
  rename_i hq1
  split
  · exact ⟨h1, h2, h3, h4⟩
  rename_i hq2
  have hcq : '"' ≠ c := by
    rintro rfl
    cases hi : st.inside <;> simp_all
  split
  · split
    · refine ⟨by simp [h1], ?_, by simp, by simp⟩
      intro w hw
      rcases List.mem_cons.1 hw with rfl | hw
      · exact ⟨by simpa using h3 hn, by simpa using h4⟩
      · exact h2 w hw
    · exact ⟨h1, h2, h3, h4⟩
  · refine ⟨h1, h2, fun _ => ?_, by simpa using ⟨hc, h4⟩⟩
    simp [h3 hn, hcq]

theorem split_inv (n : Option Nat) (P : Char → Prop) (s : Str) (hs : ∀ c ∈ s, P c) (st : SplitSt)
    (h : SplitInv n P st) : SplitInv n P (s.foldl (splitStep n) st) := by
  induction s generalizing st with
  | nil => exact h
  | cons c s ih =>
    rw [List.forall_mem_cons] at hs
    exact ih hs.2 _ (splitStep_inv n P st c hs.1 h)

/-- The parts of a text, except the unsplit rest, have no double quote and are
made of characters of the text. -/
theorem splitInt_parts {n : Option Nat} {s : Str} {v : List Str} (h : splitInt n s = .ok v) (i : Nat) (w : Str)
    (hw : v[i]? = some w) (hi : ∀ k, n = some k → i < k) : '"' ∉ w ∧ ∀ c ∈ w, c ∈ s := by
  have hv : v = splitFinish (s.foldl (splitStep n) ⟨0, [], false, false, []⟩) := by
    unfold splitInt at h
    simp only at h
    split at h
    · split at h
      · cases h
      · exact (Res.ok.inj h).symm
    · exact (Res.ok.inj h).symm
  have hinv := split_inv n (· ∈ s) s (fun _ h => h) ⟨0, [], false, false, []⟩ ⟨rfl, by simp, by simp, by simp⟩
  generalize s.foldl (splitStep n) ⟨0, [], false, false, []⟩ = st at hv hinv
  obtain ⟨h1, h2, h3, h4⟩ := hinv
  unfold splitFinish at hv
  split at hv
  · subst hv
    simp only [List.reverse_cons] at hw
    by_cases hlt : i < st.v.reverse.length
    · rw [List.getElem?_append_left hlt] at hw
      exact h2 w (by simpa using List.mem_of_getElem? hw)
    · rw [List.getElem?_append_right (by omega)] at hw
      have hlen : i = st.i := by
        simp only [List.length_reverse] at hlt hw
        rw [List.getElem?_eq_some_iff] at hw
        obtain ⟨hlt2, _⟩ := hw
        simp only [List.length_cons, List.length_nil] at hlt2
        omega
      have hw' : st.cur.reverse = w := by
        have := List.mem_of_getElem? hw
        rw [List.mem_singleton] at this
        exact this.symm
      subst hw'
      refine ⟨?_, by simpa using h4⟩
      have : n ≠ some st.i := fun e => by have := hi _ e; omega
      simpa using h3 this
  · subst hv
    exact h2 w (by simpa using List.mem_of_getElem? hw)

theorem splitN_part {ch : Char} {k : Nat} {s : Str} {v : List Str} (h : splitN k s = .ok v) {i : Nat} {w : Str}
    (hw : Sch.idx v i = .ok w) (hs : ch ∉ s) (hi : i < k) : QuotBut ch w := by
  have hw' : v[i]? = some w := by
    unfold Sch.idx at hw
    split at hw
    · cases hw; assumption
    · cases hw
  obtain ⟨h1, h2⟩ := splitInt_parts h i w hw' (fun k' hk => by cases hk; exact hi)
  exact ⟨fun hc => hs (h2 _ hc), h1⟩

theorem splitQ_part {ch : Char} {s : Str} {v : List Str} (h : splitQ s = .ok v) {i : Nat} {w : Str}
    (hw : Sch.idx v i = .ok w) (hs : ch ∉ s) : QuotBut ch w := by
  have hw' : v[i]? = some w := by
    unfold Sch.idx at hw
    split at hw
    · cases hw; assumption
    · cases hw
  obtain ⟨h1, h2⟩ := splitInt_parts h i w hw' (fun k' hk => by cases hk)
  exact ⟨fun hc => hs (h2 _ hc), h1⟩

theorem readI64_range {b : Nat} {s : Str} {i : Int} (h : readI64 b s = some i) : inI64 i := by
  unfold readI64 at h
  simp only at h
  split at h <;>
  · rw [Option.bind_eq_some_iff] at h
    obtain ⟨n, _, h⟩ := h
    split at h
    · cases h; assumption
    · cases h

namespace Sch

variable {F : Type} [Flt F] {ch : Char} [LineBreak ch]

theorem i64R_range {s : Str} {i : Int} (h : i64R s = .ok i) : inI64 i := by
  unfold i64R at h
  split at h
  · rename_i hi
    cases h
    exact readI64_range hi
  · cases h

theorem idx_mem {v : List Str} {n : Nat} {s : Str} (h : idx v n = .ok s) : s ∈ v := by
  unfold idx at h
  split at h
  · rename_i hi
    cases h
    exact List.mem_of_getElem? hi
  · cases h

theorem Field.new_read {v : List Str} {f : Field F} (h : Field.new v = .ok f)
    (hv : ∀ i w, idx v i = .ok w → QuotBut ch w) : ReadFieldBut ch f := by
  unfold Field.new at h
  split at h
  · cases h
  obtain ⟨w1, hw1, h⟩ := Res.bind_eq_ok.1 h
  obtain ⟨i, hi, h⟩ := Res.bind_eq_ok.1 h
  have key : ∀ name, QuotBut ch name → (do
      let value ← idx v 2
      let orientation ← Orientation.new (← charAt (← idx v 3) 0)
      let x ← f64R (← idx v 4)
      let y ← f64R (← idx v 5)
      let size ← i64R (← idx v 6)
      let visible ← boolFrom (← idx v 7) (str! "0000") (str! "0001")
      let hjustify ← Justify.new (← charAt (← idx v 8) 0)
      let vjustify ← Justify.new (← charAt (← idx v 9) 0)
      let italic ← boolFrom (← charAt (← idx v 9) 1) 'I' 'N'
      let bold ← boolFrom (← charAt (← idx v 9) 2) 'B' 'N'
      Res.ok ({ i, value, orientation, x, y, size, visible, hjustify, vjustify, italic, bold, name } : Field F)) =
        .ok f → ReadFieldBut ch f := by
    intro name hn h
    simp only [Res.bind_eq_ok] at h
    obtain ⟨value, h2, _, _, _, _, _, _, _, _, x, _, _, _, y, _, sz, h6, size, hsz, _, _, vis, _, _, _, _, _, hj, _, _, _,
      _, _, vj, _, _, _, _, _, it, _, _, _, _, _, bo, _, h⟩ := h
    cases h
    exact ⟨i64R_range hi, i64R_range hsz, hv _ _ h2, hn⟩
  split at h
  · obtain ⟨name, hn, h⟩ := Res.bind_eq_ok.1 h
    exact key name (hv _ _ hn) h
  split at h
  · exact key _ (quotBut_lit (by decide)) h
  split at h
  · exact key _ (quotBut_lit (by decide)) h
  split at h
  · exact key _ (quotBut_lit (by decide)) h
  split at h
  · exact key _ (quotBut_lit (by decide)) h
  · cases h

theorem parseComponentL_read {s : Str} {d c : Component F} (hs : ch ∉ s) (hd : ReadComponentBut ch d)
    (h : parseComponentL s d = .ok c) : ReadComponentBut ch c := by
  unfold parseComponentL at h
  simp only [Res.bind_eq_ok] at h
  obtain ⟨v, hv, n, hn, r, hr, h⟩ := h
  cases h
  obtain ⟨_, _, hd⟩ := hd
  exact ⟨splitN_part hv hn hs (by decide), splitN_part hv hr hs (by decide), hd⟩

theorem parseComponentP_read {s : Str} {d c : Component F} (hd : ReadComponentBut ch d)
    (h : parseComponentP s d = .ok c) : ReadComponentBut ch c := by
  unfold parseComponentP at h
  simp only [Res.bind_eq_ok] at h
  obtain ⟨v, hv, _, _, n, hn, _, _, r, hr, h⟩ := h
  cases h
  obtain ⟨h1, h2, h3, h4, _, _, hd⟩ := hd
  exact ⟨h1, h2, h3, h4, i64R_range hn, i64R_range hr, hd⟩

theorem parseComponentF_read {s : Str} {d c : Component F} (hs : ch ∉ s) (hd : ReadComponentBut ch d)
    (h : parseComponentF s d = .ok c) : ReadComponentBut ch c := by
  unfold parseComponentF at h
  simp only [Res.bind_eq_ok] at h
  obtain ⟨v, hv, f, hf, h⟩ := h
  cases h
  obtain ⟨h1, h2, h3, h4, h5, h6, h7, h8, h9⟩ := hd
  refine ⟨h1, h2, h3, h4, h5, h6, h7, ?_, h9⟩
  simp only [List.mem_append, List.mem_singleton]
  rintro g (hg | rfl)
  · exact h8 g hg
  · exact Field.new_read hf fun i w hw => splitQ_part hv hw hs

theorem parseRotation_read {s : Str} {r : Rotation} (h : parseRotation s = .ok r) :
    inI64 r.a ∧ inI64 r.b ∧ inI64 r.c ∧ inI64 r.d := by
  unfold parseRotation at h
  simp only at h
  split at h
  · cases h
  simp only [Res.bind_eq_ok] at h
  obtain ⟨_, _, a, ha, _, _, b, hb, _, _, c, hc, _, _, d, hd, h⟩ := h
  cases h
  exact ⟨i64R_range ha, i64R_range hb, i64R_range hc, i64R_range hd⟩

theorem parseComponentLoop_read : ∀ (n : Nat) (p : List Str) (d c : Component F) (p' : List Str), p.length ≤ n →
    (∀ l ∈ p, ch ∉ l) → ReadComponentBut ch d → parseComponentLoop d p = .ok (c, p') →
    ReadComponentBut ch c ∧ ∀ l ∈ p', l ∈ p
  | _, [], d, c, p', _, _, _, h => by rw [parseComponentLoop] at h; cases h
  | 0, _ :: _, _, _, _, h, _, _, _ => by simp at h
  | n + 1, s :: rest, d, c, p', hlen, hl, hd, h => by
    have hr : rest.length ≤ n := by simpa using hlen
    rw [List.forall_mem_cons] at hl
    have ih : ∀ d' : Component F, ReadComponentBut ch d' → parseComponentLoop d' rest = .ok (c, p') →
        ReadComponentBut ch c ∧ ∀ l ∈ p', l ∈ s :: rest := by
      intro d' hd' h'
      obtain ⟨h1, h2⟩ := parseComponentLoop_read n rest d' c p' hr hl.2 hd' h'
      exact ⟨h1, fun l hm => List.mem_cons_of_mem _ (h2 l hm)⟩
    rw [parseComponentLoop.eq_def] at h
    simp only at h
    split at h
    · cases h; exact ⟨hd, fun _ hm => hm⟩
    split at h
    · obtain ⟨d', h1, h2⟩ := Res.bind_eq_ok.1 h
      exact ih d' (parseComponentL_read hl.1 hd h1) h2
    split at h
    · rename_i hw
      obtain ⟨h1, h2, _, _, hd⟩ := hd
      exact ih ({ d with u := s } : Component F) ⟨h1, h2, hl.1, Or.inr hw, hd⟩ h
    split at h
    · obtain ⟨d', h1, h2⟩ := Res.bind_eq_ok.1 h
      exact ih d' (parseComponentP_read hd h1) h2
    split at h
    · obtain ⟨d', h1, h2⟩ := Res.bind_eq_ok.1 h
      exact ih d' (parseComponentF_read hl.1 hd h1) h2
    split at h
    · split at h
      · cases h
      · rename_i s2 rest2
        obtain ⟨r, h1, h2⟩ := Res.bind_eq_ok.1 h
        obtain ⟨a1, a2, a3, a4, a5, a6, a7, a8, _⟩ := hd
        have hd' : ReadComponentBut ch ({ d with rotation := r } : Component F) :=
          ⟨a1, a2, a3, a4, a5, a6, a7, a8, parseRotation_read h1⟩
        have hl2 := List.forall_mem_cons.1 hl.2
        obtain ⟨b1, b2⟩ := parseComponentLoop_read n rest2 _ c p' (by simp at hr; omega) hl2.2 hd' h2
        exact ⟨b1, fun l hm => List.mem_cons_of_mem _ (List.mem_cons_of_mem _ (b2 l hm))⟩
    split at h
    · rename_i hw
      obtain ⟨h1, h2, h3, h4, h5, h6, h7, hd⟩ := hd
      refine ih ({ d with arPath := d.arPath ++ [s] } : Component F) ⟨h1, h2, h3, h4, h5, h6, ?_, hd⟩ h
      simp only [List.mem_append, List.mem_singleton]
      rintro g (hg | rfl)
      · exact h7 g hg
      · exact ⟨hl.1, hw⟩
    · exact ih d hd h

theorem readComponent_dflt : ReadComponentBut ch (Component.dflt : Component F) := by
  have h0 : inI64 0 := by decide
  refine ⟨quotBut_lit (s := str! "DUMMY") (by decide), quotBut_lit (s := str! "U1") (by decide), List.not_mem_nil, Or.inl rfl, h0, h0,
    ?_, ?_, h0, h0, h0, h0⟩ <;> simp [Component.dflt]

theorem mem_next {p : List Str} {l : Str} (h : l ∈ next p) : l ∈ p := List.mem_of_mem_drop h

theorem here_mem {p : List Str} {s : Str} (h : here p = .ok s) : s ∈ p := by
  cases p with
  | nil => cases h
  | cons a p => cases h; simp

theorem parseComponent_read {p p' : List Str} {c : Component F} (hl : ∀ l ∈ p, ch ∉ l)
    (h : parseComponent p = .ok (c, p')) : ReadComponentBut ch c ∧ ∀ l ∈ p', l ∈ p := by
  obtain ⟨h1, h2⟩ := parseComponentLoop_read _ _ _ _ _ (Nat.le_refl _) (fun l hm => hl l (mem_next hm))
    readComponent_dflt h
  exact ⟨h1, fun l hm => mem_next (h2 l hm)⟩

theorem parseSheetS_read {l : Str} {s s' : Sheet} (hs : ReadSheetBut ch s) (h : parseSheetS l s = .ok s') :
    ReadSheetBut ch s' := by
  unfold parseSheetS at h
  simp only [Res.bind_eq_ok] at h
  obtain ⟨v, hv, _, _, x, hx, _, _, y, hy, _, _, dx, hdx, _, _, dy, hdy, h⟩ := h
  cases h
  obtain ⟨_, _, _, _, hs⟩ := hs
  exact ⟨i64R_range hx, i64R_range hy, i64R_range hdx, i64R_range hdy, hs⟩

theorem parseSheetU_read {l : Str} {s s' : Sheet} (hl : ch ∉ l) (hs : ReadSheetBut ch s)
    (h : parseSheetU l s = .ok s') : ReadSheetBut ch s' := by
  unfold parseSheetU at h
  simp only [Res.bind_eq_ok] at h
  obtain ⟨v, hv, u, hu, h⟩ := h
  cases h
  obtain ⟨h1, h2, h3, h4, _, hs⟩ := hs
  exact ⟨h1, h2, h3, h4, splitN_part hv hu hl (by decide), hs⟩

theorem parseSheetLabel_read {l : Str} {a : SheetLabel} (hl : ch ∉ l) (h : parseSheetLabel l = .ok a) :
    ReadLabelBut ch a := by
  unfold parseSheetLabel at h
  simp only [Res.bind_eq_ok] at h
  obtain ⟨v, hv, n, hn, _, _, form, _, _, _, side, _, _, _, x, hx, _, _, y, hy, _, _, sz, hsz, h⟩ := h
  cases h
  exact ⟨splitN_part hv hn hl (by decide), i64R_range hx, i64R_range hy, i64R_range hsz⟩

theorem parseSheetF_read {l f : Str} {s s' : Sheet} (hl : ch ∉ l) (hs : ReadSheetBut ch s)
    (h : parseSheetF l s f = .ok s') : ReadSheetBut ch s' := by
  unfold parseSheetF at h
  obtain ⟨i, _, h⟩ := Res.bind_eq_ok.1 h
  obtain ⟨h1, h2, h3, h4, h5, h6, h7, h8, h9, h10⟩ := hs
  split at h
  · simp only [Res.bind_eq_ok] at h
    obtain ⟨v, hv, n, hn, _, _, sz, hsz, h⟩ := h
    cases h
    exact ⟨h1, h2, h3, h4, h5, splitN_part hv hn hl (by decide), i64R_range hsz, h8, h9, h10⟩
  split at h
  · simp only [Res.bind_eq_ok] at h
    obtain ⟨v, hv, n, hn, _, _, sz, hsz, h⟩ := h
    cases h
    exact ⟨h1, h2, h3, h4, h5, h6, h7, splitN_part hv hn hl (by decide), i64R_range hsz, h10⟩
  · obtain ⟨a, ha, h⟩ := Res.bind_eq_ok.1 h
    cases h
    refine ⟨h1, h2, h3, h4, h5, h6, h7, h8, h9, ?_⟩
    simp only [List.mem_append, List.mem_singleton]
    rintro g (hg | rfl)
    · exact h10 g hg
    · exact parseSheetLabel_read hl ha

theorem parseSheetLoop_read : ∀ (p : List Str) (s s' : Sheet) (p' : List Str), (∀ l ∈ p, ch ∉ l) →
    ReadSheetBut ch s → parseSheetLoop s p = .ok (s', p') → ReadSheetBut ch s' ∧ ∀ l ∈ p', l ∈ p
  | [], _, _, _, _, _, h => by rw [parseSheetLoop] at h; cases h
  | st :: rest, s, s', p', hl, hs, h => by
    rw [List.forall_mem_cons] at hl
    have ih : ∀ d : Sheet, ReadSheetBut ch d → parseSheetLoop d rest = .ok (s', p') →
        ReadSheetBut ch s' ∧ ∀ l ∈ p', l ∈ st :: rest := by
      intro d hd h
      obtain ⟨h1, h2⟩ := parseSheetLoop_read rest d s' p' hl.2 hd h
      exact ⟨h1, fun l hm => List.mem_cons_of_mem _ (h2 l hm)⟩
    rw [parseSheetLoop.eq_def] at h
    simp only at h
    split at h
    · cases h; exact ⟨hs, fun _ hm => hm⟩
    split at h
    · split at h
      · obtain ⟨d, h1, h2⟩ := Res.bind_eq_ok.1 h
        exact ih d (parseSheetS_read hs h1) h2
      split at h
      · obtain ⟨d, h1, h2⟩ := Res.bind_eq_ok.1 h
        exact ih d (parseSheetU_read hl.1 hs h1) h2
      split at h
      · obtain ⟨d, h1, h2⟩ := Res.bind_eq_ok.1 h
        exact ih d (parseSheetF_read hl.1 hs h1) h2
      · exact ih s hs h
    · exact ih s hs h

theorem readSheet_dflt : ReadSheetBut ch Sheet.dflt := by
  refine ⟨by brk, by brk, by brk, by brk, by brk, by brk, by brk, by brk, by brk, ?_⟩
  simp [Sheet.dflt]

theorem parseSheet_read {p p' : List Str} {s : Sheet} (hl : ∀ l ∈ p, ch ∉ l)
    (h : parseSheet p = .ok (s, p')) : ReadSheetBut ch s ∧ ∀ l ∈ p', l ∈ p := by
  obtain ⟨h1, h2⟩ := parseSheetLoop_read _ _ _ _ (fun l hm => hl l (mem_next hm)) readSheet_dflt h
  exact ⟨h1, fun l hm => mem_next (h2 l hm)⟩

theorem parseWire_read {p p' : List Str} {w : Wire} (h : parseWire p = .ok (w, p')) :
    FitsWire w ∧ ∀ l ∈ p', l ∈ p := by
  unfold parseWire at h
  obtain ⟨s, _, h⟩ := Res.bind_eq_ok.1 h
  simp only at h
  split at h
  · cases h
  obtain ⟨_, _, h⟩ := Res.bind_eq_ok.1 h
  obtain ⟨_, _, h⟩ := Res.bind_eq_ok.1 h
  split at h
  · cases h
  simp only [Res.bind_eq_ok] at h
  obtain ⟨_, _, a, ha, _, _, b, hb, _, _, c, hc, _, _, d, hd, h⟩ := h
  cases h
  exact ⟨⟨i64R_range ha, i64R_range hb, i64R_range hc, i64R_range hd⟩, fun l hm => mem_next hm⟩

theorem parsePos_read {s : Str} {p : Pos} (h : parsePos s = .ok p) : FitsPos p := by
  unfold parsePos at h
  simp only at h
  split at h
  · cases h
  simp only [Res.bind_eq_ok] at h
  obtain ⟨_, _, a, ha, _, _, b, hb, h⟩ := h
  cases h
  exact ⟨i64R_range ha, i64R_range hb⟩

theorem parseText_read {p p' : List Str} {t : Text} (hl : ∀ l ∈ p, ch ∉ l) (h : parseText p = .ok (t, p')) :
    ReadTextBut ch t ∧ ∀ l ∈ p', l ∈ p := by
  unfold parseText at h
  obtain ⟨s, _, h⟩ := Res.bind_eq_ok.1 h
  simp only at h
  split at h
  · cases h
  obtain ⟨_, _, h⟩ := Res.bind_eq_ok.1 h
  obtain ⟨ty, hty, h⟩ := Res.bind_eq_ok.1 h
  obtain ⟨_, _, h⟩ := Res.bind_eq_ok.1 h
  obtain ⟨x, hx, h⟩ := Res.bind_eq_ok.1 h
  obtain ⟨_, _, h⟩ := Res.bind_eq_ok.1 h
  obtain ⟨y, hy, h⟩ := Res.bind_eq_ok.1 h
  obtain ⟨_, _, h⟩ := Res.bind_eq_ok.1 h
  obtain ⟨o, ho, h⟩ := Res.bind_eq_ok.1 h
  obtain ⟨_, _, h⟩ := Res.bind_eq_ok.1 h
  obtain ⟨sz, hsz, h⟩ := Res.bind_eq_ok.1 h
  have sol : ∀ w ∈ splitWs s, Solid w := splitWs_solid s
  have hll : ∀ w, here (next p) = .ok w → ch ∉ w := fun w hw => hl w (mem_next (here_mem hw))
  cases ty with
  | note | label =>
    simp only [TextType.isLocal, if_true, Res.bind_ok] at h
    simp only [Res.bind_eq_ok] at h
    obtain ⟨_, _, _, _, th, hth, tx, htx, h⟩ := h
    cases h
    exact ⟨⟨i64R_range hx, i64R_range hy, i64R_range ho, i64R_range hsz, i64R_range hth, hll _ htx, trivial⟩,
      fun l hm => mem_next hm⟩
  | global | hierarchical =>
    simp only [TextType.isLocal, Bool.false_eq_true, if_false, Res.bind_ok] at h
    simp only [Res.bind_eq_ok] at h
    obtain ⟨w7, h7, _, _, _, _, th, hth, tx, htx, h⟩ := h
    cases h
    exact ⟨⟨i64R_range hx, i64R_range hy, i64R_range ho, i64R_range hsz, i64R_range hth, hll _ htx,
      sol _ (idx_mem h7)⟩, fun l hm => mem_next hm⟩

theorem wordAndQstring_read {n s r : Str} (hs : ch ∉ s) (h : wordAndQstring n s = .ok r) : QuotBut ch r := by
  unfold wordAndQstring at h
  simp only [Res.bind_eq_ok] at h
  obtain ⟨v, hv, _, _, _, _, h⟩ := h
  exact splitN_part hv h hs (by decide)

theorem parseDescription_read {p p' : List Str} {d : Description} (hl : ∀ l ∈ p, ch ∉ l)
    (h : parseDescription p = .ok (d, p')) : ReadDescriptionBut ch d ∧ ∀ l ∈ p', l ∈ p := by
  unfold parseDescription at h
  obtain ⟨s, hs, h⟩ := Res.bind_eq_ok.1 h
  obtain ⟨v, hv, h⟩ := Res.bind_eq_ok.1 h
  obtain ⟨size, hsize, h⟩ := Res.bind_eq_ok.1 h
  obtain ⟨_, _, h⟩ := Res.bind_eq_ok.1 h
  obtain ⟨dx, hdx, h⟩ := Res.bind_eq_ok.1 h
  obtain ⟨_, _, h⟩ := Res.bind_eq_ok.1 h
  obtain ⟨dy, hdy, h⟩ := Res.bind_eq_ok.1 h
  obtain ⟨s2, hs2, h⟩ := Res.bind_eq_ok.1 h
  obtain ⟨v2, hv2, h⟩ := Res.bind_eq_ok.1 h
  obtain ⟨_, _, h⟩ := Res.bind_eq_ok.1 h
  split at h
  · cases h
  simp only [Res.bind_eq_ok] at h
  obtain ⟨_, _, sh, hsh, _, _, sc, hsc, s3, e3, r3, h3, s4, e4, r4, h4, s5, e5, r5, h5, s6, e6, r6, h6,
    s7, e7, r7, h7, s8, e8, r8, h8, s9, e9, r9, h9, s10, e10, r10, h10, _, _, _, _, h⟩ := h
  cases h
  have hm : ∀ {q : List Str}, (∀ l ∈ q, l ∈ p) → ∀ l ∈ next q, l ∈ p := fun hq l hl => hq l (mem_next hl)
  have q0 : ∀ l ∈ p, l ∈ p := fun _ h => h
  have ol : ∀ {q : List Str} {s}, (∀ l ∈ q, l ∈ p) → here q = .ok s → ch ∉ s :=
    fun hq he => hl _ (hq _ (here_mem he))
  refine ⟨⟨splitN_part hv hsize (ol q0 hs) (by decide), i64R_range hdx, i64R_range hdy,
    wordAndQstring_read (ol (hm (hm (hm q0))) e3) h3, wordAndQstring_read (ol (hm (hm (hm (hm q0)))) e4) h4,
    wordAndQstring_read (ol (hm (hm (hm (hm (hm q0))))) e5) h5,
    wordAndQstring_read (ol (hm (hm (hm (hm (hm (hm q0)))))) e6) h6,
    wordAndQstring_read (ol (hm (hm (hm (hm (hm (hm (hm q0))))))) e7) h7,
    wordAndQstring_read (ol (hm (hm (hm (hm (hm (hm (hm (hm q0)))))))) e8) h8,
    wordAndQstring_read (ol (hm (hm (hm (hm (hm (hm (hm (hm (hm q0))))))))) e9) h9,
    wordAndQstring_read (ol (hm (hm (hm (hm (hm (hm (hm (hm (hm (hm q0)))))))))) e10) h10,
    i64R_range hsh, i64R_range hsc⟩, ?_⟩
  exact hm (hm (hm (hm (hm (hm (hm (hm (hm (hm (hm q0))))))))))

theorem forall_snoc {α : Type} {P : α → Prop} {l : List α} {a : α} (h : ∀ x ∈ l, P x) (ha : P a) :
    ∀ x ∈ l ++ [a], P x := by
  simp only [List.mem_append, List.mem_singleton]
  rintro g (hg | rfl)
  · exact h g hg
  · exact ha

theorem parseItem_read {sch sch' : Schematic F} {p p' : List Str} (hl : ∀ l ∈ p, ch ∉ l)
    (hs : ReadSchematicBut ch sch) (h : parseItem sch p = .ok (sch', p')) :
    ReadSchematicBut ch sch' ∧ sch'.eelayer = sch.eelayer ∧ sch'.filename = sch.filename ∧
      sch'.libraries = sch.libraries ∧ ∀ l ∈ p', l ∈ p := by
  unfold parseItem at h
  obtain ⟨s, hhere, h⟩ := Res.bind_eq_ok.1 h
  obtain ⟨a1, a2, a3, a4⟩ := hs
  simp only at h
  split at h
  · cases h
  rename_i w hw
  split at h
  · obtain ⟨⟨d, q⟩, h1, h2⟩ := Res.bind_eq_ok.1 h
    cases h2
    obtain ⟨b1, b2⟩ := parseDescription_read hl h1
    exact ⟨⟨a1, b1, a3, a4⟩, rfl, rfl, rfl, b2⟩
  rename_i n1
  split at h
  · obtain ⟨⟨d, q⟩, h1, h2⟩ := Res.bind_eq_ok.1 h
    cases h2
    obtain ⟨b1, b2⟩ := parseComponent_read hl h1
    exact ⟨⟨a1, a2, forall_snoc a3 b1, a4⟩, rfl, rfl, rfl, b2⟩
  rename_i n2
  split at h
  · obtain ⟨⟨d, q⟩, h1, h2⟩ := Res.bind_eq_ok.1 h
    cases h2
    obtain ⟨b1, b2⟩ := parseSheet_read hl h1
    exact ⟨⟨a1, a2, a3, forall_snoc a4 b1⟩, rfl, rfl, rfl, b2⟩
  rename_i n3
  split at h
  · cases h; exact ⟨⟨a1, a2, a3, a4⟩, rfl, rfl, rfl, fun _ h => h⟩
  rename_i n4
  split at h
  · obtain ⟨⟨d, q⟩, h1, h2⟩ := Res.bind_eq_ok.1 h
    cases h2
    obtain ⟨b1, b2⟩ := parseWire_read h1
    exact ⟨⟨a1, a2, forall_snoc a3 b1, a4⟩, rfl, rfl, rfl, b2⟩
  rename_i n5
  split at h
  · obtain ⟨d, h1, h2⟩ := Res.bind_eq_ok.1 h
    cases h2
    exact ⟨⟨a1, a2, forall_snoc a3 (parsePos_read h1), a4⟩, rfl, rfl, rfl, fun _ h => h⟩
  rename_i n6
  split at h
  · obtain ⟨d, h1, h2⟩ := Res.bind_eq_ok.1 h
    cases h2
    exact ⟨⟨a1, a2, forall_snoc a3 (parsePos_read h1), a4⟩, rfl, rfl, rfl, fun _ h => h⟩
  rename_i n7
  split at h
  · obtain ⟨⟨d, q⟩, h1, h2⟩ := Res.bind_eq_ok.1 h
    cases h2
    obtain ⟨b1, b2⟩ := parseText_read hl h1
    exact ⟨⟨a1, a2, forall_snoc a3 b1, a4⟩, rfl, rfl, rfl, b2⟩
  rename_i n8
  cases h
  refine ⟨⟨a1, a2, forall_snoc a3 ?_, a4⟩, rfl, rfl, rfl, fun _ h => h⟩
  refine ⟨hl _ (here_mem hhere), w, hw, ?_⟩
  simp only [itemWords, List.mem_cons, List.not_mem_nil, or_false, not_or]
  exact ⟨n1, n2, n3, n4, n5, n6, n7, n8⟩

theorem parseItems_read (n : Nat) {sch sch' : Schematic F} {p : List Str} (hl : ∀ l ∈ p, ch ∉ l)
    (hs : ReadSchematicBut ch sch) (h : parseItems n sch p = .ok sch') :
    ReadSchematicBut ch sch' ∧ sch'.eelayer = sch.eelayer ∧ sch'.filename = sch.filename ∧
      sch'.libraries = sch.libraries := by
  induction n generalizing sch p with
  | zero =>
    cases p with
    | nil => rw [parseItems] at h; cases h; exact ⟨hs, rfl, rfl, rfl⟩
    | cons a p => rw [parseItems] at h; cases h
  | succ n ih =>
    cases p with
    | nil => rw [parseItems] at h; cases h; exact ⟨hs, rfl, rfl, rfl⟩
    | cons a p =>
      rw [parseItems] at h
      · obtain ⟨⟨s2, p2⟩, h1, h2⟩ := Res.bind_eq_ok.1 h
        obtain ⟨b1, b2, b3, b4, b5⟩ := parseItem_read hl hs h1
        obtain ⟨c1, c2, c3, c4⟩ := ih (fun l hm => hl l (b5 l (mem_next hm))) b1 h2
        exact ⟨c1, c2.trans b2, c3.trans b3, c4.trans b4⟩
      · simp

theorem parseLibs_read (sch : Schematic F) (p : List Str) (hl : ∀ l ∈ p, ch ∉ l) (hs : ReadSchematicBut ch sch) :
    ReadSchematicBut ch (parseLibs sch p).1 ∧ (parseLibs sch p).1.filename = sch.filename ∧
      ∀ l ∈ (parseLibs sch p).2, l ∈ p := by
  induction p generalizing sch with
  | nil => exact ⟨hs, rfl, fun _ h => h⟩
  | cons a p ih =>
    rw [List.forall_mem_cons] at hl
    rw [parseLibs]
    split
    · obtain ⟨a1, a2, a3, a4⟩ := hs
      have hd : ch ∉ a.drop 5 := fun h => hl.1 (List.mem_of_mem_drop h)
      obtain ⟨b1, b2, b3⟩ := ih { sch with libraries := sch.libraries ++ [a.drop 5] } hl.2 ⟨forall_snoc a1 hd, a2, a3, a4⟩
      exact ⟨b1, b2, fun l hm => List.mem_cons_of_mem _ (b3 l hm)⟩
    · exact ⟨hs, rfl, fun _ h => h⟩

theorem assumeLine_mem {e : Str} {p p' : List Str} (h : assumeLine e p = .ok p') : ∀ l ∈ p', l ∈ p := by
  unfold assumeLine at h
  split at h
  · cases h
  · split at h
    · cases h
    · cases h; exact fun l hm => List.mem_cons_of_mem _ hm

theorem readSchematic_dflt (f : Option Str) :
    ReadSchematicBut ch ({ (Schematic.dflt : Schematic F) with filename := f }) := by
  refine ⟨by simp [Schematic.dflt], (?_ : ReadDescriptionBut ch Description.dflt), by simp [Schematic.dflt],
    by simp [Schematic.dflt]⟩
  refine ⟨by brk, by brk, by brk, by brk, by brk, by brk, by brk, by brk, by brk,
    by brk, by brk, by brk, by brk⟩

theorem parseLines_read {f : Option Str} {p : List Str} {s : Schematic F} (hl : ∀ l ∈ p, ch ∉ l)
    (h : parseLines f p = .ok s) :
    ReadSchematicBut ch s ∧ s.filename = f ∧ ReadLayerBut ch s.eelayer := by
  unfold parseLines at h
  simp only at h
  obtain ⟨p1, h1, h⟩ := Res.bind_eq_ok.1 h
  obtain ⟨b1, b2, b3⟩ := parseLibs_read _ p1 (fun l hm => hl l (assumeLine_mem h1 l hm)) (readSchematic_dflt (F := F) f)
  obtain ⟨s1, h2, h⟩ := Res.bind_eq_ok.1 h
  split at h
  · cases h
  rename_i hw
  obtain ⟨p2, h3, h⟩ := Res.bind_eq_ok.1 h
  have hin : ∀ l ∈ p2, ch ∉ l := fun l hm =>
    hl l (assumeLine_mem h1 l (b3 l (mem_next (assumeLine_mem h3 l hm))))
  obtain ⟨c1, c2, c3, c4⟩ := parseItems_read _ hin (sch := { (parseLibs _ p1).1 with eelayer := s1 }) b1 h
  refine ⟨c1, c3.trans b2, ?_, ?_⟩
  · rw [c2]
    exact hl _ (assumeLine_mem h1 _ (b3 _ (here_mem h2)))
  · rw [c2]
    simpa using hw

theorem stripCr_subset (s : Str) : ∀ c ∈ stripCr s, c ∈ s := by
  induction s with
  | nil => simp [stripCr]
  | cons a s ih =>
    unfold stripCr
    split
    · simp
    · simp
    · rename_i heq
      cases heq
      intro c hc
      rcases List.mem_cons.1 hc with rfl | hc
      · simp
      · exact List.mem_cons_of_mem _ (ih c hc)

/-- No line of a text has a line feed in it. -/
theorem lines_noLf (s : Str) : ∀ l ∈ lines s, '\n' ∉ l := by
  have key : ∀ (s cur : Str), '\n' ∉ cur → ∀ l ∈ linesAux cur s, '\n' ∉ l := by
    intro s
    induction s with
    | nil =>
      intro cur hc l hl
      rw [linesAux] at hl
      split at hl
      · cases hl
      · rw [List.mem_singleton] at hl; subst hl; simpa using hc
    | cons c s ih =>
      intro cur hc l hl
      rw [linesAux] at hl
      split at hl
      · rcases List.mem_cons.1 hl with rfl | hl
        · intro hm
          exact hc (by simpa using stripCr_subset _ _ hm)
        · exact ih [] (by simp) l hl
      · rename_i hne
        refine ih (c :: cur) ?_ l hl
        simp [hc, Ne.symm hne]
  exact key s [] (by simp)

end Sch
end Verif
