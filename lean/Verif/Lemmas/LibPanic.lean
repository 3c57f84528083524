import Verif.Lemmas.SchPanic
import Verif.Spec.SymbolDefects
import Verif.Model.SymbolLib
/-!
# Reading a symbol library: where panics come from
-/

namespace Verif.Lib
open Verif Flt Res Spec
open Verif.Sch (here next assumeLine charAt i64R f64R boolFrom assumeString idx Orientation Justify idx_quiet
  i64R_quiet f64R_quiet boolFrom_quiet splitQ_quiet charAt_panic idx_ok)

set_option linter.unusedSectionVars false

variable {F : Type} [Flt F]

theorem LibDefect.mono {p ls : List Str} (h : p <:+ ls) (hd : LibDefect p) : LibDefect ls := by
  obtain ⟨a, rfl⟩ := h
  cases hd with
  | emptyLine h => exact .emptyLine (List.mem_append_right _ h)
  | field hl h => exact .field (List.mem_append_right _ hl) h
  | cutComment => rw [← List.append_assoc]; exact .cutComment
  | cutDefinition h hv => rw [← List.append_assoc]; exact .cutDefinition h hv
  | cutField => rw [← List.append_assoc]; exact .cutField
  | cutFilters h => rw [← List.append_assoc]; exact .cutFilters h

/-- A read that does not panic itself passes the blame on. -/
theorem panic_step {α β : Type} {x : Res α} {f : α → Res β} (hx : x.Quiet) (h : (x >>= f) = .panic) :
    ∃ a, x = .ok a ∧ f a = .panic := by
  rcases Res.bind_eq_panic.1 h with h' | h'
  · exact absurd h' hx
  · exact h'

theorem parseField_panic {l : Str} (hl : ∃ r, l = 'F' :: r) (h : (parseField l : Res (Field F)) = .panic) :
    BadSymField l := by
  unfold parseField at h
  obtain ⟨v, hv, h⟩ := panic_step (splitQ_quiet _) h
  split at h
  · cases h
  rename_i hlen
  have hl9 : v.length = 9 ∨ v.length = 10 := by omega
  refine ⟨hl, v, hv, hl9, ?_⟩
  have q : ∀ n, n < 9 → (idx v n).Quiet := fun n hn => idx_quiet (by omega)
  obtain ⟨_, _, h⟩ := panic_step (q 0 (by decide)) h
  obtain ⟨i, _, h⟩ := panic_step (i64R_quiet _) h
  extract_lets jp at h
  have hj : ∃ nm, jp nm = .panic := by
    split at h
    · obtain ⟨nm, _, h⟩ := panic_step (idx_quiet (by omega)) h
      exact ⟨nm, h⟩
    · repeat' split at h
      all_goals first
        | (obtain ⟨nm, _, h⟩ := panic_step (quiet_ok _) h; exact ⟨nm, h⟩)
        | cases h
  clear h
  obtain ⟨nm, h⟩ := hj
  simp only [jp] at h
  obtain ⟨_, _, h⟩ := panic_step (q 1 (by decide)) h
  obtain ⟨_, _, h⟩ := panic_step (q 2 (by decide)) h
  obtain ⟨_, _, h⟩ := panic_step (f64R_quiet _) h
  obtain ⟨_, _, h⟩ := panic_step (q 3 (by decide)) h
  obtain ⟨_, _, h⟩ := panic_step (f64R_quiet _) h
  obtain ⟨_, _, h⟩ := panic_step (q 4 (by decide)) h
  obtain ⟨_, _, h⟩ := panic_step (i64R_quiet _) h
  obtain ⟨w5, h5, h⟩ := panic_step (q 5 (by decide)) h
  rcases Res.bind_eq_panic.1 h with h' | ⟨_, _, h⟩
  · left
    have := charAt_panic h'
    rw [idx_ok h5, List.length_eq_zero_iff.1 (Nat.le_zero.1 this)]
  obtain ⟨_, _, h⟩ := panic_step (Orientation.new_quiet _) h
  obtain ⟨_, _, h⟩ := panic_step (q 6 (by decide)) h
  obtain ⟨_, _, h⟩ := panic_step (boolFrom_quiet _ _ _) h
  obtain ⟨w7, h7, h⟩ := panic_step (q 7 (by decide)) h
  rcases Res.bind_eq_panic.1 h with h' | ⟨_, _, h⟩
  · right; left
    have := charAt_panic h'
    rw [idx_ok h7, List.length_eq_zero_iff.1 (Nat.le_zero.1 this)]
  right; right
  obtain ⟨_, _, h⟩ := panic_step (Justify.new_quiet _) h
  obtain ⟨w8, h8, h⟩ := panic_step (q 8 (by decide)) h
  refine ⟨w8, idx_ok h8, ?_⟩
  rcases Res.bind_eq_panic.1 h with h' | ⟨_, _, h⟩
  · have := charAt_panic h'; omega
  obtain ⟨_, _, h⟩ := panic_step (Justify.new_quiet _) h
  obtain ⟨w8', h8', h⟩ := panic_step (q 8 (by decide)) h
  rw [h8] at h8'; cases h8'
  rcases Res.bind_eq_panic.1 h with h' | ⟨_, _, h⟩
  · have := charAt_panic h'; omega
  obtain ⟨_, _, h⟩ := panic_step (boolFrom_quiet _ _ _) h
  obtain ⟨w8', h8', h⟩ := panic_step (q 8 (by decide)) h
  rw [h8] at h8'; cases h8'
  rcases Res.bind_eq_panic.1 h with h' | ⟨_, _, h⟩
  · have := charAt_panic h'; omega
  obtain ⟨_, _, h⟩ := panic_step (boolFrom_quiet _ _ _) h
  cases h

theorem charAt_zero {s : Str} {c : Char} (h : charAt s 0 = .ok c) : ∃ r, s = c :: r := by
  unfold charAt at h
  cases s with
  | nil => cases h
  | cons d s => simp at h; exact ⟨s, by rw [h]⟩

/-- The field loop panics at a bad field, an empty line, or when the lines end; then
either there were none or the last one was a field. -/
theorem parseFields_cause {acc : List (Field F)} {p : List Str} (h : parseFields acc p = .panic) :
    p = [] ∨ LibDefect p := by
  induction p generalizing acc with
  | nil => exact Or.inl rfl
  | cons s rest ih =>
    right
    rw [parseFields] at h
    rcases Res.bind_eq_panic.1 h with h' | ⟨c, hc, h⟩
    · have := charAt_panic h'
      have : s = [] := List.length_eq_zero_iff.1 (Nat.le_zero.1 this)
      exact .emptyLine (by rw [this]; exact List.mem_cons_self)
    · obtain ⟨r, hr⟩ := charAt_zero hc
      split at h
      · rename_i hcF
        subst hcF
        rcases Res.bind_eq_panic.1 h with h' | ⟨f, _, h⟩
        · exact .field List.mem_cons_self (parseField_panic ⟨r, hr⟩ h')
        · rcases ih h with rfl | hd
          · rw [hr]; exact .cutField (a := [])
          · exact LibDefect.mono (List.suffix_cons _ _) hd
      · cases h

theorem parseFields_suffix {acc fs : List (Field F)} {p p' : List Str} (h : parseFields acc p = .ok (fs, p')) :
    p' <:+ p ∧ p' ≠ [] := by
  induction p generalizing acc with
  | nil => cases h
  | cons s rest ih =>
    rw [parseFields] at h
    obtain ⟨c, _, h⟩ := Res.bind_eq_ok.1 h
    split at h
    · obtain ⟨f, _, h⟩ := Res.bind_eq_ok.1 h
      exact ⟨(ih h).1.trans (List.suffix_cons _ _), (ih h).2⟩
    · cases h
      exact ⟨List.suffix_refl _, by simp⟩

theorem parseDraws_suffix {acc ds : List Draw} {p p' : List Str} (h : parseDraws acc p = .ok (ds, p')) :
    p' <:+ p := by
  induction p generalizing acc with
  | nil => cases h; exact List.suffix_refl _
  | cons s rest ih =>
    rw [parseDraws] at h
    split at h
    · cases h; exact List.suffix_cons _ _
    · obtain ⟨d, _, h⟩ := Res.bind_eq_ok.1 h
      exact (ih h).trans (List.suffix_cons _ _)

theorem skipFplist_suffix (p : List Str) : skipFplist p <:+ p := by
  induction p with
  | nil => exact List.suffix_refl _
  | cons s p ih =>
    rw [skipFplist]
    split
    · exact List.suffix_cons _ _
    · exact ih.trans (List.suffix_cons _ _)

/-- The list of filters ends before the file, unless nothing follows it. -/
theorem skipFplist_nil {p : List Str} (h : skipFplist p = []) : str! "$ENDFPLIST" ∉ p.dropLast := by
  induction p with
  | nil => simp
  | cons s p ih =>
    rw [skipFplist] at h
    split at h
    · rw [h]; simp
    · rename_i hne
      cases p with
      | nil => simp
      | cons t p =>
        rw [List.dropLast_cons_cons, List.mem_cons, not_or]
        exact ⟨fun e => hne e.symm, ih h⟩

theorem assumeLine_quiet (e : Str) (p : List Str) : (assumeLine e p).Quiet := by
  unfold assumeLine
  split
  · exact quiet_err _
  · exact quiet_ite (quiet_err _) (quiet_ok _)

theorem assumeLine_suffix {e : Str} {p p' : List Str} (h : assumeLine e p = .ok p') : p' <:+ p := by
  unfold assumeLine at h
  split at h
  · cases h
  · split at h
    · cases h
    · cases h; exact List.suffix_cons _ _

theorem next_suffix (p : List Str) : next p <:+ p := List.drop_suffix _ _

theorem here_panic {p : List Str} (h : here p = .panic) : p = [] := by
  cases p with
  | nil => rfl
  | cons x p => cases h

theorem parsePin_quiet (l : Str) : (parsePin l).Quiet := by
  have ho : ∀ s, (PinOrientation.make s).Quiet := by
    intro s; unfold PinOrientation.make
    repeat' with_reducible first | exact quiet_ok _ | exact quiet_err _ | apply quiet_ite
  have ht : ∀ s, (PinType.make s).Quiet := by
    intro s; unfold PinType.make
    repeat' with_reducible first | exact quiet_ok _ | exact quiet_err _ | apply quiet_ite
  have hs : ∀ s, (PinShape.make s).Quiet := by
    intro s; unfold PinShape.make
    repeat' with_reducible first | exact quiet_ok _ | exact quiet_err _ | apply quiet_ite
  unfold parsePin
  refine quiet_bind (splitQ_quiet _) fun v _ => ?_
  split
  · exact quiet_err _
  have q : ∀ n, n < 12 → (idx v n).Quiet := fun n hn => idx_quiet (by omega)
  refine quiet_bind (q _ (by decide)) fun _ _ => ?_
  refine quiet_bind (q _ (by decide)) fun _ _ => ?_
  iterate 3
    refine quiet_bind (q _ (by decide)) fun _ _ => ?_
    refine quiet_bind (i64R_quiet _) fun _ _ => ?_
  refine quiet_bind (q _ (by decide)) fun _ _ => ?_
  refine quiet_bind (ho _) fun _ _ => ?_
  iterate 4
    refine quiet_bind (q _ (by decide)) fun _ _ => ?_
    refine quiet_bind (i64R_quiet _) fun _ _ => ?_
  refine quiet_bind (q _ (by decide)) fun _ _ => ?_
  refine quiet_bind (ht _) fun _ _ => ?_
  split
  · refine quiet_bind (idx_quiet (by omega)) fun _ _ => ?_
    refine quiet_bind (hs _) fun _ _ => ?_
    exact quiet_ok _
  · exact quiet_ok _

theorem parseRect_quiet (l : Str) : (parseRect l).Quiet := by
  have ht : ∀ s, (Fill.make s).Quiet := by
    intro s; unfold Fill.make
    repeat' with_reducible first | exact quiet_ok _ | exact quiet_err _ | apply quiet_ite
  unfold parseRect
  refine quiet_bind (splitQ_quiet _) fun v _ => ?_
  split
  · exact quiet_err _
  have q : ∀ n, n < 9 → (idx v n).Quiet := fun n hn => idx_quiet (by omega)
  iterate 7
    refine quiet_bind (q _ (by decide)) fun _ _ => ?_
    refine quiet_bind (i64R_quiet _) fun _ _ => ?_
  refine quiet_bind (q _ (by decide)) fun _ _ => ?_
  refine quiet_bind (ht _) fun _ _ => ?_
  exact quiet_ok _

theorem parseDrawLine_quiet (l : Str) : (parseDrawLine l).Quiet := by
  unfold parseDrawLine
  split
  · exact quiet_bind (parsePin_quiet _) fun _ _ => quiet_ok _
  split
  · exact quiet_bind (parseRect_quiet _) fun _ _ => quiet_ok _
  · exact quiet_ok _

theorem parseDraws_quiet (acc : List Draw) (p : List Str) : (parseDraws acc p).Quiet := by
  induction p generalizing acc with
  | nil => exact quiet_ok _
  | cons s p ih =>
    rw [parseDraws]
    split
    · exact quiet_ok _
    · exact quiet_bind (parseDrawLine_quiet _) fun _ _ => ih _

theorem parseDef_quiet (l : Str) : (parseDef l : Res (Symbol F)).Quiet := by
  unfold parseDef
  refine quiet_bind (splitQ_quiet _) fun v _ => ?_
  split
  · exact quiet_err _
  have q : ∀ n, n < 10 → (idx v n).Quiet := fun n hn => idx_quiet (by omega)
  refine quiet_bind (q _ (by decide)) fun _ _ => ?_
  refine quiet_bind (Sch.assumeString_quiet _ _) fun _ _ => ?_
  refine quiet_bind (q _ (by decide)) fun _ _ => ?_
  refine quiet_bind (q _ (by decide)) fun _ _ => ?_
  refine quiet_bind (q _ (by decide)) fun _ _ => ?_
  refine quiet_bind (f64R_quiet _) fun _ _ => ?_
  iterate 2
    refine quiet_bind (q _ (by decide)) fun _ _ => ?_
    refine quiet_bind (boolFrom_quiet _ _ _) fun _ _ => ?_
  refine quiet_bind (q _ (by decide)) fun _ _ => ?_
  refine quiet_bind (i64R_quiet _) fun _ _ => ?_
  iterate 2
    refine quiet_bind (q _ (by decide)) fun _ _ => ?_
    refine quiet_bind (boolFrom_quiet _ _ _) fun _ _ => ?_
  exact quiet_ok _

theorem parseDef_first {l : Str} {s : Symbol F} (h : parseDef l = .ok s) :
    ∃ v, splitQ l = .ok v ∧ v[0]? = some (str! "DEF") := by
  unfold parseDef at h
  obtain ⟨v, hv, h⟩ := Res.bind_eq_ok.1 h
  split at h
  · cases h
  obtain ⟨w, hw, h⟩ := Res.bind_eq_ok.1 h
  obtain ⟨_, ha, h⟩ := Res.bind_eq_ok.1 h
  refine ⟨v, hv, ?_⟩
  rw [idx_ok hw]
  unfold assumeString at ha
  split at ha
  · cases ha
  · rename_i hne
    simp only [ne_eq, Classical.not_not] at hne
    rw [hne]

theorem parseAliases_panic {p : List Str} (h : parseAliases p = .panic) : p = [] := by
  unfold parseAliases at h
  rcases Res.bind_eq_panic.1 h with h' | ⟨s, _, h⟩
  · exact here_panic h'
  · split at h
    · exact absurd h (quiet_bind (splitQ_quiet _) fun _ _ => quiet_ok _)
    · cases h

theorem parseAliases_suffix {p p' as : List Str} (h : parseAliases p = .ok (as, p')) : p' <:+ p := by
  unfold parseAliases at h
  obtain ⟨s, _, h⟩ := Res.bind_eq_ok.1 h
  split at h
  · obtain ⟨v, _, h⟩ := Res.bind_eq_ok.1 h
    cases h
    exact next_suffix _
  · cases h
    exact List.suffix_refl _

theorem parseSymbol_panic {p : List Str} (h : (parseSymbol p : Res (Symbol F × List Str)) = .panic) : LibDefect p := by
  unfold parseSymbol at h
  obtain ⟨p1, h1, h⟩ := panic_step (assumeLine_quiet _ _) h
  have s1 : p1 <:+ p := (assumeLine_suffix h1).trans (next_suffix _)
  rcases Res.bind_eq_panic.1 h with h' | ⟨l, hl, h⟩
  · obtain rfl := here_panic h'
    match p, h1 with
    | [], h1 => cases h1
    | x :: q, h1 =>
      have : q = [str! "#"] := by
        unfold assumeLine next at h1
        simp only [List.drop_succ_cons, List.drop_zero] at h1
        split at h1
        · cases h1
        · split at h1
          · cases h1
          · rename_i hne
            cases h1
            simpa using hne
      rw [this]
      exact .cutComment (a := [])
  obtain ⟨q, rfl⟩ : ∃ q, p1 = l :: q := by
    cases p1 with
    | nil => cases hl
    | cons x q => cases hl; exact ⟨q, rfl⟩
  obtain ⟨s0, hs0, h⟩ := panic_step (parseDef_quiet _) h
  obtain ⟨v, hv, hv0⟩ := parseDef_first hs0
  rcases Res.bind_eq_panic.1 h with h' | ⟨⟨fields, p2⟩, hf, h⟩
  · rcases parseFields_cause h' with he | hd
    · refine LibDefect.mono s1 ?_
      have : q = [] := by simpa [next] using he
      rw [this]
      exact .cutDefinition (a := []) hv hv0
    · exact LibDefect.mono ((next_suffix _).trans s1) hd
  obtain ⟨s2, hne2⟩ := parseFields_suffix hf
  have s2' : p2 <:+ p := s2.trans ((next_suffix _).trans s1)
  simp only at h
  rcases Res.bind_eq_panic.1 h with h' | ⟨h0, hh, h⟩
  · exact absurd (here_panic h') hne2
  obtain ⟨q2, rfl⟩ : ∃ q2, p2 = h0 :: q2 := by
    cases p2 with
    | nil => cases hh
    | cons x q => cases hh; exact ⟨q, rfl⟩
  generalize hp3e : (if h0 = str! "$FPLIST" then skipFplist (next (h0 :: q2)) else h0 :: q2) = p3 at h
  have s3 : p3 <:+ p := by
    rw [← hp3e]
    split
    · exact (skipFplist_suffix _).trans ((next_suffix _).trans s2')
    · exact s2'
  rcases Res.bind_eq_panic.1 h with h' | ⟨⟨aliases, p4⟩, ha, h⟩
  · obtain rfl := parseAliases_panic h'
    split at hp3e
    · rename_i he
      subst he
      exact LibDefect.mono s2' (.cutFilters (a := []) (skipFplist_nil hp3e))
    · cases hp3e
  simp only at h
  obtain ⟨p5, h5, h⟩ := panic_step (assumeLine_quiet _ _) h
  obtain ⟨⟨draw, p6⟩, hd, h⟩ := panic_step (parseDraws_quiet _ _) h
  simp only at h
  obtain ⟨p7, h7, h⟩ := panic_step (assumeLine_quiet _ _) h
  obtain ⟨p8, h8, h⟩ := panic_step (assumeLine_quiet _ _) h
  cases h

theorem parseSymbol_suffix {p p' : List Str} {s : Symbol F} (h : parseSymbol p = .ok (s, p')) : p' <:+ p := by
  unfold parseSymbol at h
  obtain ⟨p1, h1, h⟩ := Res.bind_eq_ok.1 h
  obtain ⟨l, hl, h⟩ := Res.bind_eq_ok.1 h
  obtain ⟨s0, hs0, h⟩ := Res.bind_eq_ok.1 h
  obtain ⟨⟨fields, p2⟩, hf, h⟩ := Res.bind_eq_ok.1 h
  simp only at h
  obtain ⟨h0, _, h⟩ := Res.bind_eq_ok.1 h
  generalize hp3e : (if h0 = str! "$FPLIST" then skipFplist (next p2) else p2) = p3 at h
  obtain ⟨⟨aliases, p4⟩, ha, h⟩ := Res.bind_eq_ok.1 h
  simp only at h
  obtain ⟨p5, h5, h⟩ := Res.bind_eq_ok.1 h
  obtain ⟨⟨draw, p6⟩, hd, h⟩ := Res.bind_eq_ok.1 h
  simp only at h
  obtain ⟨p7, h7, h⟩ := Res.bind_eq_ok.1 h
  obtain ⟨p8, h8, h⟩ := Res.bind_eq_ok.1 h
  cases h
  have s3 : p3 <:+ p2 := by
    rw [← hp3e]
    split
    · exact (skipFplist_suffix _).trans (next_suffix _)
    · exact List.suffix_refl _
  exact (assumeLine_suffix h8).trans ((assumeLine_suffix h7).trans ((parseDraws_suffix hd).trans
    ((assumeLine_suffix h5).trans ((parseAliases_suffix ha).trans (s3.trans ((parseFields_suffix hf).1.trans
      ((next_suffix _).trans ((assumeLine_suffix h1).trans (next_suffix _)))))))))

theorem parseSymbols_panic {n : Nat} {acc : List (Symbol F)} {p : List Str} (h : parseSymbols n acc p = .panic) :
    LibDefect p := by
  induction n generalizing acc p with
  | zero => cases p <;> cases h
  | succ n ih =>
    cases p with
    | nil => cases h
    | cons x p =>
      rw [parseSymbols] at h
      split at h
      · cases h
      · rcases Res.bind_eq_panic.1 h with h' | ⟨⟨s, p1⟩, hs, h⟩
        · exact parseSymbol_panic h'
        · exact LibDefect.mono (parseSymbol_suffix hs) (ih h)

theorem parseLines_panic {p : List Str} (h : (parseLines p : Res (SymbolLib F)) = .panic) : LibDefect (p.drop 3) := by
  unfold parseLines at h
  obtain ⟨p1, h1, h⟩ := panic_step (assumeLine_quiet _ _) h
  obtain ⟨p2, h2, h⟩ := panic_step (assumeLine_quiet _ _) h
  obtain ⟨p3, h3, h⟩ := panic_step (assumeLine_quiet _ _) h
  have hd : p.drop 3 = p3 := by
    have key : ∀ {e : Str} {p p' : List Str}, assumeLine e p = .ok p' → p.drop 1 = p' := by
      intro e p p' h
      unfold assumeLine at h
      split at h
      · cases h
      · split at h
        · cases h
        · cases h; rfl
    rw [← key h3, ← key h2, ← key h1]
    simp
  rw [hd]
  rcases Res.bind_eq_panic.1 h with h' | ⟨ss, _, h⟩
  · exact parseSymbols_panic h'
  · cases h

end Verif.Lib
