import Verif.Lemmas.SchTerm
import Verif.Spec.SchematicDefects
/-!
# Reading a schematic: where panics come from
-/

namespace Verif
open Flt

set_option linter.unusedSectionVars false

namespace Res

/-- The call does not panic. -/
def Quiet {α : Type} (x : Res α) : Prop := x ≠ .panic

theorem quiet_bind {α β : Type} {x : Res α} {f : α → Res β} (h : x.Quiet)
    (hf : ∀ a, x = .ok a → (f a).Quiet) : (x >>= f).Quiet := by
  intro hd
  rcases Res.bind_eq_panic.1 hd with h' | ⟨a, ha, h'⟩
  · exact h h'
  · exact hf a ha h'

theorem quiet_ok {α : Type} (a : α) : (Res.ok a).Quiet := by intro h; cases h
theorem quiet_err {α : Type} (e : Err) : (Res.err e : Res α).Quiet := by intro h; cases h

theorem quiet_ite {α : Type} {c : Prop} [Decidable c] {a b : Res α} (ha : a.Quiet) (hb : b.Quiet) :
    (if c then a else b).Quiet := by split <;> assumption

end Res

open Res Spec

theorem splitInt_quiet (n : Option Nat) (s : Str) : (splitInt n s).Quiet := by
  unfold splitInt
  split
  · exact quiet_ite (quiet_err _) (quiet_ok _)
  · exact quiet_ok _

theorem splitN_length {n : Nat} {s : Str} {v : List Str} (h : splitN n s = .ok v) : n ≤ v.length := by
  unfold splitN splitInt at h
  simp only at h
  split at h
  · cases h
  · cases h; omega

namespace Sch

variable {F : Type} [Flt F]

theorem idx_quiet {v : List Str} {n : Nat} (h : n < v.length) : (idx v n).Quiet := by
  unfold idx
  rw [List.getElem?_eq_getElem h]
  exact quiet_ok _

theorem i64R_quiet (s : Str) : (i64R s).Quiet := by
  unfold i64R; split
  · exact quiet_ok _
  · exact quiet_err _

theorem f64R_quiet (s : Str) : (f64R s : Res F).Quiet := by
  unfold f64R; split
  · exact quiet_ok _
  · exact quiet_err _

theorem boolFrom_quiet {α : Type} [DecidableEq α] (x t f : α) : (boolFrom x t f).Quiet := by
  unfold boolFrom
  exact quiet_ite (quiet_ok _) (quiet_ite (quiet_ok _) (quiet_err _))

theorem assumeString_quiet (a b : Str) : (assumeString a b).Quiet := by
  unfold assumeString
  exact quiet_ite (quiet_err _) (quiet_ok _)

theorem splitN_quiet (n : Nat) (s : Str) : (splitN n s).Quiet := splitInt_quiet _ _
theorem splitQ_quiet (s : Str) : (splitQ s).Quiet := splitInt_quiet _ _

theorem Orientation.new_quiet (c : Char) : (Orientation.new c).Quiet := by
  unfold Orientation.new
  repeat' with_reducible first | exact quiet_ok _ | exact quiet_err _ | apply quiet_ite

theorem Justify.new_quiet (c : Char) : (Justify.new c).Quiet := by
  unfold Justify.new
  repeat' with_reducible first | exact quiet_ok _ | exact quiet_err _ | apply quiet_ite

theorem parseLabelForm_quiet (s : Str) : (parseLabelForm s).Quiet := by
  unfold parseLabelForm
  repeat' with_reducible first | exact quiet_ok _ | exact quiet_err _ | apply quiet_ite

theorem parseLabelSide_quiet (s : Str) : (parseLabelSide s).Quiet := by
  unfold parseLabelSide
  repeat' with_reducible first | exact quiet_ok _ | exact quiet_err _ | apply quiet_ite

theorem parseTextType_quiet (s : Str) : (parseTextType s).Quiet := by
  unfold parseTextType
  repeat' with_reducible first | exact quiet_ok _ | exact quiet_err _ | apply quiet_ite

theorem charAt_panic {s : Str} {n : Nat} (h : charAt s n = .panic) : s.length ≤ n := by
  unfold charAt at h
  split at h
  · cases h
  · rename_i he; exact List.getElem?_eq_none_iff.1 he

theorem idx_ok {v : List Str} {n : Nat} {w : Str} (h : idx v n = .ok w) : v[n]? = some w := by
  unfold idx at h
  split at h
  · rename_i he; cases h; exact he
  · cases h

/-- A field line that makes the reader panic. -/
theorem Field.new_panic {v : List Str} (h : (Field.new v : Res (Field F)) = .panic) :
    (v.length = 10 ∨ v.length = 11) ∧
      (v[3]? = some [] ∨ v[8]? = some [] ∨ ∃ w, v[9]? = some w ∧ w.length < 3) := by
  unfold Field.new at h
  split at h
  · cases h
  rename_i hlen
  have hl : v.length = 10 ∨ v.length = 11 := by omega
  refine ⟨hl, ?_⟩
  have q : ∀ n, n < 10 → (idx v n).Quiet := fun n hn => idx_quiet (by omega)
  have step : ∀ {α β : Type} {x : Res α} {f : α → Res β}, x.Quiet → (x >>= f) = .panic →
      ∃ a, x = .ok a ∧ f a = .panic := by
    intro α β x f hx h
    rcases Res.bind_eq_panic.1 h with h' | h'
    · exact absurd h' hx
    · exact h'
  obtain ⟨_, _, h⟩ := step (q 1 (by decide)) h
  obtain ⟨i, _, h⟩ := step (i64R_quiet _) h
  extract_lets jp at h
  have hj : ∃ nm, jp nm = .panic := by
    split at h
    · obtain ⟨nm, _, h⟩ := step (idx_quiet (by omega)) h
      exact ⟨nm, h⟩
    · repeat' split at h
      all_goals first
        | (obtain ⟨nm, _, h⟩ := step (quiet_ok _) h; exact ⟨nm, h⟩)
        | cases h
  clear h
  obtain ⟨nm, h⟩ := hj
  simp only [jp] at h
  obtain ⟨_, _, h⟩ := step (q 2 (by decide)) h
  obtain ⟨w3, h3, h⟩ := step (q 3 (by decide)) h
  rcases Res.bind_eq_panic.1 h with h' | ⟨_, _, h⟩
  · left
    have := charAt_panic h'
    rw [idx_ok h3, List.length_eq_zero_iff.1 (Nat.le_zero.1 this)]
  obtain ⟨_, _, h⟩ := step (Orientation.new_quiet _) h
  obtain ⟨_, _, h⟩ := step (q 4 (by decide)) h
  obtain ⟨_, _, h⟩ := step (f64R_quiet _) h
  obtain ⟨_, _, h⟩ := step (q 5 (by decide)) h
  obtain ⟨_, _, h⟩ := step (f64R_quiet _) h
  obtain ⟨_, _, h⟩ := step (q 6 (by decide)) h
  obtain ⟨_, _, h⟩ := step (i64R_quiet _) h
  obtain ⟨_, _, h⟩ := step (q 7 (by decide)) h
  obtain ⟨_, _, h⟩ := step (boolFrom_quiet _ _ _) h
  obtain ⟨w8, h8, h⟩ := step (q 8 (by decide)) h
  rcases Res.bind_eq_panic.1 h with h' | ⟨_, _, h⟩
  · right; left
    have := charAt_panic h'
    rw [idx_ok h8, List.length_eq_zero_iff.1 (Nat.le_zero.1 this)]
  right; right
  obtain ⟨_, _, h⟩ := step (Justify.new_quiet _) h
  obtain ⟨w9, h9, h⟩ := step (q 9 (by decide)) h
  refine ⟨w9, idx_ok h9, ?_⟩
  rcases Res.bind_eq_panic.1 h with h' | ⟨_, _, h⟩
  · have := charAt_panic h'; omega
  obtain ⟨_, _, h⟩ := step (Justify.new_quiet _) h
  obtain ⟨w9', h9', h⟩ := step (q 9 (by decide)) h
  rw [h9] at h9'; cases h9'
  rcases Res.bind_eq_panic.1 h with h' | ⟨_, _, h⟩
  · have := charAt_panic h'; omega
  obtain ⟨_, _, h⟩ := step (boolFrom_quiet _ _ _) h
  obtain ⟨w9', h9', h⟩ := step (q 9 (by decide)) h
  rw [h9] at h9'; cases h9'
  rcases Res.bind_eq_panic.1 h with h' | ⟨_, _, h⟩
  · have := charAt_panic h'; omega
  obtain ⟨_, _, h⟩ := step (boolFrom_quiet _ _ _) h
  cases h

/-- Readers that split a line first and index the pieces afterwards do not panic. -/
macro "quiets" : tactic => `(tactic|
  repeat' with_reducible first
    | exact quiet_ok _ | exact quiet_err _
    | exact i64R_quiet _ | exact f64R_quiet _ | exact boolFrom_quiet _ _ _ | exact assumeString_quiet _ _
    | exact splitN_quiet _ _ | exact splitQ_quiet _ | exact parseLabelForm_quiet _
    | exact parseLabelSide_quiet _ | exact parseTextType_quiet _
    | (exact idx_quiet (by omega))
    | apply quiet_ite
    | (refine quiet_bind ?_ fun _ _ => ?_))

theorem wordAndQstring_quiet (n s : Str) : (wordAndQstring n s).Quiet := by
  unfold wordAndQstring
  refine quiet_bind (splitN_quiet _ _) fun v hv => ?_
  have := splitN_length hv
  quiets

theorem parseComponentL_quiet (s : Str) (d : Component F) : (parseComponentL s d).Quiet := by
  unfold parseComponentL
  refine quiet_bind (splitN_quiet _ _) fun v hv => ?_
  have := splitN_length hv
  quiets

theorem parseComponentP_quiet (s : Str) (d : Component F) : (parseComponentP s d).Quiet := by
  unfold parseComponentP
  refine quiet_bind (splitN_quiet _ _) fun v hv => ?_
  have := splitN_length hv
  quiets

theorem parseRotation_quiet (s : Str) : (parseRotation s).Quiet := by
  unfold parseRotation
  simp only
  split
  · exact quiet_err _
  · quiets

theorem parseSheetS_quiet (s : Str) (d : Sheet) : (parseSheetS s d).Quiet := by
  unfold parseSheetS
  refine quiet_bind (splitN_quiet _ _) fun v hv => ?_
  have := splitN_length hv
  quiets

theorem parseSheetU_quiet (s : Str) (d : Sheet) : (parseSheetU s d).Quiet := by
  unfold parseSheetU
  refine quiet_bind (splitN_quiet _ _) fun v hv => ?_
  have := splitN_length hv
  quiets

theorem parseSheetLabel_quiet (s : Str) : (parseSheetLabel s).Quiet := by
  unfold parseSheetLabel
  refine quiet_bind (splitN_quiet _ _) fun v hv => ?_
  have := splitN_length hv
  quiets

theorem parseSheetF_quiet (s : Str) (d : Sheet) (f : Str) : (parseSheetF s d f).Quiet := by
  unfold parseSheetF
  refine quiet_bind (i64R_quiet _) fun i _ => quiet_ite ?_ (quiet_ite ?_ ?_)
  · refine quiet_bind (splitN_quiet _ _) fun v hv => ?_
    have := splitN_length hv
    quiets
  · refine quiet_bind (splitN_quiet _ _) fun v hv => ?_
    have := splitN_length hv
    quiets
  · exact quiet_bind (parseSheetLabel_quiet _) fun _ _ => quiet_ok _

theorem parsePos_quiet (s : Str) : (parsePos s).Quiet := by
  unfold parsePos
  simp only
  split
  · exact quiet_err _
  · quiets

theorem parseComponentF_panic {s : Str} {d : Component F} (hw : firstWord s = some (str! "F"))
    (h : parseComponentF s d = .panic) : BadField s := by
  unfold parseComponentF at h
  rcases Res.bind_eq_panic.1 h with h' | ⟨v, hv, h⟩
  · exact absurd h' (splitQ_quiet _)
  rcases Res.bind_eq_panic.1 h with h' | ⟨_, _, h⟩
  · exact ⟨hw, v, hv, Field.new_panic h'⟩
  · cases h

theorem parseRotation_ok {s : Str} {r : Rotation} (h : parseRotation s = .ok r) : (splitWs s).length = 4 := by
  unfold parseRotation at h
  simp only at h
  split at h
  · cases h
  · omega

/-- The loop over the lines of a component panics only if the end mark is missing or
a field line is bad; it returns a suffix of the lines. -/
theorem parseComponentLoop_panic : ∀ (n : Nat) (p : List Str) (d : Component F), p.length ≤ n →
    (parseComponentLoop d p = .panic → str! "$EndComp" ∉ p ∨ ∃ l ∈ p, BadField l) ∧
    ∀ d' p', parseComponentLoop d p = .ok (d', p') → p' <:+ p
  | _, [], d, _ => by
    rw [parseComponentLoop]
    exact ⟨fun _ => Or.inl (by simp), by intro _ _ h; cases h⟩
  | 0, _ :: _, _, h => by simp at h
  | n + 1, s :: rest, d, h => by
    have hr : rest.length ≤ n := by simpa using h
    have ih := fun d : Component F => parseComponentLoop_panic n rest d hr
    by_cases hs : s = str! "$EndComp"
    · rw [parseComponentLoop.eq_def]
      simp only [if_pos hs]
      exact ⟨(fun h => by cases h), (fun _ _ h => by cases h; exact List.suffix_rfl)⟩
    have up : (str! "$EndComp" ∉ rest ∨ ∃ l ∈ rest, BadField l) →
        (str! "$EndComp" ∉ s :: rest ∨ ∃ l ∈ s :: rest, BadField l) := by
      rintro (h | ⟨l, hl, hb⟩)
      · left
        simp only [List.mem_cons, not_or]
        exact ⟨fun he => hs he.symm, h⟩
      · exact Or.inr ⟨l, List.mem_cons_of_mem _ hl, hb⟩
    have ih2 : ∀ {x : Res (Component F)}, (x = .panic → BadField s) →
        ((x >>= fun d => parseComponentLoop d rest) = .panic →
          (str! "$EndComp" ∉ s :: rest ∨ ∃ l ∈ s :: rest, BadField l)) ∧
        ∀ d' p', (x >>= fun d => parseComponentLoop d rest) = .ok (d', p') → p' <:+ s :: rest := by
      intro x hx
      constructor
      · intro h
        rcases Res.bind_eq_panic.1 h with h | ⟨a, _, h⟩
        · exact Or.inr ⟨s, List.mem_cons_self .., hx h⟩
        · exact up ((ih a).1 h)
      · intro d' p' h
        obtain ⟨a, _, h⟩ := Res.bind_eq_ok.1 h
        exact ((ih a).2 d' p' h).trans (List.suffix_cons ..)
    have ih3 : ∀ d : Component F, (parseComponentLoop d rest = .panic →
          (str! "$EndComp" ∉ s :: rest ∨ ∃ l ∈ s :: rest, BadField l)) ∧
        ∀ d' p', parseComponentLoop d rest = .ok (d', p') → p' <:+ s :: rest :=
      fun d => ⟨fun h => up ((ih d).1 h), fun d' p' h => ((ih d).2 d' p' h).trans (List.suffix_cons ..)⟩
    rw [parseComponentLoop.eq_def]
    simp only [if_neg hs]
    split
    · exact ih2 fun h => absurd h (parseComponentL_quiet s d)
    split
    · exact ih3 _
    split
    · exact ih2 fun h => absurd h (parseComponentP_quiet s d)
    split
    · rename_i hw; exact ih2 fun h => parseComponentF_panic hw h
    split
    · split
      · refine ⟨fun _ => Or.inl ?_, by intro _ _ h; cases h⟩
        simp only [List.mem_singleton]
        exact fun he => hs he.symm
      · rename_i s2 rest2
        have hr2 : rest2.length ≤ n := by simp only [List.length_cons] at hr; omega
        constructor
        · intro h
          rcases Res.bind_eq_panic.1 h with h | ⟨a, ha, h⟩
          · exact absurd h (parseRotation_quiet s2)
          · have h2 : s2 ≠ str! "$EndComp" := by
              rintro rfl
              exact absurd (parseRotation_ok ha) (by decide)
            rcases (parseComponentLoop_panic n rest2 ({ d with rotation := a } : Component F) hr2).1 h with h | ⟨l, hl, hb⟩
            · left
              simp only [List.mem_cons, not_or]
              exact ⟨fun he => hs he.symm, fun he => h2 he.symm, h⟩
            · exact Or.inr ⟨l, List.mem_cons_of_mem _ (List.mem_cons_of_mem _ hl), hb⟩
        · intro d' p' h
          obtain ⟨a, _, h⟩ := Res.bind_eq_ok.1 h
          exact ((parseComponentLoop_panic n rest2 ({ d with rotation := a } : Component F) hr2).2 d' p' h).trans
            ((List.suffix_cons ..).trans (List.suffix_cons ..))
    split
    · exact ih3 _
    · exact ih3 _

/-- The loop over the lines of a sheet panics only if the end mark is missing. -/
theorem parseSheetLoop_panic : ∀ (p : List Str) (d : Sheet),
    (parseSheetLoop d p = .panic → str! "$EndSheet" ∉ p) ∧
    ∀ d' p', parseSheetLoop d p = .ok (d', p') → p' <:+ p
  | [], d => by
    rw [parseSheetLoop]
    exact ⟨fun _ => by simp, by intro _ _ h; cases h⟩
  | s :: rest, d => by
    have ih := fun d => parseSheetLoop_panic rest d
    by_cases hs : s = str! "$EndSheet"
    · rw [parseSheetLoop, if_pos hs]
      exact ⟨(fun h => by cases h), (fun _ _ h => by cases h; exact List.suffix_rfl)⟩
    have up : str! "$EndSheet" ∉ rest → str! "$EndSheet" ∉ s :: rest := by
      intro h
      simp only [List.mem_cons, not_or]
      exact ⟨fun he => hs he.symm, h⟩
    have ih2 : ∀ {x : Res Sheet}, x.Quiet →
        ((x >>= fun d => parseSheetLoop d rest) = .panic → str! "$EndSheet" ∉ s :: rest) ∧
        ∀ d' p', (x >>= fun d => parseSheetLoop d rest) = .ok (d', p') → p' <:+ s :: rest := by
      intro x hx
      constructor
      · intro h
        rcases Res.bind_eq_panic.1 h with h | ⟨a, _, h⟩
        · exact absurd h hx
        · exact up ((ih a).1 h)
      · intro d' p' h
        obtain ⟨a, _, h⟩ := Res.bind_eq_ok.1 h
        exact ((ih a).2 d' p' h).trans (List.suffix_cons ..)
    have ih3 : ∀ d, (parseSheetLoop d rest = .panic → str! "$EndSheet" ∉ s :: rest) ∧
        ∀ d' p', parseSheetLoop d rest = .ok (d', p') → p' <:+ s :: rest :=
      fun d => ⟨fun h => up ((ih d).1 h), fun d' p' h => ((ih d).2 d' p' h).trans (List.suffix_cons ..)⟩
    rw [parseSheetLoop, if_neg hs]
    split
    · split
      · exact ih2 (parseSheetS_quiet s d)
      split
      · exact ih2 (parseSheetU_quiet s d)
      split
      · exact ih2 (parseSheetF_quiet s d _)
      · exact ih3 _
    · exact ih3 _

theorem here_panic {p : List Str} (h : here p = .panic) : p = [] := by
  cases p with
  | nil => rfl
  | cons a p => cases h

theorem next_suffix (p : List Str) : next p <:+ p := List.drop_suffix 1 p

/-- The description panics only if the file ends in it. -/
theorem parseDescription_panic {s : Str} {rest : List Str} :
    (parseDescription (s :: rest) = .panic → rest.length < 11) ∧
    ∀ d p', parseDescription (s :: rest) = .ok (d, p') → p' <:+ s :: rest := by
  have step : ∀ {α β : Type} {x : Res α} {f : α → Res β}, x.Quiet → (x >>= f) = .panic →
      ∃ a, x = .ok a ∧ f a = .panic := by
    intro α β x f hx h
    rcases Res.bind_eq_panic.1 h with h' | h'
    · exact absurd h' hx
    · exact h'
  have line : ∀ {α : Type} {k : Nat} {f : Str → Res α}, (here ((s :: rest).drop k) >>= f) = .panic →
      k ≤ 11 → rest.length < 11 ∨ ∃ a, here ((s :: rest).drop k) = .ok a ∧ f a = .panic := by
    intro α k f h hk
    rcases Res.bind_eq_panic.1 h with h' | h'
    · left
      have := here_panic h'
      have := congrArg List.length this
      simp only [List.length_drop, List.length_cons, List.length_nil] at this
      omega
    · exact Or.inr h'
  have e : ∀ k, next ((s :: rest).drop k) = (s :: rest).drop (k + 1) := by
    intro k; rw [next, List.drop_drop]
  constructor
  · intro h
    unfold parseDescription at h
    have e0 : next (s :: rest) = (s :: rest).drop 1 := rfl
    simp only [e0, e] at h
    obtain ⟨_, _, h⟩ := step (quiet_ok _) h
    obtain ⟨v, hv, h⟩ := step (splitN_quiet _ _) h
    have hl := splitN_length hv
    obtain ⟨_, _, h⟩ := step (idx_quiet (by omega)) h
    obtain ⟨_, _, h⟩ := step (idx_quiet (by omega)) h
    obtain ⟨_, _, h⟩ := step (i64R_quiet _) h
    obtain ⟨_, _, h⟩ := step (idx_quiet (by omega)) h
    obtain ⟨_, _, h⟩ := step (i64R_quiet _) h
    rcases line h (by omega) with h | ⟨_, _, h⟩
    · exact h
    obtain ⟨v, hv, h⟩ := step (splitN_quiet _ _) h
    have hl := splitN_length hv
    obtain ⟨_, _, h⟩ := step (idx_quiet (by omega)) h
    split at h
    · cases h
    obtain ⟨_, _, h⟩ := step (idx_quiet (by omega)) h
    obtain ⟨_, _, h⟩ := step (i64R_quiet _) h
    obtain ⟨_, _, h⟩ := step (idx_quiet (by omega)) h
    obtain ⟨_, _, h⟩ := step (i64R_quiet _) h
    rcases line h (by omega) with h | ⟨_, _, h⟩
    · exact h
    obtain ⟨_, _, h⟩ := step (wordAndQstring_quiet _ _) h
    rcases line h (by omega) with h | ⟨_, _, h⟩
    · exact h
    obtain ⟨_, _, h⟩ := step (wordAndQstring_quiet _ _) h
    rcases line h (by omega) with h | ⟨_, _, h⟩
    · exact h
    obtain ⟨_, _, h⟩ := step (wordAndQstring_quiet _ _) h
    rcases line h (by omega) with h | ⟨_, _, h⟩
    · exact h
    obtain ⟨_, _, h⟩ := step (wordAndQstring_quiet _ _) h
    rcases line h (by omega) with h | ⟨_, _, h⟩
    · exact h
    obtain ⟨_, _, h⟩ := step (wordAndQstring_quiet _ _) h
    rcases line h (by omega) with h | ⟨_, _, h⟩
    · exact h
    obtain ⟨_, _, h⟩ := step (wordAndQstring_quiet _ _) h
    rcases line h (by omega) with h | ⟨_, _, h⟩
    · exact h
    obtain ⟨_, _, h⟩ := step (wordAndQstring_quiet _ _) h
    rcases line h (by omega) with h | ⟨_, _, h⟩
    · exact h
    obtain ⟨_, _, h⟩ := step (wordAndQstring_quiet _ _) h
    rcases line h (by omega) with h | ⟨_, _, h⟩
    · exact h
    obtain ⟨_, _, h⟩ := step (assumeString_quiet _ _) h
    cases h
  · intro d p' h
    unfold parseDescription at h
    repeat (obtain ⟨_, _, h⟩ := Res.bind_eq_ok.1 h)
    split at h
    · cases h
    repeat (obtain ⟨_, _, h⟩ := Res.bind_eq_ok.1 h)
    cases h
    have e0 : next (s :: rest) = (s :: rest).drop 1 := rfl
    simp only [e0, e]
    exact List.drop_suffix _ _

theorem parseWire_panic {s : Str} {rest : List Str} :
    (parseWire (s :: rest) = .panic → rest = []) ∧
    ∀ d p', parseWire (s :: rest) = .ok (d, p') → p' <:+ s :: rest := by
  unfold parseWire
  simp only [here, Res.bind_ok]
  split
  · exact ⟨(fun h => by cases h), (fun _ _ h => by cases h)⟩
  constructor
  · intro h
    rcases Res.bind_eq_panic.1 h with h' | ⟨w, _, h⟩
    · exact absurd h' (idx_quiet (by omega))
    rcases Res.bind_eq_panic.1 h with h' | ⟨l, _, h⟩
    · cases rest with
      | nil => rfl
      | cons a r => cases h'
    · split at h
      · cases h
      · exfalso
        refine (?_ : Quiet _) h
        quiets
  · intro d p' h
    obtain ⟨_, _, h⟩ := Res.bind_eq_ok.1 h
    obtain ⟨_, _, h⟩ := Res.bind_eq_ok.1 h
    split at h
    · cases h
    repeat (obtain ⟨_, _, h⟩ := Res.bind_eq_ok.1 h)
    cases h
    exact next_suffix _

theorem parseTextType_nonlocal {s : Str} {t : TextType} (h : parseTextType s = .ok t) (ht : t.isLocal = false) :
    s = str! "GLabel" ∨ s = str! "HLabel" := by
  unfold parseTextType at h
  split at h
  · cases h; cases ht
  split at h
  · cases h; cases ht
  split at h
  · left; assumption
  split at h
  · right; assumption
  · cases h

theorem parseText_panic {s : Str} {rest : List Str} (hw : firstWord s = some (str! "Text")) :
    (parseText (s :: rest) = .panic → rest = [] ∨ ShortLabel s) ∧
    ∀ d p', parseText (s :: rest) = .ok (d, p') → p' <:+ s :: rest := by
  have step : ∀ {α β : Type} {x : Res α} {f : α → Res β}, x.Quiet → (x >>= f) = .panic →
      ∃ a, x = .ok a ∧ f a = .panic := by
    intro α β x f hx h
    rcases Res.bind_eq_panic.1 h with h' | h'
    · exact absurd h' hx
    · exact h'
  unfold parseText
  simp only [here, Res.bind_ok]
  split
  · exact ⟨(fun h => by cases h), (fun _ _ h => by cases h)⟩
  rename_i hlen
  constructor
  · intro h
    obtain ⟨w, h1, h⟩ := step (idx_quiet (by omega)) h
    obtain ⟨t, ht, h⟩ := step (parseTextType_quiet _) h
    obtain ⟨_, _, h⟩ := step (idx_quiet (by omega)) h
    obtain ⟨_, _, h⟩ := step (i64R_quiet _) h
    obtain ⟨_, _, h⟩ := step (idx_quiet (by omega)) h
    obtain ⟨_, _, h⟩ := step (i64R_quiet _) h
    obtain ⟨_, _, h⟩ := step (idx_quiet (by omega)) h
    obtain ⟨_, _, h⟩ := step (i64R_quiet _) h
    obtain ⟨_, _, h⟩ := step (idx_quiet (by omega)) h
    obtain ⟨_, _, h⟩ := step (i64R_quiet _) h
    cases hl : t.isLocal with
    | true =>
      left
      simp only [hl, if_true] at h
      obtain ⟨_, _, h⟩ := step (idx_quiet (by omega)) h
      obtain ⟨_, _, h⟩ := step (idx_quiet (by omega)) h
      obtain ⟨_, _, h⟩ := step (i64R_quiet _) h
      rcases Res.bind_eq_panic.1 h with h' | ⟨_, _, h⟩
      · cases rest with
        | nil => rfl
        | cons a r => cases h'
      · cases h
    | false =>
      simp only [hl, Bool.false_eq_true, if_false] at h
      obtain ⟨_, _, h⟩ := step (idx_quiet (by omega)) h
      obtain ⟨_, _, h⟩ := step (idx_quiet (by omega)) h
      rcases Res.bind_eq_panic.1 h with h' | ⟨_, _, h⟩
      · right
        refine ⟨hw, ?_, ?_⟩
        · by_cases h9 : (splitWs s).length = 8
          · exact h9
          · exact absurd h' (idx_quiet (by omega))
        · rw [idx_ok h1]
          exact (parseTextType_nonlocal ht hl).imp (fun h => by rw [h]) (fun h => by rw [h])
      left
      obtain ⟨_, _, h⟩ := step (i64R_quiet _) h
      rcases Res.bind_eq_panic.1 h with h' | ⟨_, _, h⟩
      · cases rest with
        | nil => rfl
        | cons a r => cases h'
      · cases h
  · intro d p' h
    repeat (obtain ⟨_, _, h⟩ := Res.bind_eq_ok.1 h)
    split at h
    all_goals
      repeat (obtain ⟨_, _, h⟩ := Res.bind_eq_ok.1 h)
      cases h
      exact next_suffix _

theorem splitWsAux_nil_cur : ∀ (s cur : Str), splitWsAux cur s = [] → cur = [] ∧ ∀ c ∈ s, isWs c = true
  | [], cur, h => by
    rw [splitWsAux] at h
    split at h
    · rename_i hc; exact ⟨List.isEmpty_iff.1 hc, by simp⟩
    · cases h
  | c :: s, cur, h => by
    rw [splitWsAux] at h
    split at h
    · rename_i hc
      split at h
      · rename_i he
        refine ⟨List.isEmpty_iff.1 he, ?_⟩
        intro x hx
        rcases List.mem_cons.1 hx with rfl | hx
        · exact hc
        · exact (splitWsAux_nil_cur s [] h).2 x hx
      · cases h
    · exact absurd (splitWsAux_nil_cur s _ h).1 (by simp)

theorem firstWord_none {s : Str} (h : firstWord s = none) : ∀ c ∈ s, isWs c = true := by
  rw [firstWord, List.head?_eq_none_iff] at h
  exact (splitWsAux_nil_cur s [] h).2

/-- What is claimed of the reader of one item. -/
def ItemQuiet (ls : List Str) (x : Res (Schematic F × List Str)) : Prop :=
  (x = .panic → ItemDefect ls) ∧ ∀ sch' p', x = .ok (sch', p') → p' <:+ ls

theorem itemQuiet_ite {ls : List Str} {c : Prop} [Decidable c] {a b : Res (Schematic F × List Str)}
    (ha : c → ItemQuiet ls a) (hb : ItemQuiet ls b) : ItemQuiet ls (if c then a else b) := by
  by_cases h : c
  · rw [if_pos h]; exact ha h
  · rw [if_neg h]; exact hb

theorem itemQuiet_map {ls : List Str} {α : Type} {x : Res (α × List Str)} (g : α → Schematic F)
    (hx : (x = .panic → ItemDefect ls) ∧ ∀ d p', x = .ok (d, p') → p' <:+ ls) :
    ItemQuiet ls (x >>= fun r => .ok (g r.1, r.2)) := by
  constructor
  · intro h
    rcases Res.bind_eq_panic.1 h with h | ⟨⟨a, q⟩, _, h⟩
    · exact hx.1 h
    · cases h
  · intro sch' p' h
    obtain ⟨⟨a, q⟩, ha, h⟩ := Res.bind_eq_ok.1 h
    cases h
    exact hx.2 a _ ha

theorem itemQuiet_pos {s : Str} {ls : List Str} (g : Pos → Schematic F) :
    ItemQuiet ls (do let d ← parsePos s; .ok (g d, ls)) := by
  constructor
  · intro h
    rcases Res.bind_eq_panic.1 h with h | ⟨a, _, h⟩
    · exact absurd h (parsePos_quiet s)
    · cases h
  · intro sch' p' h
    obtain ⟨a, _, h⟩ := Res.bind_eq_ok.1 h
    cases h
    exact List.suffix_rfl

/-- One item panics only on damage; it returns a suffix of the lines. -/
theorem parseItem_panic (sch : Schematic F) (s : Str) (rest : List Str) :
    ItemQuiet (s :: rest) (parseItem sch (s :: rest)) := by
  rw [parseItem]
  simp only [here, Res.bind_ok]
  cases hw : firstWord s with
  | none =>
    exact ⟨fun _ => .blankLine (List.mem_cons_self ..) (firstWord_none hw), fun _ _ h => by cases h⟩
  | some w =>
    refine itemQuiet_ite ?_ (itemQuiet_ite ?_ (itemQuiet_ite ?_ (itemQuiet_ite ?_ (itemQuiet_ite ?_
      (itemQuiet_ite ?_ (itemQuiet_ite ?_ (itemQuiet_ite ?_ ?_)))))))
    · rintro rfl
      refine itemQuiet_map (fun d => { sch with description := d })
        (x := parseDescription (s :: rest)) ⟨fun h => ?_, parseDescription_panic.2⟩
      exact .openDescription (a := []) hw (parseDescription_panic.1 h)
    · rintro rfl
      have hc := parseComponentLoop_panic (F := F) _ rest .dflt (Nat.le_refl _)
      refine itemQuiet_map (fun d => { sch with elements := sch.elements ++ [.component d] })
        (x := parseComponent (s :: rest)) ⟨fun h => ?_, fun d p' h => (hc.2 d p' h).trans (List.suffix_cons ..)⟩
      rcases hc.1 h with h | ⟨l, hl, hb⟩
      · exact .openComponent (a := []) hw h
      · exact .field (List.mem_cons_of_mem _ hl) hb
    · rintro rfl
      have hc := parseSheetLoop_panic rest .dflt
      refine itemQuiet_map (fun d => { sch with sheets := sch.sheets ++ [d] })
        (x := parseSheet (s :: rest)) ⟨fun h => ?_, fun d p' h => (hc.2 d p' h).trans (List.suffix_cons ..)⟩
      exact .openSheet (a := []) hw (hc.1 h)
    · rintro rfl
      exact ⟨(fun h => by cases h), (fun _ _ h => by cases h; exact List.suffix_rfl)⟩
    · rintro rfl
      refine itemQuiet_map (fun d => { sch with elements := sch.elements ++ [.wire d] })
        (x := parseWire (s :: rest)) ⟨fun h => ?_, parseWire_panic.2⟩
      have := parseWire_panic.1 h
      subst this
      exact .cut (a := []) (Or.inl hw)
    · exact fun _ => itemQuiet_pos _
    · exact fun _ => itemQuiet_pos _
    · rintro rfl
      refine itemQuiet_map (fun d => { sch with elements := sch.elements ++ [.text d] })
        (x := parseText (s :: rest)) ⟨fun h => ?_, (parseText_panic hw).2⟩
      rcases (parseText_panic hw).1 h with h | h
      · subst h; exact .cut (a := []) (Or.inr hw)
      · exact .label (List.mem_cons_self ..) h
    · exact ⟨(fun h => by cases h), (fun _ _ h => by cases h; exact List.suffix_rfl)⟩

/-- Damage in the later lines is damage. -/
theorem _root_.Verif.Spec.ItemDefect.lift {p ls : List Str} (h : ItemDefect p) (hs : p <:+ ls) : ItemDefect ls := by
  obtain ⟨x, rfl⟩ := hs
  cases h with
  | blankLine hl h => exact .blankLine (List.mem_append_right _ hl) h
  | field hl h => exact .field (List.mem_append_right _ hl) h
  | label hl h => exact .label (List.mem_append_right _ hl) h
  | openComponent h he => rw [← List.append_assoc]; exact .openComponent h he
  | openSheet h he => rw [← List.append_assoc]; exact .openSheet h he
  | openDescription h he => rw [← List.append_assoc]; exact .openDescription h he
  | cut h => rw [← List.append_assoc]; exact .cut h

theorem parseItems_panic : ∀ (fuel : Nat) (sch : Schematic F) (p : List Str),
    parseItems fuel sch p = .panic → ItemDefect p
  | 0, _, [], h => by rw [parseItems] at h; cases h
  | _ + 1, _, [], h => by rw [parseItems] at h; cases h
  | 0, _, _ :: _, h => by rw [parseItems] at h; cases h
  | n + 1, sch, s :: rest, h => by
    rw [parseItems] at h
    · rcases Res.bind_eq_panic.1 h with h | ⟨⟨sch', p'⟩, hp, h⟩
      · exact (parseItem_panic sch s rest).1 h
      · have := (parseItem_panic sch s rest).2 _ _ hp
        exact (parseItems_panic n _ _ h).lift ((next_suffix _).trans this)
    · intro h; cases h

theorem parseLibs_nil : ∀ {p : List Str} {sch sch' : Schematic F}, parseLibs sch p = (sch', []) →
    ∀ l ∈ p, ∃ r, l = str! "LIBS:" ++ r
  | [], _, _, _ => by simp
  | s :: rest, sch, sch', h => by
    rw [parseLibs] at h
    split at h
    · rename_i hs
      intro l hl
      rcases List.mem_cons.1 hl with rfl | hl
      · exact ⟨_, (List.prefix_iff_eq_append.1 (List.isPrefixOf_iff_prefix.1 hs)).symm⟩
      · exact parseLibs_nil h l hl
    · cases h

theorem parseLibs_suffix : ∀ (p : List Str) (sch : Schematic F), (parseLibs sch p).2 <:+ p
  | [], _ => List.suffix_rfl
  | s :: rest, sch => by
    rw [parseLibs]
    split
    · exact (parseLibs_suffix rest _).trans (List.suffix_cons ..)
    · exact List.suffix_rfl

theorem assumeLine_suffix {e : Str} {p q : List Str} (h : assumeLine e p = .ok q) : p = e :: q := by
  cases p with
  | nil => cases h
  | cons a p =>
    rw [assumeLine] at h
    split at h
    · cases h
    · rename_i he; cases h; rw [Decidable.of_not_not he]

theorem assumeLine_quiet (e : Str) (p : List Str) : (assumeLine e p).Quiet := by
  unfold assumeLine
  split
  · exact quiet_err _
  · exact quiet_ite (quiet_err _) (quiet_ok _)

theorem parseLines_panic {f : Option Str} {v : List Str} (h : (parseLines f v : Res (Schematic F)) = .panic) :
    SchDefect v := by
  unfold parseLines at h
  rcases Res.bind_eq_panic.1 h with h' | ⟨p, hp, h⟩
  · exact absurd h' (assumeLine_quiet _ _)
  have hv := assumeLine_suffix hp
  cases hl : parseLibs ({ Schematic.dflt with filename := f } : Schematic F) p with
  | mk sch q =>
    rw [hl] at h
    simp only at h
    rcases Res.bind_eq_panic.1 h with h' | ⟨s, hs, h⟩
    · left
      have := here_panic h'
      subst this
      exact ⟨p, hv, parseLibs_nil hl⟩
    split at h
    · cases h
    rcases Res.bind_eq_panic.1 h with h' | ⟨r, hr, h⟩
    · exact absurd h' (assumeLine_quiet _ _)
    right
    refine (parseItems_panic _ _ _ h).lift ?_
    have h1 := parseLibs_suffix p ({ Schematic.dflt with filename := f } : Schematic F)
    rw [hl] at h1
    have h2 : r <:+ next q := by rw [assumeLine_suffix hr]; exact List.suffix_cons ..
    rw [hv]
    exact ((h2.trans (next_suffix q)).trans h1).trans (List.suffix_cons ..)

end Sch
end Verif
